import Verif.Model.Guil.Instance
import Mathlib.Order.WithBot
import Mathlib.Algebra.Order.Monoid.WithTop

/-!
# The dynamic programs for one guillotine bin

Models the tables of `src/rectangleguillotine/tree_search_hypergraph.cpp` and
`src/rectangleguillotine/tree_search_hypergraph_infinite_copies.cpp`.  Profits are rational
numbers; `-infinity` is the bottom element of `WithBot ℚ`.
-/

namespace PackingSolver.Guil

/-! ## The tables -/

/-- `eff_width`, `tree_search_hypergraph.cpp:26` (the same expression at line 436 and in
`tree_search_hypergraph_infinite_copies.cpp:40`). -/
def effWidth (bt : BinType) : Int := bt.w - bt.leftTrim - bt.rightTrim

/-- `eff_height`, `tree_search_hypergraph.cpp:27`. -/
def effHeight (bt : BinType) : Int := bt.h - bt.bottomTrim - bt.topTrim

/-- The position of box `width × height` in a table whose stride is `effW + 1`,
`tree_search_hypergraph.cpp:33`. -/
def cellIndex (effW w h : Int) : Int := w + (effW + 1) * h

/-- Reading a table, `tree_search_hypergraph.cpp:32–34`, `75–80`, `444–446`; an index out of the
vector is undefined behaviour. -/
def tableRead {α : Type} (tbl : List α) (effW w h : Int) : Except Err α :=
  if 0 ≤ cellIndex effW w h then
    match tbl[(cellIndex effW w h).toNat]? with
    | some v => .ok v
    | none => .error .ub
  else .error .ub

/-- `dp_current = std::max(dp_current, v)`, where `dp_current` refers to the box `w × h`,
`tree_search_hypergraph.cpp:45`. -/
def tableRaise {α : Type} [Max α] (tbl : List α) (effW w h : Int) (v : α) : List α :=
  tbl.modify (cellIndex effW w h).toNat (max · v)

/-- The effect of one item type on the box `w × h`, `tree_search_hypergraph.cpp:43–49`. -/
def dpItem (effW w h : Int) (tbl : List ℚ) (it : ItemType) : List ℚ :=
  let tbl := if it.w = w ∧ it.h = h then tableRaise tbl effW w h it.profit else tbl
  if it.oriented = false ∧ it.h = w ∧ it.w = h then tableRaise tbl effW w h it.profit else tbl

/-- The number of iterations of `for (cut = 1; 2 * cut + cut_thickness <= size; ++cut)`,
`tree_search_hypergraph.cpp:52` and `56`. -/
def halfCuts (size t : Int) : Nat := ((size - t) / 2).toNat

/-- The split along x at `k + 1`, `tree_search_hypergraph.cpp:53–54`. -/
def dpSplitX (effW t w h : Int) (tbl : List ℚ) (k : Nat) : Except Err (List ℚ) := do
  let a ← tableRead tbl effW ((k : Int) + 1) h
  let b ← tableRead tbl effW (w - ((k : Int) + 1) - t) h
  .ok (tableRaise tbl effW w h (a + b))

/-- The split along y at `k + 1`, `tree_search_hypergraph.cpp:57–58`. -/
def dpSplitY (effW t w h : Int) (tbl : List ℚ) (k : Nat) : Except Err (List ℚ) := do
  let a ← tableRead tbl effW w ((k : Int) + 1)
  let b ← tableRead tbl effW w (h - ((k : Int) + 1) - t)
  .ok (tableRaise tbl effW w h (a + b))

/-- The computation of the box `w × h`, `tree_search_hypergraph.cpp:38–58`. -/
def dpCell (items : List ItemType) (effW t w h : Int) (tbl : List ℚ) : Except Err (List ℚ) := do
  let tbl := items.foldl (dpItem effW w h) tbl
  let tbl ← (List.range (halfCuts w t)).foldlM (dpSplitX effW t w h) tbl
  (List.range (halfCuts h t)).foldlM (dpSplitY effW t w h) tbl

/-- The loop over heights, `tree_search_hypergraph.cpp:37–59`. -/
def dpColumn (items : List ItemType) (effW effH t w : Int) (tbl : List ℚ) :
    Except Err (List ℚ) :=
  (List.range effH.toNat).foldlM (fun tbl (j : Nat) => dpCell items effW t w ((j : Int) + 1) tbl) tbl

/-- The two loops on given effective sizes, `tree_search_hypergraph.cpp:30–62`.  A negative size
of the vector is converted to a huge unsigned number, for which `std::vector` throws
`std::length_error`. -/
def dpTable (items : List ItemType) (effW effH t : Int) : Except Err (List ℚ) :=
  if (effW + 1) * (effH + 1) < 0 then .error .logicError
  else
    (List.range effW.toNat).foldlM (fun tbl (i : Nat) => dpColumn items effW effH t ((i : Int) + 1) tbl)
      (List.replicate ((effW + 1) * (effH + 1)).toNat 0)

/-- `compute_dp`, `tree_search_hypergraph.cpp:23–63` and
`tree_search_hypergraph_infinite_copies.cpp:37–78`.  Without a bin type, `bin_type(0)` is
undefined behaviour. -/
def computeDp (inst : Instance) : Except Err (List ℚ) :=
  match inst.binTypes with
  | [] => .error .ub
  | bt :: _ => dpTable inst.itemTypes (effWidth bt) (effHeight bt) inst.parameters.cutThickness

/-- One completion along x, `tree_search_hypergraph.cpp:91–98`: the `k`-th iteration has
`total_width = width + cut_thickness + 1 + k`. -/
def rdpSplitX (dp : List ℚ) (effW t w h : Int) (tbl : List (WithBot ℚ)) (k : Nat) :
    Except Err (List (WithBot ℚ)) := do
  let a ← tableRead tbl effW (w + t + 1 + (k : Int)) h
  let b ← tableRead dp effW (w + t + 1 + (k : Int) - w - t) h
  .ok (tableRaise tbl effW w h (a + ((b : ℚ) : WithBot ℚ)))

/-- One completion along y, `tree_search_hypergraph.cpp:100–107`. -/
def rdpSplitY (dp : List ℚ) (effW t w h : Int) (tbl : List (WithBot ℚ)) (k : Nat) :
    Except Err (List (WithBot ℚ)) := do
  let a ← tableRead tbl effW w (h + t + 1 + (k : Int))
  let b ← tableRead dp effW w (h + t + 1 + (k : Int) - h - t)
  .ok (tableRaise tbl effW w h (a + ((b : ℚ) : WithBot ℚ)))

/-- The computation of the completion of the box `w × h`, `tree_search_hypergraph.cpp:86–107`. -/
def rdpCell (dp : List ℚ) (effW effH t w h : Int) (tbl : List (WithBot ℚ)) :
    Except Err (List (WithBot ℚ)) :=
  if w = effW ∧ h = effH then .ok tbl
  else do
    let tbl ← (List.range (effW - (w + t)).toNat).foldlM (rdpSplitX dp effW t w h) tbl
    (List.range (effH - (h + t)).toNat).foldlM (rdpSplitY dp effW t w h) tbl

/-- The loop over heights, from the largest, `tree_search_hypergraph.cpp:85–108`. -/
def rdpColumn (dp : List ℚ) (effW effH t w : Int) (tbl : List (WithBot ℚ)) :
    Except Err (List (WithBot ℚ)) :=
  (List.range effH.toNat).foldlM (fun tbl (j : Nat) => rdpCell dp effW effH t w (effH - (j : Int)) tbl) tbl

/-- `compute_rdp`, `tree_search_hypergraph.cpp:65–112`. -/
def computeRdp (dp : List ℚ) (effW effH t : Int) : Except Err (List (WithBot ℚ)) :=
  if (effW + 1) * (effH + 1) < 0 then .error .logicError
  else
    let init := (List.replicate ((effW + 1) * (effH + 1)).toNat (⊥ : WithBot ℚ)).set
      (cellIndex effW effW effH).toNat ((0 : ℚ) : WithBot ℚ)
    (List.range effW.toNat).foldlM (fun tbl (i : Nat) => rdpColumn dp effW effH t (effW - (i : Int)) tbl)
      init

end PackingSolver.Guil
