import Verif.Model.Basic
import Mathlib.Data.List.Sort
import Mathlib.Data.Prod.Lex
import Mathlib.Algebra.Order.Floor.Ring
import Mathlib.Data.Rat.Floor

/-!
# Column generation: cuts, bin cap, pricing bound

Models the parts of `src/algorithms/column_generation.hpp` that do not depend on the problem
domain.  The linear programming solver, the limited discrepancy search and the knapsack
solver called for pricing are external: their answers are inputs of the functions below.
-/

namespace PackingSolver.ColumnGeneration

/-- A column of the master problem: its linear terms (row, coefficient) and the items of the
bin it stands for (`Column::extra`, of which only `item_copies` is read). -/
structure Column where
  elements : List (Nat × ℚ) := []
  items : List Nat := []
deriving DecidableEq, Repr

/-- The column of a bin of type `binTypeId` with the given items, when there are `nbt` bin types
and `nit` item types: `column_generation.hpp:331–347` and `:532–552`. -/
def columnOf (nbt nit binTypeId : Nat) (items : List Nat) : Column :=
  { elements := (binTypeId, 1) ::
      (List.range nit).filterMap fun i =>
        if items.count i > 0 then some (nbt + i, (items.count i : ℚ)) else none
    items := items }

/-! ### Subset-row cuts -/

/-- `build_subset_row_cut`, `column_generation.hpp:105–120`: the sorted triple (the upper bound
of the row is 1). -/
def buildSubsetRowCut (i j k : Nat) : List Nat := [i, j, k].insertionSort (· ≤ ·)

/-- `cut->upper_bound`, `column_generation.hpp:116`. -/
def cutUpperBound : ℚ := 1

/-- `ColumnGenerationPricingSolver::coefficient`, `column_generation.hpp:946–960`. -/
def coefficient (cut : List Nat) (c : Column) : ℚ :=
  if (cut.filter fun i => c.items.count i > 0).length ≥ 2 then 1 else 0

/-- `ColumnGenerationPricingSolver::equal`, `column_generation.hpp:962–973`. -/
def cutEqual (c1 c2 : List Nat) : Bool := c1 == c2

/-- Values below this are ignored, and violations below it are not reported
(`column_generation.hpp:701, 922`). -/
def epsilon : ℚ := 1 / 10 ^ 6

/-- `struct ColumnItems`. -/
structure ColumnItems where
  value : ℚ
  ids : List Nat
deriving DecidableEq, Repr

/-- The item types of a column that matter for the cuts: coefficient larger than one half, one
copy in the instance (`column_generation.hpp:705–715`).  `copies` lists the copies of the item
types. -/
def columnIds (nbt : Nat) (copies : List Int) (c : Column) : List Nat :=
  (c.elements.filterMap fun e =>
    if e.1 < nbt then none
    else if e.2 ≤ 1 / 2 then none
    else if copies.getD (e.1 - nbt) 0 ≠ 1 then none
    else some (e.1 - nbt)).insertionSort (· ≤ ·)

/-- `column_generation.hpp:699–717`. -/
def columnItems (nbt : Nat) (copies : List Int) (sol : List (Column × ℚ)) : List ColumnItems :=
  sol.filterMap fun p =>
    if p.2 < epsilon then none else some { value := p.2, ids := columnIds nbt copies p.1 }

/-- `number_of_columns[item_type_id]`, `column_generation.hpp:731–735`. -/
def numberOfColumns (cols : List ColumnItems) (i : Nat) : Nat :=
  (cols.map fun c => c.ids.count i).sum

/-- Drop the item types present in fewer than two columns, `column_generation.hpp:736–747`. -/
def dropRare (cols : List ColumnItems) : List ColumnItems :=
  cols.map fun c => { c with ids := c.ids.filter fun i => ¬ numberOfColumns cols i < 2 }

/-- The pairs of entries at positions `pos_1 < pos_2`, `column_generation.hpp:774–777`. -/
def pairsOf : List Nat → List (Nat × Nat)
  | [] => []
  | a :: l => l.map (fun b => (a, b)) ++ pairsOf l

/-- `pair_weight`, `column_generation.hpp:782`; a key that was never inserted has weight 0
(`:862–866`).  The hash map is modelled by its content as a function of the key. -/
def pairWeight (cols : List ColumnItems) (a b : Nat) : ℚ :=
  (cols.map fun c => ((pairsOf c.ids).count (a, b) : ℚ) * c.value).sum

/-- `pair_columns`, `column_generation.hpp:783`: the indices of the columns with both item
types. -/
def pairColumns (cols : List ColumnItems) (a b : Nat) : List Nat :=
  (List.range cols.length).flatMap fun p =>
    List.replicate ((pairsOf (cols.getD p ⟨0, []⟩).ids).count (a, b)) p

/-- `neighbors`, `column_generation.hpp:778–779, 787–792` (sorted, without repetitions). -/
def neighbors (cols : List ColumnItems) (i : Nat) : List Nat :=
  ((cols.flatMap fun c => (pairsOf c.ids).flatMap fun p =>
      (if p.1 = i then [p.2] else []) ++ (if p.2 = i then [p.1] else [])).insertionSort
    (· ≤ ·)).dedup

/-- The sequence of calls of `add_candidate`, `column_generation.hpp:815–838`. -/
def candidateCalls (cols : List ColumnItems) : List (Nat × Nat × Nat) :=
  cols.flatMap fun c => (pairsOf c.ids).flatMap fun p =>
    (neighbors cols p.1).map (fun k => (p.1, p.2, k))
      ++ (neighbors cols p.2).map fun k => (p.1, p.2, k)

/-- `add_candidate` and the cap on the number of candidates, `column_generation.hpp:803–814`:
the set of triples after processing the calls.  The set is a list without repetitions; its
order does not matter because the violated triples are sorted afterwards. -/
def addCandidates (cap : Nat) : List (Nat × Nat × Nat) → List (List Nat) → List (List Nat)
  | [], acc => acc
  | (i, j, k) :: rest, acc =>
    if acc.length ≥ cap then acc
    else if k = i ∨ k = j then addCandidates cap rest acc
    else
      let triple := [i, j, k].insertionSort (· ≤ ·)
      addCandidates cap rest (if triple ∈ acc then acc else acc ++ [triple])

/-- The three-way merge, `column_generation.hpp:891–914`.  `fuel` bounds the number of steps;
every step moves at least one of the three positions. -/
def merge3 (value : Nat → ℚ) : Nat → List Nat → List Nat → List Nat → ℚ
  | 0, _, _, _ => 0
  | n + 1, x :: xs, y :: ys, z :: zs =>
    if x = y ∧ y = z then value x + merge3 value n xs ys zs
    else
      let m := max x (max y z)
      merge3 value n (if x < m then xs else x :: xs) (if y < m then ys else y :: ys)
        (if z < m then zs else z :: zs)
  | _ + 1, _, _, _ => 0

/-- `triple_weight`, `column_generation.hpp:885–914`. -/
def tripleWeight (cols : List ColumnItems) (a b c : Nat) : ℚ :=
  merge3 (fun p => (cols.getD p ⟨0, []⟩).value)
    ((pairColumns cols a b).length + (pairColumns cols a c).length
      + (pairColumns cols b c).length)
    (pairColumns cols a b) (pairColumns cols a c) (pairColumns cols b c)

/-- `violation`, `column_generation.hpp:916–921`. -/
def violation (cols : List ColumnItems) (t : List Nat) : ℚ :=
  let a := t.getD 0 0
  let b := t.getD 1 0
  let c := t.getD 2 0
  pairWeight cols a b + pairWeight cols a c + pairWeight cols b c
    - 2 * tripleWeight cols a b c - 1

/-- The violated candidate triples with their violations, `column_generation.hpp:879–924`. -/
def violatedTriples (cap : Nat) (cols : List ColumnItems) : List (List Nat × ℚ) :=
  (addCandidates cap (candidateCalls cols) []).filterMap fun t =>
    if violation cols t > epsilon then some (t, violation cols t) else none

/-- The comparator of the sort, `column_generation.hpp:926–932`. -/
def moreViolated (x y : List Nat × ℚ) : Bool := decide (x.2 > y.2)

/-- `separate_cuts`, `column_generation.hpp:664–944`.  `sortTriples` is `std::sort` with
`moreViolated`, of which any result is allowed. -/
def separateCuts (sortTriples : List (List Nat × ℚ) → List (List Nat × ℚ))
    (nbt : Nat) (copies : List Int) (sol : List (Column × ℚ)) : List (List Nat) :=
  let cols := dropRare (columnItems nbt copies sol)
  ((sortTriples (violatedTriples 10000 cols)).take 1).map fun v =>
    buildSubsetRowCut (v.1.getD 0 0) (v.1.getD 1 0) (v.1.getD 2 0)

/-! ### Maximum number of bins for variable-sized bin packing -/

/-- What the cap reads of a bin type. -/
structure BinData where
  cost : ℚ
  copies : Int
  copiesMin : Int
deriving DecidableEq, Repr

/-- The order of `std::pair<Profit, BinPos>` used by `std::sort`,
`column_generation.hpp:644`. -/
def pairLe (a b : ℚ × Int) : Prop := a.1 < b.1 ∨ (a.1 = b.1 ∧ a.2 ≤ b.2)

instance (a b : ℚ × Int) : Decidable (pairLe a b) := by unfold pairLe; infer_instance

/-- The loop over the optional bin types, `column_generation.hpp:645–656`: the number of bins
added to `count`.  The cast of the quotient to an integer truncates it. -/
def fillBudget : List (ℚ × Int) → ℚ → Int
  | [], _ => 0
  | (cost, copies) :: rest, budget =>
    if cost ≤ 0 then copies + fillBudget rest budget
    else
      let take := min copies ⌊budget / cost⌋
      take + fillBudget rest (budget - (take : ℚ) * cost)

/-- `optional_bin_types`, `column_generation.hpp:638–640`. -/
def optionalBins (bins : List BinData) : List (ℚ × Int) :=
  bins.filterMap fun b =>
    if b.copies - b.copiesMin > 0 then some (b.cost, b.copies - b.copiesMin) else none

/-- `maximum_number_of_bins_for_variable_sized_bin_packing` without its cache,
`column_generation.hpp:629–658`. -/
def maximumNumberOfBins (bins : List BinData) (numberOfItems : Int) (bestCost : ℚ) : Int :=
  let count := (bins.map fun b => b.copiesMin).sum
  let budget := bestCost - (bins.map fun b => b.cost * (b.copiesMin : ℚ)).sum
  let budget := if budget < 0 then 0 else budget
  min (count + fillBudget ((optionalBins bins).insertionSort pairLe) budget) numberOfItems

/-- The cache, `column_generation.hpp:612–616, 658–661`: the result of the call and the new
cache. -/
def cachedMaximumNumberOfBins (bins : List BinData) (numberOfItems : Int) (bestCost : ℚ)
    (cache : Option (ℚ × Int)) : Int × Option (ℚ × Int) :=
  match cache with
  | some (cost, value) =>
    if bestCost = cost then (value, cache)
    else
      let v := maximumNumberOfBins bins numberOfItems bestCost
      (v, some (bestCost, v))
  | none =>
    let v := maximumNumberOfBins bins numberOfItems bestCost
    (v, some (bestCost, v))

/-! ### The bound of the pricing problem -/

/-- What the computation of the bound reads of one bin type: whether all its copies are already
fixed, its objective coefficient (cost divided by the multiplier, 1 for `Feasibility`, 0 in the
feasibility phase), its dual value, whether the knapsack solver returned a solution with at
least one bin, and the bound it returned. -/
structure PricedBin where
  exhausted : Bool := false
  objective : ℚ := 0
  dual : ℚ := 0
  hasColumn : Bool := true
  knapsackBound : ℚ := 0
deriving DecidableEq, Repr

/-- `reduced_cost_bound` for the minimisation objectives, `column_generation.hpp:364, 371–372,
509–511, 553–570`: it starts at 0 and is only lowered inside the loop over the solutions that
have a bin. -/
def reducedCostBound (bins : List PricedBin) : ℚ :=
  bins.foldl (fun r b =>
    if b.exhausted then r
    else if b.hasColumn then min r (b.objective - b.dual - b.knapsackBound)
    else r) 0

/-- `output.overcost`, `column_generation.hpp:602–603`. -/
def overcost (maximumNumberOfBins : Int) (bins : List PricedBin) : ℚ :=
  (maximumNumberOfBins : ℚ) * reducedCostBound bins

end PackingSolver.ColumnGeneration
