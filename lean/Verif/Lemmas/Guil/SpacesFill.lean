import Verif.Lemmas.Guil.Rebuild
import Verif.Lemmas.Guil.SpacesInv

/-!
# Lemmas: calls that fill a node strip by strip
-/

namespace PackingSolver.Guil.Spaces

open PackingSolver.Guil.Spec
open PackingSolver.Rect.Block (cnt)

/-- Numbers of copies and profit of some items. -/
abbrev Weight := (Nat → Int) × ℚ

section
variable {inst : Instance} {bt : BinType} {b : Nat} {o : CutOrientation} {nodes nodes' : List Node}
  {ops ops' : List Op} {d : Int} {R : Region} {q q' : Weight}

/-- The last node is free and covers `R`; it may be the root. -/
structure OpenLeaf (inst : Instance) (bt : BinType) (b : Nat) (nodes : List Node) (d : Int)
    (R : Region) : Prop where
  tree : Tree inst bt b nodes
  base : base bt b ≤ nodes.length - 1
  depth : (nd nodes (nodes.length - 1)).d = d
  place : region (nd nodes (nodes.length - 1)) = R
  children : (nd nodes (nodes.length - 1)).children = []
  item : (nd nodes (nodes.length - 1)).f.isSome = true →
    (nd nodes (nodes.length - 1)).itemTypeId < 0

theorem _root_.PackingSolver.Guil.FreeLeaf.openLeaf (h : FreeLeaf inst bt b nodes (d + 1) R) :
    OpenLeaf inst bt b nodes d R :=
  ⟨h.tree, h.below.le, by rw [h.depth]; omega, h.place, h.children, fun _ => h.item⟩

/-- Items of weight `q` have been added in the last node of `nodes`. -/
structure Done (inst : Instance) (bt : BinType) (b : Nat) (nodes nodes' : List Node) (k : Nat)
    (q : Weight) : Prop where
  tree : Tree inst bt b nodes'
  length : nodes.length ≤ nodes'.length
  old : ∀ i < k, nd nodes' i = nd nodes i
  same : Same (nd nodes' k) (nd nodes k)
  opened : Open nodes' k
  items : ∃ L, itemsOf nodes' = itemsOf nodes ++ L ∧ (∀ i, (L.count i : Int) = q.1 i)
    ∧ (L.map fun i => (inst.itemType i).profit).sum = q.2

/-- The calls fill every free node that is not the root, of depth `d` and place `R`. -/
def FillsF (inst : Instance) (bt : BinType) (b : Nat) (o : CutOrientation) (ops : List Op)
    (d : Int) (R : Region) (q : Weight) : Prop :=
  ∀ nodes, FreeLeaf inst bt b nodes (d + 1) R → ∃ nodes', nodesRun inst o nodes ops = some nodes'
    ∧ Done inst bt b nodes nodes' (nodes.length - 1) q

/-- The calls fill every free node of depth `d` and place `R`. -/
def FillsO (inst : Instance) (bt : BinType) (b : Nat) (o : CutOrientation) (ops : List Op)
    (d : Int) (R : Region) (q : Weight) : Prop :=
  ∀ nodes, OpenLeaf inst bt b nodes d R → ∃ nodes', nodesRun inst o nodes ops = some nodes'
    ∧ Done inst bt b nodes nodes' (nodes.length - 1) q

theorem FillsO.free (h : FillsO inst bt b o ops d R q) : FillsF inst bt b o ops d R q :=
  fun nodes hl => h nodes hl.openLeaf

theorem fillsO_nothing : FillsO inst bt b o [] d R 0 := by
  intro nodes hl
  exact ⟨nodes, rfl, hl.tree, le_refl _, fun _ _ => rfl, .refl _, open_last nodes, [], by simp,
    fun i => by simp, by simp⟩

/-- An item that fills the node. -/
theorem fillsF_item {i : Nat} {r : Bool} {x y w h : Int} (hi : i < inst.numberOfItemTypes)
    (hw : w = (inst.itemType i).widthOf r) (hh : h = (inst.itemType i).heightOf r) :
    FillsF inst bt b o [.setItem i] d ⟨x, x + w, y, y + h⟩
      (fun j => if i = j then 1 else 0, (inst.itemType i).profit) := by
  have hit : inst.itemTypes[i]? = some (inst.itemType i) := by
    unfold Instance.itemType
    rw [List.getD_eq_getElem _ _ hi]; exact List.getElem?_eq_getElem hi
  intro nodes hl
  obtain ⟨n', e, f⟩ := fills_item (b := b) (bt := bt) (o := o) (rot := r) (depth := d + 1) (x := x)
    (y := y) hit hw hh nodes hl
  obtain ⟨L, h1, h2, h3⟩ := f.items
  refine ⟨n', e, f.tree, f.length, f.old, f.same, f.opened, L, h1, fun j => ?_, h3⟩
  rw [h2, sparseCount_cons]
  simp [sparseCount]

/-- Successive cuts of a region, from `start` on, each followed by calls that fill the strip. -/
inductive Strips (inst : Instance) (bt : BinType) (b : Nat) (o : CutOrientation) (d : Int)
    (R : Region) : Int → List Op → Weight → Prop where
  | nil {a : Int} : Strips inst bt b o d R a [] 0
  | cons {a pos : Int} {ops ops' all : List Op} {q q' r : Weight} (h1 : a < pos)
      (h2 : pos ≤ R.high (vert o d))
      (hf : FillsF inst bt b o ops (d + 1) (strip (vert o d) R a pos) q)
      (hn : Strips inst bt b o d R (pos + inst.parameters.cutThickness) ops' q')
      (ha : all = .addNode (d + 1) pos :: ops ++ ops') (hr : r = q + q') :
      Strips inst bt b o d R a all r

theorem Strips.run (hd : 0 ≤ d) {a : Int} (h : Strips inst bt b o d R a ops q) :
    ∀ {nodes : List Node} {k : Nat}, Tree inst bt b nodes → base bt b ≤ k → k < nodes.length →
    Open nodes k → (nd nodes k).d = d → region (nd nodes k) = R →
    ((nd nodes k).f.isSome = true → (nd nodes k).itemTypeId < 0) →
    start inst.parameters.cutThickness o nodes k = a →
    ∃ nodes', nodesRun inst o nodes ops = some nodes' ∧ Done inst bt b nodes nodes' k q := by
  induction h with
  | nil =>
    intro nodes k ht hb hk ho _ _ _ _
    exact ⟨nodes, rfl, ht, le_refl _, fun _ _ => rfl, .refl _, ho, [], by simp, fun i => by simp,
      by simp⟩
  | @cons a pos ops ops' all q q' r h1 h2 hf hn ha hr ih =>
    intro nodes k ht hb hk ho hdk hR hi hs
    obtain ⟨n1, e, t1, l1, o1, s1, i1, c1, op1, it1, w⟩ :=
      addNode_open (ct := inst.parameters.cutThickness) (o := o) (depth := d + 1) (pos := pos) ht
        (by omega) hb hk ho (by omega) hi (by rw [hs]; exact h1) (by rw [hR, hdk]; exact h2)
    obtain ⟨w1, w2, w3, w4, w5⟩ := childAt_spec (ct := inst.parameters.cutThickness) (o := o)
      (nodes := nodes) (depth := d + 1) (pos := pos) (id := k)
    rw [hR, hdk, hs] at w5
    have hleaf : FreeLeaf inst bt b n1 (d + 1 + 1) (strip (vert o d) R a pos) :=
      ⟨t1, by omega, by rw [w, w2]; omega, by rw [w, w5], by rw [w, w3], by rw [w, w4]; decide⟩
    obtain ⟨n2, e2, f⟩ := hf n1 hleaf
    have hkk : k < n1.length - 1 := by omega
    have hold : nd n2 k = nd n1 k := f.old k hkk
    have hopen : Open n2 k := by
      intro j j1 j2
      rw [hold]
      by_cases hj : j < n1.length - 1
      · rw [f.old j hj]; exact op1 j j1 (by omega)
      · have hlast := op1 (n1.length - 1) (by omega) (by omega)
        rw [← f.same.2.1] at hlast
        by_cases hj2 : j = n1.length - 1
        · rw [hj2]; exact hlast
        · exact lt_trans hlast (f.opened j (by omega) j2)
    have hsame : Same (nd n2 k) (nd nodes k) := by rw [hold]; exact s1
    have hd2 : (nd n2 k).d = d := by rw [hsame.2.1, hdk]
    have hlen := f.length
    have hst : start inst.parameters.cutThickness o n2 k = pos + inst.parameters.cutThickness := by
      unfold start
      rw [hold, c1, List.getLast?_concat]
      dsimp only
      rw [f.same.2.2, w, w5, ← hold, hd2, strip_high]
    obtain ⟨n3, e3, g⟩ := ih f.tree hb (by omega) hopen hd2 (by rw [hsame.2.2, hR])
      (by rw [hold]; exact i1) hst
    obtain ⟨L1, a1, a2, a3⟩ := f.items
    obtain ⟨L2, b1, b2, b3⟩ := g.items
    refine ⟨n3, ?_, g.tree, by have := g.length; omega, ?_, g.same.trans hsame, g.opened,
      L1 ++ L2, ?_, ?_, ?_⟩
    · rw [ha, List.cons_append, nodesRun_addNode, if_neg (by omega), e]
      dsimp only
      rw [nodesRun_append, e2]
      exact e3
    · intro i hik
      rw [g.old i hik, f.old i (by omega), o1 i hik]
    · rw [b1, a1, it1, List.append_assoc]
    · intro i
      rw [List.count_append, hr]
      push_cast
      rw [a2, b2]; rfl
    · rw [List.map_append, List.sum_append, a3, b3, hr]; rfl

/-- Cutting a node into strips fills it. -/
theorem Strips.fills (hd : 0 ≤ d) (h : Strips inst bt b o d R (R.low (vert o d)) ops q) :
    FillsO inst bt b o ops d R q := by
  intro nodes hl
  have hne : 0 < nodes.length := by have := hl.tree.base_lt; omega
  refine h.run hd hl.tree hl.base (by omega) (open_last nodes) hl.depth hl.place hl.item ?_
  unfold start
  rw [hl.children, hl.place, hl.depth]
  rfl

/-- Two strips, the second one if there is room for it. -/
theorem strips_two {a p1 p2 : Int} {ops1 ops2 : List Op} {q1 q2 : Weight} (h1 : a < p1)
    (h2 : p1 ≤ p2) (h3 : p2 = R.high (vert o d))
    (f1 : FillsF inst bt b o ops1 (d + 1) (strip (vert o d) R a p1) q1)
    (f2 : p1 + inst.parameters.cutThickness < p2 → FillsF inst bt b o ops2 (d + 1)
      (strip (vert o d) R (p1 + inst.parameters.cutThickness) p2) q2) :
    Strips inst bt b o d R a (.addNode (d + 1) p1 :: ops1
        ++ if p1 + inst.parameters.cutThickness < p2 then .addNode (d + 1) p2 :: ops2 else [])
      (q1 + if p1 + inst.parameters.cutThickness < p2 then q2 else 0) := by
  by_cases hlt : p1 + inst.parameters.cutThickness < p2
  · rw [if_pos hlt, if_pos hlt]
    refine .cons h1 (by omega) f1 (.cons hlt (by omega) (f2 hlt) .nil ?_ rfl) rfl ?_
    · simp
    · rw [add_zero]
  · rw [if_neg hlt, if_neg hlt]
    exact .cons h1 (by omega) f1 .nil rfl rfl

/-- Strips of the same length. -/
theorem strips_range (ht : 0 ≤ inst.parameters.cutThickness) {w : Int} (hw : 0 < w)
    {F : Nat → List Op} {q : Weight} : ∀ (n : Nat) (a : Int),
    a + n * (w + inst.parameters.cutThickness) ≤ R.high (vert o d) + inst.parameters.cutThickness →
    (∀ k < n, FillsF inst bt b o (F k) (d + 1) (strip (vert o d) R
      (a + k * (w + inst.parameters.cutThickness))
      (a + k * (w + inst.parameters.cutThickness) + w)) q) →
    Strips inst bt b o d R a ((List.range n).flatMap fun (k : Nat) =>
      .addNode (d + 1) (a + k * (w + inst.parameters.cutThickness) + w) :: F k) (n • q) := by
  intro n
  induction n generalizing F with
  | zero =>
    intro a _ _
    rw [zero_nsmul]
    exact .nil
  | succ n ih =>
    intro a hle hf
    have hstep : ((n + 1 : Nat) : Int) * (w + inst.parameters.cutThickness)
        = n * (w + inst.parameters.cutThickness) + (w + inst.parameters.cutThickness) := by
      push_cast; ring
    have hnn : 0 ≤ (n : Int) * (w + inst.parameters.cutThickness) :=
      mul_nonneg (by omega) (by omega)
    have h0 := hf 0 (by omega)
    simp only [Nat.cast_zero, zero_mul, add_zero] at h0
    have hshift : ∀ k : Nat, a + (w + inst.parameters.cutThickness)
        + k * (w + inst.parameters.cutThickness)
        = a + ((k + 1 : Nat) : Int) * (w + inst.parameters.cutThickness) := by
      intro k; push_cast; ring
    have := ih (F := fun k => F (k + 1)) (a + (w + inst.parameters.cutThickness)) (by omega)
      (fun k hk => by rw [hshift]; exact hf (k + 1) (by omega))
    refine .cons (q := q) (pos := a + w) (ops := F 0) (by omega) (by omega) h0
      (by
        rw [show a + w + inst.parameters.cutThickness
          = a + (w + inst.parameters.cutThickness) by ring]
        exact this) ?_ ?_
    · rw [List.range_succ_eq_map, List.flatMap_cons, List.flatMap_map]
      simp only [Nat.cast_zero, zero_mul, add_zero, hshift]
    · rw [succ_nsmul']

/-! ### Directions of the cuts -/

theorem cutsVertically_eq (ho : o ≠ .any) (hd : 0 ≤ d) : cutsVertically d o = vert o d := by
  unfold cutsVertically vert isVerticalAt
  rw [Int.tmod_eq_emod_of_nonneg hd, Int.tmod_eq_emod_of_nonneg (by omega : 0 ≤ d + 1)]
  cases o with
  | any => exact absurd rfl ho
  | vertical =>
    rcases Int.emod_two_eq d with h | h <;> simp [h] <;> omega
  | horizontal =>
    rcases Int.emod_two_eq d with h | h <;> simp [h] <;> omega

theorem nodeOp_eq (r t : Int) :
    nodeOp o (d + 1) r t = .addNode (d + 1) (if vert o d = true then r else t) := rfl

/-- One cut that keeps the whole region. -/
theorem cover_fills (hd : 0 ≤ d) (hx : R.l < R.r) (hy : R.b < R.t)
    (h : FillsF inst bt b o ops (d + 1) R q) :
    FillsO inst bt b o (nodeOp o (d + 1) R.r R.t :: ops) d R q := by
  rw [nodeOp_eq]
  refine Strips.fills hd ?_
  cases hv : vert o d with
  | true =>
    refine .cons (pos := R.r) (q := q) (q' := 0) (ops := ops) (ops' := []) ?_ ?_ ?_ .nil (by simp)
      (by simp)
    · exact hx
    · rw [hv]; exact le_refl _
    · rw [hv]; exact h
  | false =>
    refine .cons (pos := R.t) (q := q) (q' := 0) (ops := ops) (ops' := []) ?_ ?_ ?_ .nil (by simp)
      (by simp)
    · exact hy
    · rw [hv]; exact le_refl _
    · rw [hv]; exact h

/-- Strips side by side. -/
theorem beside_fills (hd : 0 ≤ d) (hv : vert o d = true) {x y h w1 w2 Y : Int} {ops1 : List Op}
    {q1 : Weight} (h1 : 0 < w1) (h2 : 0 < w2) (ht : 0 ≤ inst.parameters.cutThickness)
    (f1 : FillsF inst bt b o ops (d + 1) ⟨x, x + w1, y, y + h⟩ q)
    (f2 : FillsF inst bt b o ops1 (d + 1) ⟨x + w1 + inst.parameters.cutThickness,
      x + (w1 + inst.parameters.cutThickness + w2), y, y + h⟩ q1) :
    FillsO inst bt b o (nodeOp o (d + 1) (x + w1) Y :: ops
        ++ nodeOp o (d + 1) (x + (w1 + inst.parameters.cutThickness + w2)) Y :: ops1) d
      ⟨x, x + (w1 + inst.parameters.cutThickness + w2), y, y + h⟩ (q + q1) := by
  rw [nodeOp_eq, nodeOp_eq, hv, if_pos rfl, if_pos rfl]
  refine Strips.fills hd (.cons (pos := x + w1) (q := q) (q' := q1) (ops := ops) ?_ ?_ ?_
    (.cons (pos := x + (w1 + inst.parameters.cutThickness + w2)) (q := q1) (q' := 0) (ops := ops1)
      (ops' := []) ?_ ?_ ?_ .nil rfl (by simp)) (by simp) rfl)
  · rw [hv]; show x < x + w1; omega
  · rw [hv]; show x + w1 ≤ x + _; omega
  · rw [hv]; exact f1
  · show x + w1 + _ < x + _; omega
  · rw [hv]; exact le_refl _
  · rw [hv]; exact f2

/-- Strips one above the other. -/
theorem above_fills (hd : 0 ≤ d) (hv : vert o d = false) {x y w h1 h2 X : Int} {ops1 : List Op}
    {q1 : Weight} (p1 : 0 < h1) (p2 : 0 < h2) (ht : 0 ≤ inst.parameters.cutThickness)
    (f1 : FillsF inst bt b o ops (d + 1) ⟨x, x + w, y, y + h1⟩ q)
    (f2 : FillsF inst bt b o ops1 (d + 1) ⟨x, x + w, y + h1 + inst.parameters.cutThickness,
      y + (h1 + inst.parameters.cutThickness + h2)⟩ q1) :
    FillsO inst bt b o (nodeOp o (d + 1) X (y + h1) :: ops
        ++ nodeOp o (d + 1) X (y + (h1 + inst.parameters.cutThickness + h2)) :: ops1) d
      ⟨x, x + w, y, y + (h1 + inst.parameters.cutThickness + h2)⟩ (q + q1) := by
  rw [nodeOp_eq, nodeOp_eq, hv, if_neg (by simp), if_neg (by simp)]
  refine Strips.fills hd (.cons (pos := y + h1) (q := q) (q' := q1) (ops := ops) ?_ ?_ ?_
    (.cons (pos := y + (h1 + inst.parameters.cutThickness + h2)) (q := q1) (q' := 0) (ops := ops1)
      (ops' := []) ?_ ?_ ?_ .nil rfl (by simp)) (by simp) rfl)
  · rw [hv]; show y < y + h1; omega
  · rw [hv]; show y + h1 ≤ y + _; omega
  · rw [hv]; exact f1
  · show y + h1 + _ < y + _; omega
  · rw [hv]; exact le_refl _
  · rw [hv]; exact f2

end

end PackingSolver.Guil.Spaces
