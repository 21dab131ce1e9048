import Verif.Lemmas.Guil.SortCut

/-!
# Lemmas: the waste and the areas of subplates
-/

namespace PackingSolver.Guil.SortSubplates

open Guil.Spec

section
variable {o : CutOrientation} {nodes : List Node}

theorem lengthsOf_congr {n : Node} {res res' : List NodeLengths}
    (h : ∀ c ∈ n.children, res.getD c default = res'.getD c default) :
    lengthsOf o res n = lengthsOf o res' n := by
  unfold lengthsOf
  dsimp only
  split_ifs
  · rfl
  · rfl
  · generalize ({ area := (n.r - n.l) * (n.t - n.b) } : NodeLengths) = x
    revert h
    generalize n.children = l
    intro h
    induction l generalizing x with
    | nil => rfl
    | cons c l ih =>
      rw [List.foldl_cons, List.foldl_cons]
      have e : addChild res x c = addChild res' x c := by
        unfold addChild
        rw [h c (by simp)]
      rw [e]
      exact ih _ (fun c hc => h c (by simp [hc]))
  · rfl

theorem computeNodeLengths_eq (h : ∀ i < nodes.length, ∀ c ∈ (nd nodes i).children, i < c) :
    ∀ i < nodes.length, (computeNodeLengths o nodes).getD i default
      = lengthsOf o (computeNodeLengths o nodes) (nd nodes i) := by
  have key : ∀ k, k ≤ nodes.length → ∀ res : List NodeLengths, res.length = nodes.length →
      ∀ L, L = (List.range k).reverse.foldl
        (fun res id => res.set id (lengthsOf o res (nodes.getD id default))) res →
      (∀ j, k ≤ j → L.getD j default = res.getD j default)
        ∧ ∀ i < k, L.getD i default = lengthsOf o L (nd nodes i) := by
    intro k
    induction k with
    | zero =>
      intro _ res _ L hL
      rw [hL]
      exact ⟨fun _ _ => rfl, fun i hi => by omega⟩
    | succ k ih =>
      intro hk res hres L hL
      rw [List.range_succ, List.reverse_append, List.reverse_singleton, List.singleton_append,
        List.foldl_cons] at hL
      obtain ⟨h1, h2⟩ := ih (by omega) _ (by rw [List.length_set]; exact hres) L hL
      have hk' : L.getD k default = lengthsOf o res (nd nodes k) := by
        rw [h1 k (le_refl _), List.getD_eq_getElem?_getD, List.getElem?_set_self (by omega)]
        rfl
      have hlater : ∀ j, k < j → L.getD j default = res.getD j default := by
        intro j hj
        rw [h1 j hj.le, List.getD_eq_getElem?_getD, List.getElem?_set_ne (by omega),
          List.getD_eq_getElem?_getD]
      refine ⟨fun j hj => hlater j (by omega), fun i hi => ?_⟩
      by_cases hik : i = k
      · rw [hik, hk']
        apply lengthsOf_congr
        intro c hc
        rw [hlater c (h k (by omega) c hc)]
      · exact h2 i (by omega)
  intro i hi
  exact (key nodes.length (le_refl _) _ (by rw [List.length_replicate]) _ rfl).2 i hi

theorem foldl_addChild (res : List NodeLengths) : ∀ (l : List Nat) (x : NodeLengths),
    (l.foldl (addChild res) x).area = x.area
    ∧ (l.foldl (addChild res) x).waste
      = x.waste + (l.map fun c => (res.getD c default).waste).sum := by
  intro l
  induction l with
  | nil => intro x; simp
  | cons c l ih =>
    intro x
    rw [List.foldl_cons]
    obtain ⟨h1, h2⟩ := ih (addChild res x c)
    refine ⟨h1, ?_⟩
    rw [h2, List.map_cons, List.sum_cons]
    unfold addChild
    dsimp only
    omega

theorem lengthsOf_area (res : List NodeLengths) (n : Node) :
    (lengthsOf o res n).area = (n.r - n.l) * (n.t - n.b) := by
  unfold lengthsOf
  dsimp only
  split_ifs
  · rfl
  · rfl
  · exact (foldl_addChild _ _ _).1
  · rfl

end

section
variable {inst : Instance} {bin : SolutionBin}

theorem CutBin.wellCut (h : CutBin inst bin) : WellCut inst (inst.binType bin.binTypeId)
    bin.binTypeId bin.firstCutOrientation bin.nodes :=
  ⟨h.tree, h.child, h.cut, h.leaf⟩

end

section
variable {inst : Instance} {bt : BinType} {b : Nat} {o : CutOrientation} {nodes : List Node}

/-- The area of a node. -/
def areaOf (nodes : List Node) (i : Nat) : Int :=
  ((nd nodes i).r - (nd nodes i).l) * ((nd nodes i).t - (nd nodes i).b)

theorem areaOf_eq (v : Bool) (i : Nat) : areaOf nodes i = span v nodes i * span (!v) nodes i := by
  unfold areaOf span
  cases v
  · simp only [Bool.not_false, Bool.false_eq_true, if_true, if_false]
    ring
  · rfl

theorem WellCut.dims (h : WellCut inst bt b o nodes) (hs : Sized bt)
    (hct : 0 ≤ inst.parameters.cutThickness) : ∀ i, base bt b ≤ i → i < nodes.length →
    (∀ v, 0 < span v nodes i) ∧ areaOf nodes i ≤ bt.w * bt.h := by
  have hreg : region (nd nodes (base bt b)) = usable bt := by
    rw [h.tree.root.2.2, (initialNodes_base hs b).1]
  intro i
  induction i using Nat.strong_induction_on with
  | _ i ih =>
    intro h1 h2
    rcases Nat.eq_or_lt_of_le h1 with rfl | hlt
    · obtain ⟨n1, n2⟩ := usable_nonempty hs
      have e : ∀ v, span v nodes (base bt b) = (usable bt).high v - (usable bt).low v := by
        intro v
        rw [span_eq, hreg]
      constructor
      · intro v
        rw [e]
        cases v
        · show 0 < (usable bt).t - (usable bt).b
          omega
        · show 0 < (usable bt).r - (usable bt).l
          omega
      · rw [areaOf_eq true, e, e]
        show ((usable bt).r - (usable bt).l) * ((usable bt).t - (usable bt).b) ≤ _
        have a1 : (usable bt).r - (usable bt).l ≤ bt.w := by
          have := hs.left; have := hs.right
          unfold usable
          dsimp only
          split_ifs <;> omega
        have a2 : (usable bt).t - (usable bt).b ≤ bt.h := by
          have := hs.bottom; have := hs.top
          unfold usable
          dsimp only
          split_ifs <;> omega
        exact Int.mul_le_mul a1 a2 (by omega) (by omega)
    · obtain ⟨a, e1, e2, e3, -⟩ := h.tree.later i hlt h2
      obtain ⟨i1, i2⟩ := ih a e3 e2 (by omega)
      have hm : i ∈ childrenOf nodes a := by
        unfold childrenOf
        rw [List.mem_filter, List.mem_range]
        exact ⟨h2, by simpa [nd] using e1⟩
      have hc := (h.kid e2 hm).2.2.2.2
      generalize hv : vert o (nd nodes a).d = v at hc
      have hother : span (!v) nodes i = span (!v) nodes a := by
        rw [span_eq, span_eq, hc.low', hc.high']
      have hpos : 0 < span v nodes i := by
        have := hc.lt
        rw [span_eq]; omega
      have hle : span v nodes i ≤ span v nodes a := by
        have h3 : ([i].map fun k => span v nodes k + inst.parameters.cutThickness).sum
            ≤ (region (nd nodes a)).high v - (region (nd nodes a)).low v
              + inst.parameters.cutThickness := by
          have := h.sum_some e2 hct (K := [i]) (List.singleton_subperm_iff.mpr hm) (by simp)
          rw [hv] at this
          exact this
        rw [List.map_singleton, List.sum_singleton] at h3
        rw [span_eq v nodes a]
        omega
      have hpos' : 0 < span (!v) nodes i := by rw [hother]; exact i1 _
      refine ⟨fun w => ?_, ?_⟩
      · by_cases hw : w = v
        · rw [hw]; exact hpos
        · have : w = !v := by revert hw; cases w <;> cases v <;> simp
          rw [this]; exact hpos'
      · refine le_trans ?_ i2
        rw [areaOf_eq v, areaOf_eq v, hother]
        exact Int.mul_le_mul_of_nonneg_right hle (i1 _).le

theorem WellCut.forward (h : WellCut inst bt b o nodes) : ∀ i < nodes.length,
    ∀ c ∈ (nd nodes i).children, i < c := by
  intro i hi c hc
  rcases Nat.lt_or_ge i (base bt b) with hlt | hge
  · exfalso
    rw [h.tree.frame i hlt] at hc
    obtain ⟨root, tail, e, -, r2, -, r4⟩ := initialNodes_cons bt b
    have hlen := initialNodes_length bt b
    have hm := nd_mem (nodes := initialNodes bt b) (i := i) (by omega)
    rw [e] at hm hc
    rcases List.mem_cons.mp hm with h0 | h0
    · rw [h0, r2] at hc; cases hc
    · rw [(r4 _ h0).2.1] at hc; cases hc
  · rw [h.tree.children_eq hge hi] at hc
    obtain ⟨h1, h2⟩ := kidsUpTo_mem hc
    exact h.tree.fathers c h1 i h2

theorem sum_map_mul (f : Nat → Int) (c : Int) : ∀ l : List Nat,
    (l.map fun k => f k * c).sum = (l.map f).sum * c := by
  intro l
  induction l with
  | nil => simp
  | cons x l ih => rw [List.map_cons, List.sum_cons, ih, List.map_cons, List.sum_cons]; ring

theorem sum_add_const (f : Nat → Int) (c : Int) : ∀ l : List Nat,
    (l.map fun k => f k + c).sum = (l.map f).sum + l.length * c := by
  intro l
  induction l with
  | nil => simp
  | cons x l ih =>
    rw [List.map_cons, List.sum_cons, ih, List.map_cons, List.sum_cons, List.length_cons]
    push_cast
    ring

theorem sum_le_sum_map {f g : Nat → Int} : ∀ {l : List Nat}, (∀ k ∈ l, f k ≤ g k) →
    (l.map f).sum ≤ (l.map g).sum := by
  intro l
  induction l with
  | nil => intro _; simp
  | cons x l ih =>
    intro h
    rw [List.map_cons, List.sum_cons, List.map_cons, List.sum_cons]
    have := h x (by simp)
    have := ih fun k hk => h k (by simp [hk])
    omega

/-- The areas of the parts of a node. -/
theorem WellCut.areas_le (h : WellCut inst bt b o nodes) (hs : Sized bt)
    (hct : 0 ≤ inst.parameters.cutThickness) {a : Nat} (hb : base bt b ≤ a)
    (ha : a < nodes.length) : ((childrenOf nodes a).map (areaOf nodes)).sum ≤ areaOf nodes a := by
  obtain ⟨d1, -⟩ := h.dims hs hct a hb ha
  by_cases hne : childrenOf nodes a = []
  · rw [hne, List.map_nil, List.sum_nil, areaOf_eq true]
    exact (mul_pos (d1 _) (d1 _)).le
  · have hsum := h.sum_le hb hne
    generalize hv : vert o (nd nodes a).d = v at hsum
    rw [sum_add_const] at hsum
    have hlen : 1 ≤ ((childrenOf nodes a).length : Int) := by
      have := List.length_pos_iff.mpr hne
      omega
    have hsp : ((childrenOf nodes a).map (span v nodes)).sum ≤ span v nodes a := by
      rw [span_eq v nodes a]
      have : inst.parameters.cutThickness
          ≤ (childrenOf nodes a).length * inst.parameters.cutThickness := by
        nlinarith
      have e : ((childrenOf nodes a).map (span v nodes)).sum
          = ((childrenOf nodes a).map fun k => span v nodes k).sum := rfl
      omega
    have heq : (childrenOf nodes a).map (areaOf nodes)
        = (childrenOf nodes a).map fun k => span v nodes k * span (!v) nodes a := by
      apply List.map_congr_left
      intro k hk
      have hc := (h.kid hb hk).2.2.2.2
      rw [hv] at hc
      rw [areaOf_eq v, span_eq (!v) nodes k, span_eq (!v) nodes a, hc.low', hc.high']
    rw [heq, sum_map_mul, areaOf_eq v a]
    exact Int.mul_le_mul_of_nonneg_right hsp (d1 _).le

/-- The waste of a node is part of its area. -/
theorem WellCut.waste_le (h : WellCut inst bt b o nodes) (hs : Sized bt)
    (hct : 0 ≤ inst.parameters.cutThickness) : ∀ m i, nodes.length ≤ i + m → base bt b < i →
    i < nodes.length →
    ((computeNodeLengths o nodes).getD i default).area = areaOf nodes i
    ∧ 0 ≤ ((computeNodeLengths o nodes).getD i default).waste
    ∧ ((computeNodeLengths o nodes).getD i default).waste ≤ areaOf nodes i := by
  intro m
  induction m with
  | zero => intro i h1 _ h2; omega
  | succ m ih =>
    intro i h1 hb hi
    obtain ⟨d1, -⟩ := h.dims hs hct i hb.le hi
    have hpos : 0 ≤ areaOf nodes i := by
      rw [areaOf_eq true]
      exact (mul_pos (d1 _) (d1 _)).le
    rw [computeNodeLengths_eq h.forward i hi]
    refine ⟨lengthsOf_area _ _, ?_⟩
    have hkids : ∀ c ∈ childrenOf nodes i,
        0 ≤ ((computeNodeLengths o nodes).getD c default).waste
        ∧ ((computeNodeLengths o nodes).getD c default).waste ≤ areaOf nodes c := by
      intro c hc
      obtain ⟨c1, c2, -⟩ := h.kid hb.le hc
      exact (ih c (by omega) (by omega) c2).2
    generalize computeNodeLengths o nodes = res at hkids
    unfold lengthsOf
    dsimp only
    split_ifs
    · exact ⟨le_refl _, hpos⟩
    · exact ⟨le_refl _, hpos⟩
    · rw [(foldl_addChild _ _ _).2, h.tree.children_eq hb.le hi]
      rw [show kidsUpTo nodes i nodes.length = childrenOf nodes i from rfl]
      rw [zero_add]
      constructor
      · apply List.sum_nonneg
        intro x hx
        obtain ⟨c, hc, rfl⟩ := List.mem_map.mp hx
        exact (hkids c hc).1
      · exact le_trans (sum_le_sum_map fun c hc => (hkids c hc).2) (h.areas_le hs hct hb.le hi)
    · exact ⟨hpos, le_refl _⟩

theorem WellCut.measured (h : WellCut inst bt b o nodes) (hs : Sized bt)
    (hct : 0 ≤ inst.parameters.cutThickness) (harea : bt.w * bt.h < 2 ^ 63) {i : Nat}
    (hb : base bt b < i) (hi : i < nodes.length) :
    Measured ((computeNodeLengths o nodes).getD i default) := by
  obtain ⟨d1, d2⟩ := h.dims hs hct i hb.le hi
  have hpos : 0 < areaOf nodes i := by
    rw [areaOf_eq true]
    exact mul_pos (d1 _) (d1 _)
  obtain ⟨w1, w2, w3⟩ := h.waste_le hs hct nodes.length i (by omega) hb hi
  exact ⟨⟨w2, by omega⟩, ⟨by omega, by omega⟩⟩

end

theorem foldl_addChild_lengths (res : List NodeLengths) : ∀ (l : List Nat) (x : NodeLengths),
    (l.foldl (addChild res) x).length2
      = x.length2 + (l.map fun c => (res.getD c default).length1).sum
    ∧ (l.foldl (addChild res) x).length1
      = (l.map fun c => (res.getD c default).length2).foldl max x.length1 := by
  intro l
  induction l with
  | nil => intro x; simp
  | cons c l ih =>
    intro x
    rw [List.foldl_cons]
    obtain ⟨h1, h2⟩ := ih (addChild res x c)
    constructor
    · rw [h1, List.map_cons, List.sum_cons]
      unfold addChild
      dsimp only
      omega
    · rw [h2, List.map_cons, List.foldl_cons]
      rfl

theorem foldl_max_spec : ∀ (l : List Int) (x : Int),
    x ≤ l.foldl max x ∧ (∀ y ∈ l, y ≤ l.foldl max x) ∧ (l.foldl max x = x ∨ l.foldl max x ∈ l) := by
  intro l
  induction l with
  | nil => intro x; simp
  | cons a l ih =>
    intro x
    obtain ⟨h1, h2, h3⟩ := ih (max x a)
    rw [List.foldl_cons]
    refine ⟨by omega, ?_, ?_⟩
    · intro y hy
      rcases List.mem_cons.mp hy with rfl | hy
      · omega
      · exact h2 y hy
    · rcases h3 with h3 | h3
      · rw [h3]
        rcases le_total x a with h | h
        · right; rw [max_eq_right h]; exact List.mem_cons_self ..
        · left; exact max_eq_left h
      · right; exact List.mem_cons_of_mem _ h3

theorem isVerticalCut_iff {o : CutOrientation} {d : Int} (hd : 0 ≤ d) :
    PostProcess.isVerticalCut o d = true ↔ (o = .vertical ↔ d % 2 = 1) := by
  unfold PostProcess.isVerticalCut
  rw [Int.tmod_eq_emod_of_nonneg hd]
  by_cases h : o = .vertical
  · rw [if_pos h, decide_eq_true_iff]
    simp [h]
  · rw [if_neg h, decide_eq_true_iff]
    simp [h]

theorem WellCut.lengths {inst : Instance} {bt : BinType} {b : Nat} {o : CutOrientation}
    {nodes : List Node} (h : WellCut inst bt b o nodes) {i : Nat}
    (hb : base bt b ≤ i) (hi : i < nodes.length) (hd : 0 ≤ (nd nodes i).d) :
    IsLengths o nodes (fun j => (computeNodeLengths o nodes).getD j default) i (nd nodes i) := by
  have e := computeNodeLengths_eq (o := o) h.forward i hi
  have hk : (nd nodes i).children = childrenOf nodes i := by
    rw [h.tree.children_eq hb hi]; rfl
  have hv := isVerticalCut_iff (o := o) hd
  generalize computeNodeLengths o nodes = res at e
  constructor
  · rw [e]; exact lengthsOf_area _ _
  · intro h1 h2
    rw [e]
    unfold lengthsOf
    dsimp only
    rw [if_pos h1, if_pos (hv.mpr h2)]
    exact ⟨rfl, rfl, rfl⟩
  · intro h1 h2
    rw [e]
    unfold lengthsOf
    dsimp only
    rw [if_pos h1, if_neg (fun h => h2 (hv.mp h))]
    exact ⟨rfl, rfl, rfl⟩
  · intro h1 parts hp
    have hp : parts = childrenOf nodes i := hp
    rw [e, hp]
    unfold lengthsOf
    dsimp only
    rw [if_neg (by omega), if_pos h1, hk, (foldl_addChild_lengths _ _ _).1,
      (foldl_addChild_lengths _ _ _).2, (foldl_addChild _ _ _).2, zero_add, zero_add]
    obtain ⟨q1, q2, q3⟩ := foldl_max_spec ((childrenOf nodes i).map fun c => (res.getD c default).length2) 0
    exact ⟨⟨q1, q2, q3⟩, rfl, rfl⟩
  · intro h1 h2
    rw [e]
    unfold lengthsOf
    dsimp only
    rw [if_neg (by omega), if_neg h2]
    exact ⟨rfl, rfl, rfl⟩

theorem exists_depth : ∀ nodes : List Node, ∃ D : Int, ∀ n ∈ nodes, n.d ≤ D
  | [] => ⟨0, by simp⟩
  | x :: nodes => by
    obtain ⟨D, hD⟩ := exists_depth nodes
    refine ⟨max x.d D, ?_⟩
    intro n hn
    rcases List.mem_cons.mp hn with rfl | hn
    · exact le_max_left _ _
    · exact le_trans (hD n hn) (le_max_right _ _)

end PackingSolver.Guil.SortSubplates
