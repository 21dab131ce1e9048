import Verif.Lemmas.Stacks.Check

/-!
# C93: checking a single stack
-/

namespace PackingSolver.Stacks

open Stacks.Spec
open PackingSolver.Box (Rotation)

variable {inst : Instance}

theorem pileWeight_nonneg {l : List (Nat × Rotation)}
    (h : ∀ i ∈ l, 0 ≤ (inst.itemType i.1).weight) : 0 ≤ pileWeight inst l := by
  apply List.sum_nonneg
  intro q hq
  obtain ⟨i, hi, rfl⟩ := List.mem_map.mp hq
  exact h i hi

theorem atMost_mono {q r : ℚ} {m : ExtQ} (h : AtMost r m) (hqr : q ≤ r) : AtMost q m := by
  cases m with
  | inf => trivial
  | fin m => exact le_trans hqr h

theorem heightAdded_prefix (l m : List (Nat × Rotation))
    (h : ∀ i ∈ l ++ m, 0 ≤ itemHeight inst i ∧ 0 ≤ (inst.itemType i.1).nestingHeight) :
    heightNestingAdded inst l ≤ heightNestingAdded inst (l ++ m) := by
  induction m using List.reverseRecOn with
  | nil => simp
  | append_singleton m x ih =>
    rw [← List.append_assoc, heightAdded_snoc]
    have h1 := ih (fun i hi => h i (by
      rw [← List.append_assoc]; exact List.mem_append_left _ hi))
    have h2 := h x (by simp)
    split_ifs <;> linarith [h2.1, h2.2]

/-- **C93**: `check_stack` accepts a pile of at most 2³¹ − 1 items of the same footprint (with
non-negative weights, heights and nesting heights) exactly if every item bears the weight above it, no
item tolerates fewer items, the pile is not too dense and the sum of the heights of the items *and of
the nesting heights* is at most the height of the bin. -/
theorem checkStack_exact {t : Nat} {l : List (Nat × Rotation)} {x y : Int}
    (hs : SoundPile inst l x y) (hl : l ≠ []) (hlen : (l.length : Int) ≤ 2147483647) :
    checkStack inst t l = true ↔ PileOk inst (inst.binType t) l x y
      ∧ heightNestingAdded inst l ≤ (inst.binType t).box.z := by
  obtain ⟨hx, hy, hi⟩ := hs
  rw [checkStack_iff]
  constructor
  · intro h
    refine ⟨⟨?_, ?_, ?_⟩, ?_⟩
    · intro q i m e hm
      obtain ⟨m', j, rfl⟩ := (List.eq_nil_or_concat m).resolve_left hm
      rw [List.concat_eq_append] at e ⊢
      rw [pileWeight_append, pileWeight_singleton]
      exact (h (q ++ i :: m') j [] (by rw [e]; simp)).2.2.2 q i m' rfl
    · intro i hm
      obtain ⟨q, r, e⟩ := List.append_of_mem hm
      exact (h q i r e).2.2.1.2.2
    · obtain ⟨q, i, rfl⟩ := (List.eq_nil_or_concat l).resolve_left hl
      rw [List.concat_eq_append] at h hi ⊢
      have hd := (h q i [] rfl).2.1
      rw [x_eq, y_eq, (hi i (by simp)).2.2.2.1, (hi i (by simp)).2.2.2.2] at hd
      exact hd
    · obtain ⟨q, i, rfl⟩ := (List.eq_nil_or_concat l).resolve_left hl
      rw [List.concat_eq_append] at h ⊢
      exact (h q i [] rfl).1
  · rintro ⟨⟨ha, hst, hd⟩, hz⟩ q i r e
    have hsub : l = (q ++ [i]) ++ r := by rw [e]; simp
    refine ⟨?_, ?_, ⟨hlen, ?_, ?_⟩, ?_⟩
    · have := heightAdded_prefix (inst := inst) (q ++ [i]) r (fun j hj => by
        rw [← hsub] at hj; exact ⟨(hi j hj).2.1, (hi j hj).2.2.1⟩)
      rw [← hsub] at this
      linarith
    · have him : i ∈ l := by rw [e]; simp
      rw [x_eq, y_eq, (hi i him).2.2.2.1, (hi i him).2.2.2.2]
      apply atMost_mono hd
      have : pileWeight inst (q ++ [i]) ≤ pileWeight inst l := by
        rw [hsub, pileWeight_append (q ++ [i])]
        have := pileWeight_nonneg (inst := inst) (l := r) (fun j hj => (hi j (by rw [e]; simp [hj])).1)
        linarith
      have hx' : (0 : ℚ) < x := by exact_mod_cast hx
      have hy' : (0 : ℚ) < y := by exact_mod_cast hy
      exact div_le_div_of_nonneg_right (div_le_div_of_nonneg_right this hx'.le) hy'.le
    · intro j hj
      exact hst j (by rw [e]; simp [hj])
    · exact hst i (by rw [e]; simp)
    · intro q' j m e'
      have := ha q' j (m ++ i :: r) (by rw [e, e']; simp) (by simp)
      apply atMost_mono this
      have hr := pileWeight_nonneg (inst := inst) (l := r) (fun k hk => (hi k (by rw [e]; simp [hk])).1)
      have : pileWeight inst (m ++ i :: r)
          = pileWeight inst m + (inst.itemType i.1).weight + pileWeight inst r := by
        rw [show m ++ i :: r = (m ++ [i]) ++ r by simp, pileWeight_append, pileWeight_append,
          pileWeight_singleton]
      linarith

/-- **C93** (soundness): an accepted pile satisfies all the constraints: its height, where the items
sink into each other, is at most that of the bin. -/
theorem checkStack_sound {t : Nat} {l : List (Nat × Rotation)} {x y : Int}
    (hs : SoundPile inst l x y) (hl : l ≠ []) (hlen : (l.length : Int) ≤ 2147483647)
    (h : checkStack inst t l = true) :
    PileOk inst (inst.binType t) l x y ∧ pileHeight inst l ≤ (inst.binType t).box.z := by
  obtain ⟨h1, h2⟩ := (checkStack_exact hs hl hlen).mp h
  refine ⟨h1, le_trans ?_ h2⟩
  have : 0 ≤ (l.tail.map fun i => (inst.itemType i.1).nestingHeight).sum := by
    apply List.sum_nonneg
    intro q hq
    obtain ⟨i, hi, rfl⟩ := List.mem_map.mp hq
    exact (hs.2.2 i (List.mem_of_mem_tail hi)).2.2.1
  unfold pileHeight heightNestingAdded
  linarith

/-- **C93** (completeness, without nesting): if no item of the pile sinks into the one below it,
`check_stack` accepts it exactly if it satisfies all the constraints. -/
theorem checkStack_iff_partial {t : Nat} {l : List (Nat × Rotation)} {x y : Int}
    (hs : SoundPile inst l x y) (hl : l ≠ []) (hlen : (l.length : Int) ≤ 2147483647)
    (hn : ∀ i ∈ l.tail, (inst.itemType i.1).nestingHeight = 0) :
    checkStack inst t l = true ↔
      PileOk inst (inst.binType t) l x y ∧ pileHeight inst l ≤ (inst.binType t).box.z := by
  rw [checkStack_exact hs hl hlen]
  have : (l.tail.map fun i => (inst.itemType i.1).nestingHeight).sum = 0 := by
    apply List.sum_eq_zero
    intro q hq
    obtain ⟨i, hi, rfl⟩ := List.mem_map.mp hq
    exact hn i hi
  rw [heightNestingAdded, pileHeight, this, add_zero, sub_zero]

/-- A bin of height 7 and two item types of footprint 2 × 2. -/
def checkInst : Instance := {
  objective := .binPacking
  itemTypes := [
    { box := ⟨2, 2, 3⟩, weight := 5, rotations := [.xyz], nestingHeight := 1,
      maximumStackability := 3, maximumWeightAbove := .fin 9 },
    { box := ⟨2, 2, 2⟩, weight := 4, rotations := [.xyz], maximumWeightAbove := .fin 4 }]
  binTypes := [{ box := ⟨6, 6, 7⟩, maximumStackDensity := .fin (13/4) }]
  numberOfGroups := 1 }

theorem checkInst_sound (l : List (Nat × Rotation))
    (hl : ∀ i ∈ l, i = (0, .xyz) ∨ i = (1, .xyz)) : SoundPile checkInst l 2 2 := by
  refine ⟨by decide, by decide, ?_⟩
  intro i hi
  rcases hl i hi with rfl | rfl <;> decide +kernel

/-- Accepted, and rejected because of the weight above, of the height, of the number of items and of
the density. -/
example : SoundPile checkInst [(0, .xyz), (1, .xyz), (1, .xyz)] 2 2
    ∧ checkStack checkInst 0 [(0, .xyz), (1, .xyz), (1, .xyz)] = true
    ∧ checkStack checkInst 0 [(1, .xyz), (0, .xyz)] = false
    ∧ checkStack checkInst 0 [(0, .xyz), (1, .xyz), (1, .xyz), (1, .xyz)] = false
    ∧ checkStack checkInst 0 [(0, .xyz), (0, .xyz)] = true
    ∧ (∀ i ∈ [(0, Rotation.xyz), (1, .xyz), (1, .xyz)].tail,
      (checkInst.itemType i.1).nestingHeight = 0) :=
  ⟨checkInst_sound _ (by decide), by decide +kernel, by decide +kernel, by decide +kernel,
    by decide +kernel, by decide +kernel⟩

/-- **C93**, negation: with items that sink into each other, `check_stack` rejects piles that satisfy
all the constraints, because it adds the nesting height instead of subtracting it. -/
theorem checkStack_rejects_nesting : ∃ (inst : Instance) (t : Nat) (l : List (Nat × Rotation))
    (x y : Int), SoundPile inst l x y ∧ l ≠ [] ∧ PileOk inst (inst.binType t) l x y
    ∧ pileHeight inst l < (inst.binType t).box.z ∧ checkStack inst t l = false := by
  let i : Instance := {
    objective := .binPacking
    itemTypes := [{ box := ⟨2, 2, 3⟩, weight := 1, rotations := [.xyz], nestingHeight := 1 }]
    binTypes := [{ box := ⟨6, 6, 6⟩ }]
    numberOfGroups := 1 }
  refine ⟨i, 0, [(0, .xyz), (0, .xyz)], 2, 2, ⟨by decide, by decide, by decide +kernel⟩, by decide,
    ⟨?_, by decide +kernel, trivial⟩, by decide +kernel, by decide +kernel⟩
  intro q j m e _
  have hj : j ∈ [((0 : Nat), Rotation.xyz), (0, .xyz)] := by rw [e]; simp
  have : j = (0, .xyz) := by simpa using hj
  subst this
  trivial

/-- **C93**, negation: `check_stack` does not look at the stackability ids: items that may not be
stacked together are accepted. -/
theorem checkStack_ignores_stackabilityId : ∃ (inst : Instance) (t i j : Nat),
    (inst.itemType i).stackabilityId ≠ (inst.itemType j).stackabilityId
    ∧ checkStack inst t [(i, .xyz), (j, .xyz)] = true := by
  let i : Instance := {
    objective := .binPacking
    itemTypes := [
      { box := ⟨2, 2, 3⟩, weight := 1, rotations := [.xyz], stackabilityId := 0 },
      { box := ⟨2, 2, 3⟩, weight := 1, rotations := [.xyz], stackabilityId := 1 }]
    binTypes := [{ box := ⟨6, 6, 6⟩ }]
    numberOfGroups := 1 }
  exact ⟨i, 0, 0, 1, by decide +kernel, by decide +kernel⟩

end PackingSolver.Stacks
