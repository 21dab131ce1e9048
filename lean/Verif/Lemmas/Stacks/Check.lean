import Verif.Spec.StacksCheck
import Verif.Lemmas.Stacks.Loop

/-! # The loop of `check_stack` -/

namespace PackingSolver.Stacks

open Stacks.Spec
open PackingSolver.Box (Rotation)

variable {inst : Instance}

theorem forall_split_snoc {α : Type} (P : List α → α → Prop) (p : List α) (x : α) :
    (∀ q i r, p ++ [x] = q ++ i :: r → P q i) ↔ (∀ q i r, p = q ++ i :: r → P q i) ∧ P p x := by
  constructor
  · intro h
    exact ⟨fun q i r e => h q i (r ++ [x]) (by rw [e]; simp), h p x [] rfl⟩
  · rintro ⟨h1, h2⟩ q i r e
    rcases List.eq_nil_or_concat r with rfl | ⟨r', y, rfl⟩
    · obtain ⟨rfl, e2⟩ := List.append_inj' e rfl
      rw [List.cons.injEq] at e2
      rw [← e2.1]; exact h2
    · have : p ++ [x] = (q ++ i :: r') ++ [y] := by rw [e]; simp
      exact h1 q i r' (List.append_inj' this rfl).1

theorem strictlyGreaterExt_iff (q : ℚ) (m : ExtQ) : strictlyGreaterExt q m = false ↔ AtMost q m := by
  cases m with
  | inf => simp [strictlyGreaterExt, AtMost]
  | fin m => simp only [strictlyGreaterExt, strictlyGreater, AtMost, tol, decide_eq_false_iff_not,
      not_lt, gt_iff_lt]; constructor <;> intro h <;> linarith

theorem atMost_min (q : ℚ) (a b : ExtQ) : AtMost q (ExtQ.min a b) ↔ AtMost q a ∧ AtMost q b := by
  cases a <;> cases b <;> simp only [ExtQ.min, AtMost, and_true, true_and]
  rename_i a b
  rcases le_total a b with h | h
  · rw [min_eq_left h]; constructor
    · intro h'; exact ⟨h', by linarith⟩
    · exact fun h' => h'.1
  · rw [min_eq_right h]; constructor
    · intro h'; exact ⟨by linarith, h'⟩
    · exact fun h' => h'.2

theorem atMost_sub (q w : ℚ) (a : ExtQ) : AtMost q (a.subQ w) ↔ AtMost (w + q) a := by
  cases a <;> simp only [ExtQ.subQ, AtMost]
  constructor <;> intro h <;> linarith

theorem pileWeight_append (l m : List (Nat × Rotation)) :
    pileWeight inst (l ++ m) = pileWeight inst l + pileWeight inst m := by
  simp [pileWeight]

theorem pileWeight_singleton (i : Nat × Rotation) :
    pileWeight inst [i] = (inst.itemType i.1).weight := by
  simp [pileWeight]

theorem heightAdded_snoc (l : List (Nat × Rotation)) (i : Nat × Rotation) :
    heightNestingAdded inst (l ++ [i]) = heightNestingAdded inst l + itemHeight inst i
      + if l.length > 0 then (inst.itemType i.1).nestingHeight else 0 := by
  cases l with
  | nil => simp [heightNestingAdded]
  | cons a l => simp [heightNestingAdded]; ring

/-- The conditions on item `i` above the items `q` in a stack of `n` items. -/
def ItemOk (inst : Instance) (b : BinType) (n : Nat) (q : List (Nat × Rotation))
    (i : Nat × Rotation) : Prop :=
  heightNestingAdded inst (q ++ [i]) ≤ b.box.z
  ∧ AtMost (pileWeight inst (q ++ [i]) / ((inst.itemType i.1).x i.2 : ℚ)
      / ((inst.itemType i.1).y i.2 : ℚ)) b.maximumStackDensity
  ∧ ((n : Int) ≤ 2147483647 ∧ (∀ j ∈ q, (n : Int) ≤ (inst.itemType j.1).maximumStackability)
      ∧ (n : Int) ≤ (inst.itemType i.1).maximumStackability)
  ∧ ∀ q' j m, q = q' ++ j :: m →
      AtMost (pileWeight inst m + (inst.itemType i.1).weight) (inst.itemType j.1).maximumWeightAbove

/-- The state of the loop after the items `p`. -/
structure CheckInv (inst : Instance) (p : List (Nat × Rotation)) (st : CheckLoop) : Prop where
  zEnd : st.zEnd = heightNestingAdded inst p
  weight : st.weight = pileWeight inst p
  maximum : ∀ n : Int, n ≤ st.maximumNumberOfItems ↔ n ≤ 2147483647
    ∧ ∀ j ∈ p, n ≤ (inst.itemType j.1).maximumStackability
  remaining : ∀ w, AtMost w st.remainingWeight ↔ ∀ q j m, p = q ++ j :: m →
    AtMost (pileWeight inst m + w) (inst.itemType j.1).maximumWeightAbove
  pos : st.pos = p.length

theorem checkInv_nil : CheckInv inst [] {} := by
  refine ⟨rfl, rfl, by simp, ?_, rfl⟩
  intro w
  simp [AtMost]

theorem checkStep_iff {b : BinType} {n : Nat} {p : List (Nat × Rotation)} {st : CheckLoop}
    (h : CheckInv inst p st) (i : Nat × Rotation) :
    (ItemOk inst b n p i → ∃ st', checkStep inst b n st i = some st' ∧ CheckInv inst (p ++ [i]) st')
    ∧ (∀ st', checkStep inst b n st i = some st' → ItemOk inst b n p i) := by
  have hz : st.zEnd + (if st.pos > 0 then (inst.itemType i.1).z i.2 - (- (inst.itemType i.1).nestingHeight)
      else (inst.itemType i.1).z i.2) = heightNestingAdded inst (p ++ [i]) := by
    rw [heightAdded_snoc, h.zEnd, h.pos, itemHeight, z_eq]
    split_ifs <;> ring
  have hw : st.weight + (inst.itemType i.1).weight = pileWeight inst (p ++ [i]) := by
    rw [pileWeight_append, pileWeight_singleton, h.weight]
  have hm : ∀ n : Int, n ≤ min st.maximumNumberOfItems (inst.itemType i.1).maximumStackability ↔
      (n ≤ 2147483647 ∧ (∀ j ∈ p, n ≤ (inst.itemType j.1).maximumStackability)
      ∧ n ≤ (inst.itemType i.1).maximumStackability) := by
    intro n
    rw [le_min_iff, h.maximum, and_assoc]
  have hr := h.remaining (inst.itemType i.1).weight
  have hcond : ItemOk inst b n p i ↔
      (¬ heightNestingAdded inst (p ++ [i]) > b.box.z
      ∧ strictlyGreaterExt (pileWeight inst (p ++ [i]) / ((inst.itemType i.1).x i.2 : ℚ)
      / ((inst.itemType i.1).y i.2 : ℚ)) b.maximumStackDensity = false
      ∧ ¬ (n : Int) > min st.maximumNumberOfItems (inst.itemType i.1).maximumStackability
      ∧ strictlyGreaterExt (inst.itemType i.1).weight st.remainingWeight = false) := by
    rw [strictlyGreaterExt_iff, strictlyGreaterExt_iff, not_lt, not_lt, hm, hr]
    rfl
  unfold checkStep
  simp only [hz, hw]
  rw [hcond]
  constructor
  · rintro ⟨h1, h2, h3, h4⟩
    refine ⟨_, by rw [if_neg h1, if_neg (by simp [h2]), if_neg h3, if_neg (by simp [h4])], rfl, rfl,
      ?_, ?_, by simp [h.pos]⟩
    · intro n
      rw [hm]
      simp only [List.mem_append, List.mem_singleton, or_imp, forall_and, forall_eq]
    · intro w
      change AtMost w (ExtQ.min _ _) ↔ _
      rw [atMost_min, atMost_sub, h.remaining]
      constructor
      · rintro ⟨ha, hb⟩ q j m e
        rcases List.eq_nil_or_concat m with rfl | ⟨m', y, rfl⟩
        · obtain ⟨rfl, e2⟩ := List.append_inj' e rfl
          rw [List.cons.injEq] at e2
          rw [← e2.1]
          simpa [pileWeight] using hb
        · have e' : p ++ [i] = (q ++ j :: m') ++ [y] := by rw [e]; simp
          obtain ⟨e1, e2⟩ := List.append_inj' e' rfl
          rw [List.cons.injEq] at e2
          have := ha q j m' e1
          rw [List.concat_eq_append, pileWeight_append, pileWeight_singleton, ← e2.1, add_assoc]
          exact this
      · intro ha
        constructor
        · intro q j m e
          have := ha q j (m ++ [i]) (by rw [e]; simp)
          rw [pileWeight_append, pileWeight_singleton, add_assoc] at this
          exact this
        · have := ha p i [] rfl
          simpa [pileWeight] using this
  · intro st' e
    by_cases h1 : heightNestingAdded inst (p ++ [i]) > b.box.z
    · rw [if_pos h1] at e; cases e
    · rw [if_neg h1] at e
      by_cases h2 : strictlyGreaterExt (pileWeight inst (p ++ [i]) / ((inst.itemType i.1).x i.2 : ℚ)
          / ((inst.itemType i.1).y i.2 : ℚ)) b.maximumStackDensity = true
      · rw [if_pos h2] at e; cases e
      · rw [if_neg h2] at e
        by_cases h3 : (n : Int) > min st.maximumNumberOfItems (inst.itemType i.1).maximumStackability
        · rw [if_pos h3] at e; cases e
        · rw [if_neg h3] at e
          by_cases h4 : strictlyGreaterExt (inst.itemType i.1).weight st.remainingWeight = true
          · rw [if_pos h4] at e; cases e
          · exact ⟨h1, by simpa using h2, h3, by simpa using h4⟩

theorem checkLoop_iff (b : BinType) (n : Nat) (p : List (Nat × Rotation)) :
    ((∀ q i r, p = q ++ i :: r → ItemOk inst b n q i) →
      ∃ st, p.foldlM (checkStep inst b n) {} = some st ∧ CheckInv inst p st)
    ∧ ∀ st, p.foldlM (checkStep inst b n) {} = some st →
      (∀ q i r, p = q ++ i :: r → ItemOk inst b n q i) ∧ CheckInv inst p st := by
  induction p using List.reverseRecOn with
  | nil =>
    refine ⟨fun _ => ⟨{}, rfl, checkInv_nil⟩, ?_⟩
    intro st e
    cases e
    exact ⟨fun q i r e => by simp at e, checkInv_nil⟩
  | append_singleton p x ih =>
    rw [forall_split_snoc, List.foldlM_append]
    constructor
    · rintro ⟨h1, h2⟩
      obtain ⟨st, e, hi⟩ := ih.1 h1
      obtain ⟨st', e', hi'⟩ := (checkStep_iff hi x).1 h2
      exact ⟨st', by rw [e]; simpa using e', hi'⟩
    · intro st e
      cases e1 : p.foldlM (checkStep inst b n) {} with
      | none => rw [e1] at e; cases e
      | some st1 =>
        rw [e1] at e
        have e' : checkStep inst b n st1 x = some st := by simpa using e
        obtain ⟨h1, hi⟩ := ih.2 st1 e1
        have h2 := (checkStep_iff hi x).2 st e'
        obtain ⟨st2, e2, hi2⟩ := (checkStep_iff hi x).1 h2
        rw [e'] at e2
        cases e2
        exact ⟨⟨h1, h2⟩, hi2⟩

theorem checkStack_iff (t : Nat) (l : List (Nat × Rotation)) :
    checkStack inst t l = true ↔
      ∀ q i r, l = q ++ i :: r → ItemOk inst (inst.binType t) l.length q i := by
  unfold checkStack
  rw [Option.isSome_iff_exists]
  exact ⟨fun ⟨st, e⟩ => ((checkLoop_iff _ _ l).2 st e).1,
    fun h => ⟨_, ((checkLoop_iff _ _ l).1 h).choose_spec.1⟩⟩

end PackingSolver.Stacks
