import Verif.Lemmas.Algorithms.Dichotomic

/-!
# Helper lemmas for the dichotomic search: the loop
-/

namespace PackingSolver.Dichotomic.DichLemmas

open PackingSolver.Svc (Bin BinTypeData Status)
open PackingSolver.Svc.Spec (binsUsed itemsUsed binSequence)
open _root_.PackingSolver.Dichotomic.Spec

variable {inst : InstanceData} {sorted : List Nat} {p : Parameters} {o : Oracle}

/-- Whether a bin packing solution packs everything in at most as many bins as selected. -/
def succeeds (inst : InstanceData) (sorted : List Nat) (copies : List Int) (sol : List Bin) :
    Bool :=
  Svc.numberOfItems sol = inst.numberOfItems
    ∧ Svc.numberOfBins sol ≤ selectedBins sorted copies

/-- The copies selected for a capacity. -/
def chosen (inst : InstanceData) (o : Oracle) (cap : Int) : List Int :=
  binCopies inst cap (o.kp cap (kp2ps inst cap))

theorem step_cases (inst : InstanceData) (sorted : List Nat) (p : Parameters) (o : Oracle)
    (st : State) :
    (step inst sorted p o st = (st, .returned) ∧ o.ends st.emitted.length (nextWaste p st) = true)
    ∨ (∃ e, step inst sorted p o st = (st, .threw e) ∧
        (kpCapacity inst (nextWaste p st) = .error e ∨
          ∃ cap, kpCapacity inst (nextWaste p st) = .ok cap ∧
            bppBins inst sorted (chosen inst o cap) = .error e))
    ∨ ∃ cap found st1, kpCapacity inst (nextWaste p st) = .ok cap ∧
        step inst sorted p o st = updateBounds inst (o.kp cap (kp2ps inst cap))
          (nextWaste p st) found st1 ∧
        ((st1 = st ∧ st.memory.lookup (chosen inst o cap) = some found) ∨
          ∃ bins, bppBins inst sorted (chosen inst o cap) = .ok bins ∧
            found = succeeds inst sorted (chosen inst o cap) (o.bpp bins) ∧
            st1 = { st with
              memory := (chosen inst o cap, found) :: st.memory
              emitted := st.emitted ++ [relabel bins (o.bpp bins)] }) := by
  unfold step
  dsimp only
  by_cases he : o.ends st.emitted.length (nextWaste p st) = true
  · left
    exact ⟨by rw [if_pos he], he⟩
  · right
    rw [if_neg he]
    cases hc : kpCapacity inst (nextWaste p st) with
    | error e => left; exact ⟨e, rfl, .inl rfl⟩
    | ok cap =>
      dsimp only
      cases hl : st.memory.lookup (binCopies inst cap (o.kp cap (kp2ps inst cap))) with
      | some found =>
        right
        exact ⟨cap, found, st, rfl, rfl, .inl ⟨rfl, hl⟩⟩
      | none =>
        dsimp only
        cases hb : bppBins inst sorted (binCopies inst cap (o.kp cap (kp2ps inst cap))) with
        | error e => left; exact ⟨e, rfl, .inr ⟨cap, rfl, hb⟩⟩
        | ok bins => right; exact ⟨cap, _, _, rfl, rfl, .inr ⟨bins, hb, rfl, rfl⟩⟩

theorem loop_inv (I : State → Prop)
    (hstep : ∀ st, I st → continues st = true → I (step inst sorted p o st).1) :
    ∀ fuel st, I st → I (loop inst sorted p o fuel st).1 := by
  intro fuel
  induction fuel with
  | zero => intro st h; exact h
  | succ n ih =>
    intro st h
    unfold loop
    by_cases hc : continues st = true
    · rw [if_pos hc]
      have hs := hstep st h hc
      obtain ⟨st', s, e⟩ : ∃ st' s, step inst sorted p o st = (st', s) := ⟨_, _, rfl⟩
      rw [e] at hs ⊢
      cases s with
      | running => exact ih st' hs
      | _ => exact hs
    · rw [if_neg hc]; exact h

theorem updateBounds_fst (taken : List Bool) (w : ℚ) (found : Bool) (st : State) :
    (updateBounds inst taken w found st).1 =
      if found then { st with upper := .fin w } else { st with lower := w } := by
  unfold updateBounds
  cases found
  · simp only [Bool.false_eq_true, if_false]
    split <;> rfl
  · rfl

theorem lookup_mem {α β : Type} [BEq α] [LawfulBEq α] {l : List (α × β)} {a : α} {b : β}
    (h : l.lookup a = some b) : (a, b) ∈ l := by
  induction l with
  | nil => simp at h
  | cons x l ih =>
    rw [List.lookup_cons] at h
    by_cases hx : a == x.1
    · simp only [hx] at h
      have : a = x.1 := by simpa using hx
      injection h with h
      subst this; subst h
      exact List.mem_cons_self
    · simp only [hx] at h
      exact List.mem_cons_of_mem _ (ih h)

/-- An emitted solution packs everything in at most as many bins as selected. -/
def Wit (inst : InstanceData) (sorted : List Nat) (o : Oracle) (copies : List Int)
    (emitted : List (List Bin)) : Prop :=
  ∃ bins, bppBins inst sorted copies = .ok bins ∧ relabel bins (o.bpp bins) ∈ emitted ∧
    Svc.numberOfItems (o.bpp bins) = inst.numberOfItems ∧
    Svc.numberOfBins (o.bpp bins) ≤ selectedBins sorted copies

theorem Wit.mono {copies : List Int} {e e' : List (List Bin)} (h : Wit inst sorted o copies e) :
    Wit inst sorted o copies (e ++ e') := by
  obtain ⟨bins, h1, h2, h3⟩ := h
  exact ⟨bins, h1, List.mem_append_left _ h2, h3⟩

/-- The upper bound is the initial one or it is witnessed. -/
structure UpperInv (inst : InstanceData) (sorted : List Nat) (p : Parameters) (o : Oracle)
    (st : State) : Prop where
  memory : ∀ c, (c, true) ∈ st.memory → Wit inst sorted o c st.emitted
  upper : st.upper = p.initialUpper ∨ ∃ w, st.upper = .fin w ∧
    ∃ cap, kpCapacity inst w = .ok cap ∧ Wit inst sorted o (chosen inst o cap) st.emitted

theorem UpperInv.step {st : State} (h : UpperInv inst sorted p o st) :
    UpperInv inst sorted p o (step inst sorted p o st).1 := by
  rcases step_cases inst sorted p o st with ⟨e, _⟩ | ⟨_, e, _⟩ | ⟨cap, found, st1, hc, e, hst⟩
  · rw [e]; exact h
  · rw [e]; exact h
  · rw [e, updateBounds_fst]
    have key : UpperInv inst sorted p o st1 ∧
        (found = true → Wit inst sorted o (chosen inst o cap) st1.emitted) := by
      rcases hst with ⟨rfl, hl⟩ | ⟨bins, hb, hf, rfl⟩
      · exact ⟨h, fun hf => h.memory _ (by subst hf; exact lookup_mem hl)⟩
      · have hw : found = true → Wit inst sorted o (chosen inst o cap)
            (st.emitted ++ [relabel bins (o.bpp bins)]) := by
          intro ht
          rw [hf] at ht
          unfold succeeds at ht
          have := of_decide_eq_true ht
          exact ⟨bins, hb, by simp, this.1, this.2⟩
        refine ⟨⟨?_, ?_⟩, hw⟩
        · intro c hcm
          rw [List.mem_cons] at hcm
          rcases hcm with hcm | hcm
          · injection hcm with h1 h2
            subst h1
            exact hw h2.symm
          · exact (h.memory c hcm).mono
        · rcases h.upper with hu | ⟨w, hu, cap', hc', hw'⟩
          · exact .inl hu
          · exact .inr ⟨w, hu, cap', hc', hw'.mono⟩
    cases found with
    | true => exact ⟨key.1.memory, .inr ⟨_, rfl, cap, hc, key.2 rfl⟩⟩
    | false => exact ⟨key.1.memory, key.1.upper⟩

theorem nextWaste_bounds {st : State} (hp : 0 < p.initialWaste) (h0 : 0 ≤ st.lower)
    (h : ∀ u, st.upper = .fin u → st.lower ≤ u) :
    st.lower ≤ nextWaste p st ∧ (∀ u, st.upper = .fin u → nextWaste p st ≤ u) := by
  unfold nextWaste
  cases hu : st.upper with
  | inf =>
    refine ⟨?_, fun u hu' => by simp at hu'⟩
    dsimp only
    split <;> linarith
  | fin u =>
    have := h u hu
    refine ⟨?_, ?_⟩
    · dsimp only; linarith
    · intro u' hu'
      injection hu' with hu'
      subst hu'
      dsimp only; linarith

theorem step_bounds (st : State) (hp : 0 < p.initialWaste) (h0 : 0 ≤ st.lower)
    (h : ∀ u, st.upper = .fin u → st.lower ≤ u) :
    st.lower ≤ (step inst sorted p o st).1.lower ∧
    (∀ u, (step inst sorted p o st).1.upper = .fin u → (step inst sorted p o st).1.lower ≤ u) ∧
    (∀ u, st.upper = .fin u → ∃ u' ≤ u, (step inst sorted p o st).1.upper = .fin u') := by
  obtain ⟨hw1, hw2⟩ := nextWaste_bounds hp h0 h
  rcases step_cases inst sorted p o st with ⟨e, _⟩ | ⟨_, e, _⟩ | ⟨cap, found, st1, hc, e, hst⟩
  · rw [e]; exact ⟨le_refl _, h, fun u hu => ⟨u, le_refl _, hu⟩⟩
  · rw [e]; exact ⟨le_refl _, h, fun u hu => ⟨u, le_refl _, hu⟩⟩
  · rw [e, updateBounds_fst]
    have key : st1.lower = st.lower ∧ st1.upper = st.upper := by
      rcases hst with ⟨rfl, _⟩ | ⟨bins, _, _, rfl⟩ <;> exact ⟨rfl, rfl⟩
    cases found with
    | true =>
      simp only [if_true]
      rw [key.1]
      refine ⟨le_refl _, ?_, ?_⟩
      · intro u hu
        injection hu with hu
        subst hu; exact hw1
      · intro u hu; exact ⟨_, hw2 u hu, rfl⟩
    | false =>
      simp only [Bool.false_eq_true, if_false]
      rw [key.2]
      exact ⟨hw1, hw2, fun u hu => ⟨u, le_refl _, hu⟩⟩

end PackingSolver.Dichotomic.DichLemmas
