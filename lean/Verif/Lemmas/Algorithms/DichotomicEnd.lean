import Verif.Lemmas.Algorithms.DichotomicCost
import Mathlib.Algebra.Order.Archimedean.Basic
import Mathlib.Algebra.Order.Floor.Semiring
import Mathlib.Tactic.Positivity
import Mathlib.Tactic.FieldSimp

/-!
# Helper lemmas for the dichotomic search: optimality of the selection, termination
-/

namespace PackingSolver.Dichotomic.DichLemmas

open PackingSolver.Svc (Bin BinTypeData Status)
open PackingSolver.Svc.Spec (binsUsed itemsUsed binSequence)
open _root_.PackingSolver.Dichotomic.Spec

variable {inst : InstanceData} {sorted : List Nat} {p : Parameters} {o : Oracle}

theorem sum_map_binTypes (inst : InstanceData) (f : BinTypeData → ℚ) :
    (inst.binTypes.map f).sum
      = ((List.range inst.binTypes.length).map fun t => f (inst.binType t)).sum := by
  congr 1
  apply List.ext_getElem
  · simp
  · intro i h1 h2
    simp only [List.length_map] at h1
    rw [List.getElem_map, List.getElem_map, List.getElem_range]
    unfold InstanceData.binType
    rw [List.getD_eq_getElem _ _ h1]

theorem sum_ge_term (l : List Nat) (f : Nat → ℚ) (h : ∀ a ∈ l, 0 ≤ f a) (t : Nat) (ht : t ∈ l) :
    f t ≤ (l.map f).sum := by
  induction l with
  | nil => simp at ht
  | cons a l ih =>
    rw [List.map_cons, List.sum_cons]
    have h1 := h a List.mem_cons_self
    have h2 : ∀ b ∈ l, 0 ≤ f b := fun b hb => h b (List.mem_cons_of_mem _ hb)
    have h3 : 0 ≤ (l.map f).sum := List.sum_nonneg (by
      intro x hx
      rw [List.mem_map] at hx
      obtain ⟨b, hb, rfl⟩ := hx
      exact h2 b hb)
    rw [List.mem_cons] at ht
    rcases ht with rfl | ht
    · linarith
    · have := ih h2 ht
      linarith

theorem sum_integer (l : List Nat) (f : Nat → ℚ) (h : ∀ a ∈ l, ∃ k : Int, f a = k) :
    ∃ k : Int, (l.map f).sum = k := by
  induction l with
  | nil => exact ⟨0, by simp⟩
  | cons a l ih =>
    obtain ⟨k, hk⟩ := h a List.mem_cons_self
    obtain ⟨k', hk'⟩ := ih fun b hb => h b (List.mem_cons_of_mem _ hb)
    exact ⟨k + k', by rw [List.map_cons, List.sum_cons, hk, hk']; push_cast; rfl⟩

theorem kpCapacity_ok {w : ℚ} {cap : Int} (h : kpCapacity inst w = .ok cap) :
    cap = max ⌊rawCapacity inst w⌋ 0 := by
  unfold kpCapacity at h
  split at h
  · cases h
  · injection h with h; exact h.symm

/-- The selected bins cost no more than any choice of bins with that waste. -/
theorem selected_le_choice (hv : ValidInstance inst) (hint : IntegerSpaces inst)
    (hcost : ∀ t ∈ inst.binTypes, 0 ≤ t.cost) (hlen : KnapsackAnswers o)
    (hopt : KnapsackOptimal inst o) {w : ℚ} {cap : Int} (hc : kpCapacity inst w = .ok cap)
    {n : Nat → Int} (hn : Choice inst w n) :
    sumOver inst (fun t => (chosen inst o cap).getD t 0) (fun t => t.cost)
      ≤ sumOver inst n fun t => t.cost := by
  have hb : ∀ t ∈ List.range inst.binTypes.length,
      (inst.binType t).copiesMin ≤ n t ∧ n t ≤ (inst.binType t).copies :=
    fun t ht => hn.copies t (List.mem_range.mp ht)
  have hspace : ∀ t ∈ List.range inst.binTypes.length, 0 ≤ (inst.binType t).space :=
    fun t ht => (hv.bins _ (binType_mem (List.mem_range.mp ht))).2.2
  have hcst : ∀ t ∈ List.range inst.binTypes.length, 0 ≤ (inst.binType t).cost :=
    fun t ht => hcost _ (binType_mem (List.mem_range.mp ht))
  -- the space of the bins left out
  have hdrop : ((List.range inst.binTypes.length).map fun t =>
      (((inst.binType t).copies - n t : Int) : ℚ) * (inst.binType t).space).sum
        ≤ rawCapacity inst w := by
    unfold rawCapacity binMinSpace binSpace
    rw [sum_map_binTypes, sum_map_binTypes]
    have h1 := hn.space
    unfold sumOver at h1
    have h2 := sum_map_add (List.range inst.binTypes.length)
      (fun t => (((inst.binType t).copies - n t : Int) : ℚ) * (inst.binType t).space
        + ((n t - (inst.binType t).copiesMin : Int) : ℚ) * (inst.binType t).space)
      (fun t => ((inst.binType t).copiesMin : ℚ) * (inst.binType t).space)
    have h4 := sum_map_add (List.range inst.binTypes.length)
      (fun t => (((inst.binType t).copies - n t : Int) : ℚ) * (inst.binType t).space)
      (fun t => ((n t - (inst.binType t).copiesMin : Int) : ℚ) * (inst.binType t).space)
    have h3 : ∀ t, (((inst.binType t).copies - n t : Int) : ℚ) * (inst.binType t).space
        + ((n t - (inst.binType t).copiesMin : Int) : ℚ) * (inst.binType t).space
        + ((inst.binType t).copiesMin : ℚ) * (inst.binType t).space
        = ((inst.binType t).copies : ℚ) * (inst.binType t).space := by
      intro t; push_cast; ring
    simp only [h3] at h2
    dsimp only at h1
    linarith
  -- it is at most the capacity
  have hcap : ((List.range inst.binTypes.length).map fun t =>
      (((inst.binType t).copies - n t : Int) : ℚ) * (inst.binType t).space).sum ≤ (cap : ℚ) := by
    obtain ⟨k, hk⟩ := sum_integer (List.range inst.binTypes.length)
      (fun t => (((inst.binType t).copies - n t : Int) : ℚ) * (inst.binType t).space) (by
        intro t ht
        obtain ⟨m, hm⟩ := hint _ (binType_mem (List.mem_range.mp ht))
        exact ⟨((inst.binType t).copies - n t) * m, by rw [hm]; push_cast; ring⟩)
    rw [hk] at hdrop ⊢
    have : k ≤ ⌊rawCapacity inst w⌋ := Int.le_floor.mpr hdrop
    rw [kpCapacity_ok hc]
    exact_mod_cast le_trans this (le_max_left _ _)
  have hterm : ∀ a ∈ List.range inst.binTypes.length,
      0 ≤ (((inst.binType a).copies - n a : Int) : ℚ) * (inst.binType a).space := by
    intro a ha
    have h1 : (0 : ℚ) ≤ (((inst.binType a).copies - n a : Int) : ℚ) := by
      exact_mod_cast (by have := (hb a ha).2; omega : (0 : Int) ≤ (inst.binType a).copies - n a)
    exact mul_nonneg h1 (hspace a ha)
  obtain ⟨f1, f2, f3⟩ := flagsOf_facts inst cap n (fun t => (inst.binType t).cost)
    (List.range inst.binTypes.length) hb
  obtain ⟨_, g2, _⟩ := flagsOf_facts inst cap n (fun t => (inst.binType t).space)
    (List.range inst.binTypes.length) hb
  have hS : total (fun t => (inst.binType t).space) (kp2ps inst cap)
      (flagsOf inst cap n (List.range inst.binTypes.length)) ≤ cap := by
    refine le_trans (le_of_eq g2) (le_trans (sum_map_le _ _ _ ?_) hcap)
    intro t ht
    split
    · exact hterm t ht
    · exact le_refl _
  have hcap0 : 0 ≤ cap := by rw [kpCapacity_ok hc]; exact le_max_right _ _
  have hbest := (hopt cap (kp2ps inst cap) hcap0 fun t ht => kp2ps_lt inst cap ht).2 _ f1 hS
  have r1 := total_add_rest (fun t => (inst.binType t).cost) (kp2ps inst cap)
    (o.kp cap (kp2ps inst cap)) (hlen _ _)
  have r2 := total_add_rest (fun t => (inst.binType t).cost) (kp2ps inst cap)
    (flagsOf inst cap n (List.range inst.binTypes.length)) f1
  have hrest : rest (fun t => (inst.binType t).cost)
      ((kp2ps inst cap).zip (o.kp cap (kp2ps inst cap)))
      ≤ rest (fun t => (inst.binType t).cost)
      ((kp2ps inst cap).zip (flagsOf inst cap n (List.range inst.binTypes.length))) := by
    linarith
  -- cost of the selected bins
  have hsel : sumOver inst (fun t => (chosen inst o cap).getD t 0) (fun t => t.cost)
      = ((List.range inst.binTypes.length).map fun t =>
          ((inst.binType t).copiesMin : ℚ) * (inst.binType t).cost).sum
        + rest (fun t => (inst.binType t).cost)
          ((kp2ps inst cap).zip (o.kp cap (kp2ps inst cap))) := by
    rw [← sum_countP _ inst.binTypes.length _ (by
      intro q hq
      exact kp2ps_lt inst cap (List.of_mem_zip hq).1), ← sum_map_add]
    unfold sumOver
    congr 1
    apply List.map_congr_left
    intro t ht
    unfold chosen
    dsimp only
    rw [binCopies_getD, if_pos (List.mem_range.mp ht)]
    push_cast
    ring
  rw [hsel]
  have hfin : ((List.range inst.binTypes.length).map fun t =>
          ((inst.binType t).copiesMin : ℚ) * (inst.binType t).cost).sum
        + rest (fun t => (inst.binType t).cost)
          ((kp2ps inst cap).zip (flagsOf inst cap n (List.range inst.binTypes.length)))
      ≤ sumOver inst n fun t => t.cost := by
    have e : rest (fun t => (inst.binType t).cost)
        ((kp2ps inst cap).zip (flagsOf inst cap n (List.range inst.binTypes.length))) = _ := f3
    rw [e, ← sum_map_add]
    unfold sumOver
    apply sum_map_le
    intro t ht
    have h1 := hb t ht
    have h2 := hcst t ht
    split
    · have : ((inst.binType t).copiesMin : ℚ) ≤ (n t : ℚ) := by exact_mod_cast h1.1
      have := mul_le_mul_of_nonneg_right this h2
      linarith
    · push_cast
      linarith
  linarith

/-! ### Termination -/

/-- The loop ends from a state. -/
def Ends (inst : InstanceData) (sorted : List Nat) (p : Parameters) (o : Oracle) (st : State) :
    Prop := ∃ fuel, (loop inst sorted p o fuel st).2 ≠ .running

theorem loop_mono (fuel : Nat) : ∀ st, (loop inst sorted p o fuel st).2 ≠ .running →
    ∀ m ≥ fuel, loop inst sorted p o m st = loop inst sorted p o fuel st := by
  induction fuel with
  | zero => intro st h; exact absurd rfl h
  | succ n ih =>
    intro st h m hm
    obtain ⟨k, rfl⟩ : ∃ k, m = k + 1 := ⟨m - 1, by omega⟩
    unfold loop at h ⊢
    by_cases hc : continues st = true
    · rw [if_pos hc] at h ⊢
      rw [if_pos hc]
      obtain ⟨st', s, e⟩ : ∃ st' s, step inst sorted p o st = (st', s) := ⟨_, _, rfl⟩
      rw [e] at h ⊢
      cases s with
      | running => exact ih st' h k (by omega)
      | _ => rfl
    · rw [if_neg hc, if_neg hc]

theorem Ends.of_step {st : State}
    (h : continues st = true → (step inst sorted p o st).2 = .running →
      Ends inst sorted p o (step inst sorted p o st).1) : Ends inst sorted p o st := by
  by_cases hc : continues st = true
  · obtain ⟨st', s, e⟩ : ∃ st' s, step inst sorted p o st = (st', s) := ⟨_, _, rfl⟩
    have h' := h hc
    rw [e] at h'
    by_cases hs : s = .running
    · obtain ⟨n, hn⟩ := h' hs
      refine ⟨n + 1, ?_⟩
      unfold loop
      rw [if_pos hc, e]
      subst hs
      exact hn
    · refine ⟨1, ?_⟩
      unfold loop
      rw [if_pos hc, e]
      cases s with
      | running => exact absurd rfl hs
      | _ => simp
  · refine ⟨1, ?_⟩
    unfold loop
    rw [if_neg hc]
    simp

/-- What a pass that goes on does to the bounds. -/
theorem step_running {st : State} (h : (step inst sorted p o st).2 = .running) :
    ((step inst sorted p o st).1.upper = .fin (nextWaste p st) ∧
      (step inst sorted p o st).1.lower = st.lower) ∨
    ((step inst sorted p o st).1.upper = st.upper ∧
      (step inst sorted p o st).1.lower = nextWaste p st) := by
  rcases step_cases inst sorted p o st with ⟨e, _⟩ | ⟨_, e, _⟩ | ⟨cap, found, st1, hc, e, hst⟩
  · rw [e] at h; cases h
  · rw [e] at h; cases h
  · have key : st1.lower = st.lower ∧ st1.upper = st.upper := by
      rcases hst with ⟨rfl, _⟩ | ⟨bins, _, _, rfl⟩ <;> exact ⟨rfl, rfl⟩
    rw [e, updateBounds_fst]
    cases found with
    | true => left; exact ⟨rfl, key.1⟩
    | false => right; exact ⟨key.2, rfl⟩

theorem ends_of_fin (n : Nat) : ∀ (st : State) (u : ℚ), st.upper = .fin u →
    u - st.lower ≤ 2 ^ n / 100000 → Ends inst sorted p o st := by
  induction n with
  | zero =>
    intro st u hu h
    apply Ends.of_step
    intro hc
    unfold continues at hc
    rw [hu] at hc
    have := of_decide_eq_true hc
    norm_num at h
    linarith
  | succ n ih =>
    intro st u hu h
    apply Ends.of_step
    intro _ hr
    have hw : nextWaste p st = (st.lower + u) / 2 := by
      unfold nextWaste; rw [hu]
    rw [pow_succ] at h
    rcases step_running hr with ⟨h1, h2⟩ | ⟨h1, h2⟩
    · refine ih _ _ h1 ?_
      rw [h2, hw]; linarith
    · rw [hu] at h1
      refine ih _ _ h1 ?_
      rw [h2, hw]; linarith

theorem ends_of_upper (st : State) (u : ℚ) (hu : st.upper = .fin u) : Ends inst sorted p o st := by
  obtain ⟨n, hn⟩ := pow_unbounded_of_one_lt ((u - st.lower) * 100000) (one_lt_two (α := ℚ))
  refine ends_of_fin n st u hu ?_
  rw [le_div_iff₀ (by norm_num)]
  exact hn.le

theorem kpCapacity_error {w : ℚ} (h : rawCapacity inst w ≤ -(2 ^ 63) - 1) :
    kpCapacity inst w = .error .ub := by
  unfold kpCapacity
  rw [if_pos (.inl h)]

theorem step_ub {st : State} (h : kpCapacity inst (nextWaste p st) = .error .ub) :
    step inst sorted p o st =
      (st, if o.ends st.emitted.length (nextWaste p st) then .returned else .threw .ub) := by
  unfold step
  dsimp only
  by_cases he : o.ends st.emitted.length (nextWaste p st) = true
  · rw [if_pos he, if_pos he]
  · rw [if_neg he, if_neg he, h]

theorem ends_of_lower {B : ℚ} (hB : ∀ w ≥ B, rawCapacity inst w ≤ -(2 ^ 63) - 1) (n : Nat) :
    ∀ st : State, 0 < st.lower → B ≤ st.lower * 2 ^ (n + 1) → Ends inst sorted p o st := by
  induction n with
  | zero =>
    intro st h0 h
    cases hu : st.upper with
    | fin u => exact ends_of_upper st u hu
    | inf =>
      apply Ends.of_step
      intro _ hr
      have hw : nextWaste p st = st.lower * 2 := by
        unfold nextWaste; rw [hu]; exact if_neg (by linarith)
      rw [step_ub (kpCapacity_error (hB _ (by rw [hw]; simpa using h)))] at hr
      revert hr
      dsimp only
      split <;> intro hr <;> cases hr
  | succ n ih =>
    intro st h0 h
    cases hu : st.upper with
    | fin u => exact ends_of_upper st u hu
    | inf =>
      apply Ends.of_step
      intro _ hr
      have hw : nextWaste p st = st.lower * 2 := by
        unfold nextWaste; rw [hu]; exact if_neg (by linarith)
      rcases step_running hr with ⟨h1, h2⟩ | ⟨h1, h2⟩
      · exact ends_of_upper _ _ h1
      · refine ih _ ?_ ?_
        · rw [h2, hw]; linarith
        · rw [h2, hw]
          refine le_trans h (le_of_eq ?_)
          ring

theorem exists_ub (h : 0 < itemSpace inst) :
    ∃ B : ℚ, ∀ w ≥ B, rawCapacity inst w ≤ -(2 ^ 63) - 1 := by
  refine ⟨(binSpace inst - binMinSpace inst + 2 ^ 63 + 1) / itemSpace inst, ?_⟩
  intro w hw
  rw [ge_iff_le, div_le_iff₀ h] at hw
  unfold rawCapacity
  have : itemSpace inst * (1 + w) = itemSpace inst + w * itemSpace inst := by ring
  rw [this]
  linarith

theorem ends_of_pos (hi : 0 < itemSpace inst) {st : State} (h0 : 0 < st.lower) :
    Ends inst sorted p o st := by
  obtain ⟨B, hB⟩ := exists_ub hi
  obtain ⟨n, hn⟩ := pow_unbounded_of_one_lt (B / st.lower) (one_lt_two (α := ℚ))
  refine ends_of_lower hB n st h0 ?_
  rw [div_lt_iff₀ h0] at hn
  have : (2 : ℚ) ^ n * st.lower ≤ st.lower * 2 ^ (n + 1) := by
    rw [pow_succ]
    have : 0 < (2 : ℚ) ^ n * st.lower := by positivity
    linarith
  linarith

theorem ends_start (hi : 0 < itemSpace inst) (hp : 0 < p.initialWaste) {st : State}
    (h0 : 0 ≤ st.lower) : Ends inst sorted p o st := by
  cases hu : st.upper with
  | fin u => exact ends_of_upper st u hu
  | inf =>
    apply Ends.of_step
    intro _ hr
    rcases step_running hr with ⟨h1, h2⟩ | ⟨h1, h2⟩
    · exact ends_of_upper _ _ h1
    · apply ends_of_pos hi
      rw [h2]
      unfold nextWaste
      rw [hu]
      dsimp only
      split
      · exact hp
      · rename_i hne
        have : 0 < st.lower := lt_of_le_of_ne h0 (Ne.symm hne)
        linarith

/-! ### Packing everything -/

theorem sum_count (n : Nat) (l : List Nat) (h : ∀ i ∈ l, i < n) :
    ((List.range n).map fun i => (l.count i : Int)).sum = l.length := by
  induction l with
  | nil => simp
  | cons a l ih =>
    have e : ∀ i, (((a :: l).count i : Nat) : Int)
        = (if a = i then 1 else 0) + (l.count i : Int) := by
      intro i
      rw [List.count_cons]
      by_cases hi : a = i <;> simp [hi]
      omega
    simp only [e]
    rw [Svc.SvcLemmas.sum_map_add, ih fun i hi => h i (List.mem_cons_of_mem _ hi),
      Svc.SvcLemmas.sum_range_ite n a (fun _ => 1) (h a List.mem_cons_self), List.length_cons]
    push_cast; ring

theorem sum_itemsUsed (n : Nat) (sol : List Bin) (h : ∀ b ∈ sol, ∀ i ∈ b.items, i < n) :
    ((List.range n).map fun i => itemsUsed sol i).sum = Svc.numberOfItems sol := by
  unfold itemsUsed Svc.numberOfItems
  induction sol with
  | nil => simp
  | cons b sol ih =>
    simp only [List.map_cons, List.sum_cons]
    rw [Svc.SvcLemmas.sum_map_add, ih fun b hb => h b (List.mem_cons_of_mem _ hb),
      ← sum_count n b.items (h b List.mem_cons_self), List.sum_map_mul_left]

theorem eq_of_sum_eq (l : List Nat) (f g : Nat → Int) (h : ∀ a ∈ l, f a ≤ g a)
    (he : (l.map f).sum = (l.map g).sum) : ∀ a ∈ l, f a = g a := by
  induction l with
  | nil => simp
  | cons a l ih =>
    rw [List.map_cons, List.map_cons, List.sum_cons, List.sum_cons] at he
    have h1 := h a List.mem_cons_self
    have h2 := Svc.SvcLemmas.sum_map_le l f g fun b hb => h b (List.mem_cons_of_mem _ hb)
    intro b hb
    rw [List.mem_cons] at hb
    rcases hb with rfl | hb
    · omega
    · exact ih (fun b hb => h b (List.mem_cons_of_mem _ hb)) (by omega) b hb

theorem packs_everything {sol : List Bin} (hw : WithinCopies inst sol)
    (h : Svc.numberOfItems sol = inst.numberOfItems) : PacksEverything inst sol := by
  intro i hi
  refine eq_of_sum_eq (List.range inst.items.length) (itemsUsed sol)
    (fun i => (inst.items.getD i (0, 0)).1) (fun i _ => hw.items i) ?_ i (List.mem_range.mpr hi)
  rw [Svc.SvcLemmas.sum_range_getD inst.items (0, 0) fun x => x.1,
    sum_itemsUsed _ _ fun b hb => (hw.types b hb).2.2, h]
  rfl

end PackingSolver.Dichotomic.DichLemmas
