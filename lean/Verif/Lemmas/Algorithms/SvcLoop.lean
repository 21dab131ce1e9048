import Verif.Lemmas.Algorithms.Svc

/-!
# Lemmas for sequential value correction: the loops
-/

namespace PackingSolver.Svc.SvcLemmas

open PackingSolver.Svc.Spec

/-! ### Groups of equal bins -/

theorem block_facts (A B : List Nat) (c t N : Nat) (hA : t ∉ A) (hB : t ∉ B)
    (hN : (A ++ List.replicate c t ++ B)[N]? = some t) :
    let p := A ++ List.replicate c t ++ B
    (p.take N).count t < c ∧
    ∀ n, n ≤ c - (p.take N).count t → p.take (N + n) = p.take N ++ List.replicate n t := by
  intro p
  have h1 : A.length ≤ N := by
    by_contra h
    rw [List.append_assoc, List.getElem?_append_left (by omega)] at hN
    exact hA (List.mem_of_getElem? hN)
  have h2 : N < A.length + c := by
    by_contra h
    rw [List.getElem?_append_right (by simp; omega)] at hN
    exact hB (List.mem_of_getElem? hN)
  have key : ∀ M, A.length ≤ M → M ≤ A.length + c →
      p.take M = A ++ List.replicate (M - A.length) t := by
    intro M hM1 hM2
    show (A ++ List.replicate c t ++ B).take M = _
    rw [List.append_assoc, List.take_append, List.take_of_length_le hM1,
      List.take_append_of_le_length (by simp; omega), List.take_replicate,
      Nat.min_eq_left (by omega)]
  have hcount : (p.take N).count t = N - A.length := by
    rw [key N h1 (by omega), List.count_append, List.count_replicate_self,
      List.count_eq_zero.2 hA]
    omega
  rw [hcount]
  refine ⟨by omega, fun n hn => ?_⟩
  rw [key N h1 (by omega), key (N + n) (by omega) (by omega), List.append_assoc,
    List.replicate_append_replicate]
  congr 2
  omega

/-- The order in which the bin types are considered. -/
def order (inst : InstanceData) : List Nat :=
  if inst.objective = .knapsack then
    (List.range inst.binTypes.length).insertionSort
      fun a b => (inst.binType a).space ≤ (inst.binType b).space
  else List.range inst.binTypes.length

theorem order_perm (inst : InstanceData) :
    (order inst).Perm (List.range inst.binTypes.length) := by
  unfold order
  split_ifs
  · exact List.perm_insertionSort _ _
  · exact List.Perm.refl _

theorem positions_eq (inst : InstanceData) : binTypeIdsByPosition inst
    = (order inst).flatMap fun t => List.replicate (inst.binType t).copies.toNat t := rfl

theorem positions_split (inst : InstanceData) (t : Nat) (ht : t < inst.binTypes.length) :
    ∃ A B, binTypeIdsByPosition inst
      = A ++ List.replicate (inst.binType t).copies.toNat t ++ B ∧ t ∉ A ∧ t ∉ B := by
  have hm : t ∈ order inst := by
    rw [(order_perm inst).mem_iff, List.mem_range]; exact ht
  have hnd : (order inst).Nodup := (order_perm inst).nodup_iff.2 List.nodup_range
  obtain ⟨l1, l2, e⟩ := List.append_of_mem hm
  rw [e] at hnd
  have h1 : t ∉ l1 := fun h => by
    have := (List.nodup_append.1 hnd).2.2 t h t List.mem_cons_self
    exact this rfl
  have h2 : t ∉ l2 := (List.nodup_cons.1 (List.nodup_append.1 hnd).2.1).1
  refine ⟨l1.flatMap fun t => List.replicate (inst.binType t).copies.toNat t,
    l2.flatMap fun t => List.replicate (inst.binType t).copies.toNat t, ?_, ?_, ?_⟩
  · rw [positions_eq, e, List.flatMap_append, List.flatMap_cons, List.append_assoc]
  · intro h
    rw [List.mem_flatMap] at h
    obtain ⟨s, hs, hst⟩ := h
    rw [List.eq_of_mem_replicate hst] at h1
    exact h1 hs
  · intro h
    rw [List.mem_flatMap] at h
    obtain ⟨s, hs, hst⟩ := h
    rw [List.eq_of_mem_replicate hst] at h2
    exact h2 hs

theorem positions_mem (inst : InstanceData) (t : Nat) (h : t ∈ binTypeIdsByPosition inst) :
    t < inst.binTypes.length := by
  rw [positions_eq, List.mem_flatMap] at h
  obtain ⟨s, hs, hst⟩ := h
  rw [List.eq_of_mem_replicate hst]
  rw [(order_perm inst).mem_iff, List.mem_range] at hs
  exact hs

theorem positions_length (inst : InstanceData) (hv : ValidInstance inst) :
    ((binTypeIdsByPosition inst).length : Int) = inst.numberOfBins := by
  rw [positions_eq, ((order_perm inst).flatMap_right _).length_eq]
  unfold InstanceData.numberOfBins
  rw [← sum_range_getD inst.binTypes {} fun t => t.copies, List.length_flatMap]
  have : ∀ l : List Nat, (((l.map fun t =>
      (List.replicate (inst.binType t).copies.toNat t).length).sum : Nat) : Int)
      = (l.map fun t => (inst.binTypes.getD t {}).copies).sum := by
    intro l
    induction l with
    | nil => rfl
    | cons a l ih =>
      rw [List.map_cons, List.map_cons, List.sum_cons, List.sum_cons, Nat.cast_add, ih,
        List.length_replicate]
      have := (binType_copies_nonneg hv a).1
      unfold InstanceData.binType at *
      omega
  exact this _

theorem binSequence_append (l : List Bin) (t : Nat) (n : Int) (items : List Nat) :
    binSequence (l ++ [⟨t, n, items⟩]) = binSequence l ++ List.replicate n.toNat t := by
  simp [binSequence]

theorem binSequence_count (l : List Bin) (t : Nat) (h : ∀ b ∈ l, 1 ≤ b.copies) :
    ((binSequence l).count t : Int) = binCopies l t := by
  induction l with
  | nil => rfl
  | cons b l ih =>
    have hb := h b List.mem_cons_self
    have ih := ih fun b hb => h b (List.mem_cons_of_mem _ hb)
    unfold binSequence binCopies at *
    rw [List.flatMap_cons, List.count_append, List.map_cons, List.sum_cons, Nat.cast_add, ih,
      List.count_replicate]
    by_cases e : b.typeId = t
    · simp [e]; omega
    · simp [e]

theorem binSequence_length (l : List Bin) (h : ∀ b ∈ l, 1 ≤ b.copies) :
    ((binSequence l).length : Int) = numberOfBins l := by
  induction l with
  | nil => rfl
  | cons b l ih =>
    have hb := h b List.mem_cons_self
    have ih := ih fun b hb => h b (List.mem_cons_of_mem _ hb)
    unfold binSequence numberOfBins at *
    rw [List.flatMap_cons, List.length_append, List.map_cons, List.sum_cons, Nat.cast_add, ih,
      List.length_replicate]
    omega

/-! ### The bin types to try -/

theorem smallestMandatory_some {inst : InstanceData} {st : State} {t : Nat}
    (h : smallestMandatory inst st = some t) :
    t < inst.binTypes.length ∧ binCopies st.bins t < (inst.binType t).copiesMin := by
  unfold smallestMandatory at h
  have key : ∀ (l : List Nat) (b : Option Nat), (∀ s ∈ l, s < inst.binTypes.length) →
      (∀ s, b = some s → s < inst.binTypes.length ∧
        binCopies st.bins s < (inst.binType s).copiesMin) →
      ∀ s, l.foldl (fun best t =>
        if binCopies st.bins t ≥ (inst.binType t).copiesMin then best
        else match best with
          | none => some t
          | some b => if (inst.binType t).space < (inst.binType b).space then some t else some b)
        b = some s → s < inst.binTypes.length ∧
          binCopies st.bins s < (inst.binType s).copiesMin := by
    intro l
    induction l with
    | nil => intro b _ hb s hs; exact hb s hs
    | cons a l ih =>
      intro b hl hb s hs
      rw [List.foldl_cons] at hs
      refine ih _ (fun s hs => hl s (List.mem_cons_of_mem _ hs)) ?_ s hs
      intro s hs
      by_cases h1 : binCopies st.bins a ≥ (inst.binType a).copiesMin
      · rw [if_pos h1] at hs; exact hb s hs
      · rw [if_neg h1] at hs
        have ha : a < inst.binTypes.length ∧ binCopies st.bins a < (inst.binType a).copiesMin :=
          ⟨hl a List.mem_cons_self, by omega⟩
        cases b with
        | none =>
          dsimp only at hs
          cases hs
          exact ha
        | some b =>
          dsimp only at hs
          split_ifs at hs
          · cases hs; exact ha
          · cases hs; exact hb _ rfl
  exact key _ none (fun s hs => List.mem_range.1 hs) (by simp) t h

theorem Ordered.append {inst : InstanceData} {bins : List Bin} (h : Ordered inst bins) {t : Nat}
    {n : Int} {items : List Nat} (ht : t < inst.binTypes.length)
    (hb : ∀ b ∈ bins, 1 ≤ b.copies)
    (hn : n ≤ (inst.binType t).copies - binCopies bins t)
    (hN : inst.objective ≠ .variableSizedBinPacking →
      (binTypeIdsByPosition inst)[(binSequence bins).length]? = some t) :
    Ordered inst (bins ++ [⟨t, n, items⟩]) := by
  intro ho
  obtain ⟨A, B, e, hA, hB⟩ := positions_split inst t ht
  have hN := hN ho
  have h := h ho
  rw [e] at hN h
  have hf := block_facts A B _ t _ hA hB hN
  dsimp only at hf
  rw [← h] at hf
  have hc := binSequence_count bins t hb
  rw [binSequence_append, e, List.length_append, List.length_replicate]
  rw [hf.2 n.toNat (by omega)]

theorem candidates_facts {inst : InstanceData} (hv : ValidInstance inst) {st : State}
    (ht : ∀ b ∈ st.bins, b.typeId < inst.binTypes.length ∧ 1 ≤ b.copies)
    (hc : ∀ t, binCopies st.bins t ≤ (inst.binType t).copies)
    (ho : Ordered inst st.bins)
    (hne : numberOfBins st.bins ≠ inst.numberOfBins) :
    ∃ ids, candidates inst st = .ok ids ∧
      (∀ t ∈ ids, t < inst.binTypes.length ∧ binCopies st.bins t < (inst.binType t).copies) ∧
      (inst.objective ≠ .variableSizedBinPacking → ∃ t, ids = [t] ∧
        (binTypeIdsByPosition inst)[(binSequence st.bins).length]? = some t) := by
  unfold candidates
  by_cases hobj : inst.objective = .variableSizedBinPacking
  · rw [if_pos hobj]
    cases hs : smallestMandatory inst st with
    | some t =>
      refine ⟨[t], rfl, fun s hs' => ?_, fun h => absurd hobj h⟩
      rw [List.mem_singleton] at hs'
      subst hs'
      have h1 := smallestMandatory_some hs
      have h2 := (binType_copies_nonneg hv s).2 h1.1
      exact ⟨h1.1, by omega⟩
    | none =>
      refine ⟨_, rfl, fun s hs' => ?_, fun h => absurd hobj h⟩
      rw [List.mem_filter, List.mem_range] at hs'
      have h2 := of_decide_eq_true hs'.2
      have h3 := hc s
      exact ⟨hs'.1, by omega⟩
  · rw [if_neg hobj]
    have hlen := binSequence_length st.bins fun b hb => (ht b hb).2
    have hle := numberOfBins_le inst st.bins (fun b hb => (ht b hb).1) hc
    have hpl := positions_length inst hv
    have hlt : (binSequence st.bins).length < (binTypeIdsByPosition inst).length := by omega
    have e : (numberOfBins st.bins).toNat = (binSequence st.bins).length := by omega
    rw [e, List.getElem?_eq_getElem hlt]
    refine ⟨_, rfl, fun s hs => ?_, fun _ => ⟨_, rfl, rfl⟩⟩
    rw [List.mem_singleton] at hs
    have hN : (binTypeIdsByPosition inst)[(binSequence st.bins).length]? = some s := by
      rw [List.getElem?_eq_getElem hlt, hs]
    have hst := positions_mem inst s (List.mem_of_getElem? hN)
    refine ⟨hst, ?_⟩
    obtain ⟨A, B, e2, hA, hB⟩ := positions_split inst s hst
    have h := ho hobj
    rw [e2] at hN h
    have hf := (block_facts A B _ s _ hA hB hN).1
    rw [← h] at hf
    have hcnt := binSequence_count st.bins s fun b hb => (ht b hb).2
    omega

theorem tryBinTypes_facts {inst : InstanceData} {P : Nat → List Nat → Prop} {o : Oracle}
    (ho : FeasibleAnswers inst o) (hP : AnswersSatisfy o P) {it : Nat}
    (ids : List Nat) : ∀ (st : State), StepInv inst P st →
    (∀ t ∈ ids, t < inst.binTypes.length ∧ binCopies st.bins t < (inst.binType t).copies) →
    let r := tryBinTypes inst o it st ids
    StepInv inst P r.1 ∧ r.1.bins = st.bins ∧ r.1.partialFixed = st.partialFixed ∧
    (r.2 = .running → ∀ t, (t ∈ ids ∨ Fits inst st t (st.cur t).1) →
      Fits inst st t (r.1.cur t).1) ∧
    (r.2 = .running ∨ r.2 = .returned ∨
      (r.2 = .threw .invalidArgument ∧ ∃ t ∈ ids, (inst.binType t).copiesMin > 1)) := by
  induction ids with
  | nil =>
    intro st h _
    exact ⟨h, rfl, rfl, fun _ t ht => ht.resolve_left (by simp), .inl rfl⟩
  | cons a ids ih =>
    intro st h hids r
    have hr : r = tryBinTypes inst o it st (a :: ids) := rfl
    have hf := tryBinType_facts ho hP (it := it) h (hids a List.mem_cons_self).1
      (hids a List.mem_cons_self).2
    dsimp only at hf
    unfold tryBinTypes at hr
    obtain ⟨st', s', e⟩ : ∃ st' s', tryBinType inst o it st a = (st', s') := ⟨_, _, rfl⟩
    rw [e] at hf hr
    obtain ⟨h1, h2, h3, h4, h5, h6⟩ := hf
    dsimp only at h1 h2 h3 h4 h5 h6
    rcases h6 with h6 | h6 | h6
    · subst h6
      dsimp only at hr
      have hg := ih st' h1 (fun t ht => by
        rw [h2]; exact hids t (List.mem_cons_of_mem _ ht))
      dsimp only at hg
      rw [← hr] at hg
      obtain ⟨g1, g2, g3, g4, g5⟩ := hg
      refine ⟨g1, g2.trans h2, g3.trans h3, fun hrun t ht => ?_, ?_⟩
      · have := g4 hrun t
        rw [fits_congr h2 h3, fits_congr h2 h3] at this
        apply this
        by_cases eta : t = a
        · subst eta; exact .inr (h5 rfl)
        · rw [h4 t eta]
          rcases ht with ht | ht
          · exact .inl ((List.mem_cons.1 ht).resolve_left eta)
          · exact .inr ht
      · rcases g5 with g5 | g5 | ⟨g5, t, ht, hm⟩
        · exact .inl g5
        · exact .inr (.inl g5)
        · exact .inr (.inr ⟨g5, t, List.mem_cons_of_mem _ ht, hm⟩)
    · subst h6
      dsimp only at hr
      rw [hr]
      exact ⟨h1, h2, h3, by simp, .inr (.inl rfl)⟩
    · obtain ⟨h6, h7⟩ := h6
      subst h6
      dsimp only at hr
      rw [hr]
      exact ⟨h1, h2, h3, by simp, .inr (.inr ⟨rfl, a, List.mem_cons_self, h7⟩)⟩

theorem bestBinType_mem {inst : InstanceData} {st : State} {ids : List Nat} {t : Nat}
    (h : bestBinType inst st ids = some t) : t ∈ ids := by
  unfold bestBinType at h
  have key : ∀ (l : List Nat) (acc : ExtQ × Option Nat), (∀ s ∈ l, s ∈ ids) →
      (∀ s, acc.2 = some s → s ∈ ids) → ∀ s,
      (l.foldl (fun acc t =>
        if ratioLt acc.1 (ratio inst st t) then (ratio inst st t, some t) else acc) acc).2
        = some s → s ∈ ids := by
    intro l
    induction l with
    | nil => intro acc _ hacc s hs; exact hacc s hs
    | cons a l ih =>
      intro acc hl hacc s hs
      rw [List.foldl_cons] at hs
      refine ih _ (fun s hs => hl s (List.mem_cons_of_mem _ hs)) ?_ s hs
      intro s hs
      split_ifs at hs
      · cases hs; exact hl _ List.mem_cons_self
      · exact hacc s hs
  exact key ids _ (fun _ h => h) (by simp) t h

/-! ### One pass -/

structure LoopInv (inst : InstanceData) (P : Nat → List Nat → Prop) (st : State) : Prop where
  step : StepInv inst P st
  ordered : Ordered inst st.bins

theorem step_facts {inst : InstanceData} (hv : ValidInstance inst)
    {P : Nat → List Nat → Prop} {o : Oracle}
    (ho : FeasibleAnswers inst o) (hP : AnswersSatisfy o P) {it : Nat} {st : State}
    (h : LoopInv inst P st) :
    let r := step inst o it st
    LoopInv inst P r.1 ∧
    (r.2 = .running → numberOfBins st.bins + 1 ≤ numberOfBins r.1.bins) ∧
    (r.2 = .finished → Complete inst r.1.bins) ∧
    (r.2 = .running ∨ r.2 = .finished ∨ r.2 = .returned ∨
      (r.2 = .threw .invalidArgument ∧
        ∃ t < inst.binTypes.length, (inst.binType t).copiesMin > 1)) := by
  intro r
  have hr : r = step inst o it st := rfl
  unfold step at hr
  by_cases h1 : o.ends it st 0 = true
  · rw [if_pos h1] at hr; rw [hr]
    exact ⟨h, by simp, by simp, .inr (.inr (.inl rfl))⟩
  rw [if_neg h1] at hr
  by_cases h2 : numberOfItems st.bins = inst.numberOfItems
  · rw [if_pos h2] at hr; rw [hr]
    exact ⟨h, by simp, fun _ _ => .inl h2, .inr (.inl rfl)⟩
  rw [if_neg h2] at hr
  by_cases h3 : numberOfBins st.bins = inst.numberOfBins
  · rw [if_pos h3] at hr; rw [hr]
    exact ⟨h, by simp, fun _ _ => .inr h3, .inr (.inl rfl)⟩
  rw [if_neg h3] at hr
  obtain ⟨ids, hids, hc, hpos⟩ := candidates_facts hv
    (fun b hb => ⟨(h.step.inv.types b hb).1, (h.step.inv.types b hb).2.1⟩) h.step.inv.copies
    h.ordered h3
  rw [hids] at hr
  dsimp only at hr
  have hf := tryBinTypes_facts ho hP (it := it) ids st h.step hc
  dsimp only at hf
  obtain ⟨st1, s1, e⟩ : ∃ st1 s1, tryBinTypes inst o it st ids = (st1, s1) := ⟨_, _, rfl⟩
  rw [e] at hf hr
  obtain ⟨f1, f2, f3, f4, f5⟩ := hf
  dsimp only at f1 f2 f3 f4 f5
  have hord : Ordered inst st1.bins := by rw [f2]; exact h.ordered
  rcases f5 with f5 | f5 | ⟨f5, t, ht, hm⟩
  · subst f5
    dsimp only at hr
    cases hb : bestBinType inst st1 ids with
    | none =>
      rw [hb] at hr
      dsimp only at hr
      by_cases hobj : inst.objective = .variableSizedBinPacking
      · rw [if_pos hobj] at hr; rw [hr]
        exact ⟨⟨f1, hord⟩, by simp, fun _ hne => absurd hobj hne, .inr (.inl rfl)⟩
      · rw [if_neg hobj] at hr; rw [hr]
        obtain ⟨t, et, hN⟩ := hpos hobj
        have hct := hc t (by rw [et]; exact List.mem_singleton_self t)
        have e0 : ids.getD 0 0 = t := by rw [et]; rfl
        rw [e0]
        rw [← f2] at hct hN
        refine ⟨⟨⟨f1.inv.append_empty t hct.1 (hP.empty t) hct.2, f1.cur, f1.curP,
          f1.emitted⟩, ?_⟩, fun _ => ?_, by simp, .inl rfl⟩
        · exact Ordered.append hord hct.1 (fun b hb => (f1.inv.types b hb).2.1) (by omega)
            fun _ => hN
        · dsimp only
          rw [numberOfBins_append, f2]
    | some t =>
      rw [hb] at hr
      dsimp only at hr
      have ht := bestBinType_mem hb
      have hct := hc t ht
      have hfit : Fits inst st1 t (st1.cur t).1 := by
        rw [fits_congr f2 f3]
        exact f4 rfl t (.inl ht)
      rw [← f2] at hct
      have hn := numberOfCopies_pos (ids := List.range inst.itemCopies.length) hfit hct.2
      have hfacts := numberOfCopies_facts (inst := inst) (st := st1) (t := t)
        (items := (st1.cur t).1) (ids := List.range inst.itemCopies.length) f1.free
        fun i hi => List.mem_range.2 (hfit.free i hi).2.2
      rw [if_neg (by omega)] at hr
      rw [hr]
      refine ⟨⟨⟨f1.inv.append t _ _ hct.1 hn hfacts.1 (f1.cur t) (f1.curP t)
        (fun i => hfacts.2 hn i), f1.cur, f1.curP, f1.emitted⟩, ?_⟩, fun _ => ?_, by simp, .inl rfl⟩
      · refine Ordered.append hord hct.1 (fun b hb => (f1.inv.types b hb).2.1) hfacts.1 ?_
        intro hobj
        obtain ⟨t', et, hN⟩ := hpos hobj
        rw [et, List.mem_singleton] at ht
        subst ht
        rw [f2]; exact hN
      · dsimp only
        rw [numberOfBins_append, f2]
        dsimp only
        omega
  · subst f5
    dsimp only at hr
    rw [hr]
    exact ⟨⟨f1, hord⟩, by simp, by simp, .inr (.inr (.inl rfl))⟩
  · subst f5
    dsimp only at hr
    rw [hr]
    exact ⟨⟨f1, hord⟩, by simp, by simp, .inr (.inr (.inr ⟨rfl, t, (hc t ht).1, hm⟩))⟩

theorem innerLoop_facts {inst : InstanceData} (hv : ValidInstance inst)
    {P : Nat → List Nat → Prop} {o : Oracle}
    (ho : FeasibleAnswers inst o) (hP : AnswersSatisfy o P) {it : Nat} (fuel : Nat) :
    ∀ st : State, LoopInv inst P st →
    let r := innerLoop inst o it fuel st
    LoopInv inst P r.1 ∧
    (r.2 = .running → numberOfBins st.bins + fuel ≤ numberOfBins r.1.bins) ∧
    (r.2 = .finished → Complete inst r.1.bins) ∧
    (r.2 = .running ∨ r.2 = .finished ∨ r.2 = .returned ∨
      (r.2 = .threw .invalidArgument ∧
        ∃ t < inst.binTypes.length, (inst.binType t).copiesMin > 1)) := by
  induction fuel with
  | zero =>
    intro st h
    exact ⟨h, fun _ => by simp [innerLoop], by simp [innerLoop], .inl rfl⟩
  | succ fuel ih =>
    intro st h r
    have hr : r = innerLoop inst o it (fuel + 1) st := rfl
    unfold innerLoop at hr
    have hf := step_facts hv ho hP (it := it) h
    dsimp only at hf
    obtain ⟨st1, s1, e⟩ : ∃ st1 s1, step inst o it st = (st1, s1) := ⟨_, _, rfl⟩
    rw [e] at hf hr
    obtain ⟨f1, f2, f0, f3⟩ := hf
    dsimp only at f1 f2 f0 f3
    rcases f3 with f3 | f3 | f3 | ⟨f3, hm⟩
    · subst f3
      dsimp only at hr
      have hg := ih st1 f1
      dsimp only at hg
      rw [← hr] at hg
      refine ⟨hg.1, fun hrun => ?_, hg.2.2.1, hg.2.2.2⟩
      have a1 := hg.2.1 hrun
      have a2 := f2 rfl
      push_cast
      omega
    · subst f3; dsimp only at hr; rw [hr]
      exact ⟨f1, by simp, f0, .inr (.inl rfl)⟩
    · subst f3; dsimp only at hr; rw [hr]
      exact ⟨f1, by simp, by simp, .inr (.inr (.inl rfl))⟩
    · subst f3; dsimp only at hr; rw [hr]
      exact ⟨f1, by simp, by simp, .inr (.inr (.inr ⟨rfl, hm⟩))⟩

/-! ### All iterations -/

theorem loopInv_init {inst : InstanceData} {P : Nat → List Nat → Prop} (hv : ValidInstance inst)
    (hP : ∀ t, P t []) {emitted : List (List Bin)}
    (h : ∀ s ∈ emitted, EmittedOk inst P s) :
    LoopInv inst P { emitted := emitted } :=
  ⟨⟨Inv.nil hv, by simp, fun t => hP t, h⟩, fun _ => by simp [binSequence]⟩

theorem answers_true (o : Oracle) : AnswersSatisfy o fun _ _ => True :=
  ⟨fun _ => trivial, fun _ _ _ _ _ _ => trivial, fun _ _ _ _ _ _ => trivial⟩

theorem iteration_facts {inst : InstanceData} {o : Oracle} {P : Nat → List Nat → Prop}
    (hv : ValidInstance inst) (ho : FeasibleAnswers inst o) (hP : AnswersSatisfy o P)
    (it : Nat) {emitted : List (List Bin)}
    (h : ∀ s ∈ emitted, EmittedOk inst P s) :
    let r := iteration inst o it emitted
    (∀ s ∈ r.1, EmittedOk inst P s) ∧
    (r.2 = .running ∨ r.2 = .returned ∨ (r.2 = .threw .invalidArgument ∧
      ∃ t < inst.binTypes.length, (inst.binType t).copiesMin > 1)) := by
  intro r
  have hr : r = iteration inst o it emitted := rfl
  unfold iteration at hr
  have hf := innerLoop_facts hv ho hP (it := it) (inst.numberOfBins.toNat + 1)
    { emitted := emitted } (loopInv_init hv hP.empty h)
  dsimp only at hf
  obtain ⟨st, s, e⟩ : ∃ st s, innerLoop inst o it (inst.numberOfBins.toNat + 1)
    { emitted := emitted } = (st, s) := ⟨_, _, rfl⟩
  rw [e] at hf hr
  obtain ⟨f1, f2, f0, f3⟩ := hf
  dsimp only at f1 f2 f0 f3
  rcases f3 with f3 | f3 | f3 | ⟨f3, hm⟩
  · exfalso
    have h1 := f2 f3
    have h2 := numberOfBins_le inst st.bins (fun b hb => (f1.step.inv.types b hb).1)
      f1.step.inv.copies
    have h3 : numberOfBins ([] : List Bin) = 0 := rfl
    rw [h3] at h1
    push_cast at h1
    omega
  · subst f3
    dsimp only at hr
    rw [hr]
    refine ⟨?_, ?_⟩
    · intro s hs
      rcases List.mem_append.1 hs with hs | hs
      · exact f1.step.emitted s hs
      · rw [List.mem_singleton] at hs
        subst hs
        exact ⟨f1.step.inv.within, f1.step.inv.pred, f1.ordered, f0 rfl⟩
    · dsimp only
      split_ifs
      · exact .inr (.inl rfl)
      · exact .inl rfl
  · subst f3
    dsimp only at hr
    rw [hr]
    exact ⟨f1.step.emitted, .inr (.inl rfl)⟩
  · subst f3
    dsimp only at hr
    rw [hr]
    exact ⟨f1.step.emitted, .inr (.inr ⟨rfl, hm⟩)⟩

theorem outerLoop_facts {inst : InstanceData} {o : Oracle} {P : Nat → List Nat → Prop}
    (hv : ValidInstance inst) (ho : FeasibleAnswers inst o) (hP : AnswersSatisfy o P)
    (maximum : Option Nat) (fuel : Nat) : ∀ (it : Nat) (emitted : List (List Bin)),
    (∀ s ∈ emitted, EmittedOk inst P s) →
    let r := outerLoop inst o maximum fuel it emitted
    (∀ s ∈ r.1, EmittedOk inst P s) ∧
    (r.2 = .running ∨ r.2 = .returned ∨ (r.2 = .threw .invalidArgument ∧
      ∃ t < inst.binTypes.length, (inst.binType t).copiesMin > 1)) ∧
    (∀ m, maximum = some m → it ≤ m → m < it + fuel → r.2 ≠ .running) := by
  induction fuel with
  | zero =>
    intro it emitted h
    exact ⟨h, .inl rfl, fun m _ h1 h2 => by omega⟩
  | succ fuel ih =>
    intro it emitted h r
    have hr : r = outerLoop inst o maximum (fuel + 1) it emitted := rfl
    unfold outerLoop at hr
    by_cases hm : maximum = some it
    · rw [if_pos hm] at hr
      rw [hr]
      exact ⟨h, .inr (.inl rfl), fun _ _ _ _ => by simp⟩
    rw [if_neg hm] at hr
    have hf := iteration_facts hv ho hP it h
    dsimp only at hf
    obtain ⟨em, s, e⟩ : ∃ em s, iteration inst o it emitted = (em, s) := ⟨_, _, rfl⟩
    rw [e] at hf hr
    obtain ⟨f1, f2⟩ := hf
    dsimp only at f1 f2
    rcases f2 with f2 | f2 | ⟨f2, hc⟩
    · subst f2
      dsimp only at hr
      have hg := ih (it + 1) em f1
      dsimp only at hg
      rw [← hr] at hg
      refine ⟨hg.1, hg.2.1, fun m em h1 h2 => hg.2.2 m em ?_ (by omega)⟩
      have : m ≠ it := by
        intro hh; subst hh; exact hm em
      omega
    · subst f2
      dsimp only at hr
      rw [hr]
      exact ⟨f1, .inr (.inl rfl), fun _ _ _ _ => by simp⟩
    · subst f2
      dsimp only at hr
      rw [hr]
      exact ⟨f1, .inr (.inr ⟨rfl, hc⟩), fun _ _ _ _ => by simp⟩

theorem run_facts {inst : InstanceData} {o : Oracle} {P : Nat → List Nat → Prop}
    (hv : ValidInstance inst) (ho : FeasibleAnswers inst o) (hP : AnswersSatisfy o P)
    (maximum : Option Nat) (fuel : Nat) :
    let r := run inst o maximum fuel
    (∀ s ∈ r.1, EmittedOk inst P s) ∧
    (r.2 = .running ∨ r.2 = .returned ∨ (r.2 = .threw .invalidArgument ∧
      ∃ t < inst.binTypes.length, (inst.binType t).copiesMin > 1)) ∧
    (∀ m, maximum = some m → m < fuel → r.2 ≠ .running) := by
  intro r
  have hr : r = run inst o maximum fuel := rfl
  unfold run at hr
  split_ifs at hr
  · rw [hr]
    exact ⟨by simp, .inr (.inl rfl), fun _ _ _ => by simp⟩
  · have := outerLoop_facts hv ho hP maximum fuel 0 [] (by simp)
    dsimp only at this
    rw [← hr] at this
    exact ⟨this.1, this.2.1, fun m e h => this.2.2 m e (by omega) (by omega)⟩

/-! ### Without a time limit -/

theorem tryBinType_not_returned {inst : InstanceData} {o : Oracle} {it : Nat}
    (h : ∀ st k, o.ends it st k = false) (st : State) (t : Nat) :
    (tryBinType inst o it st t).2 ≠ .returned := by
  unfold tryBinType
  simp only [h, and_false, if_false, Bool.false_eq_true]
  split
  · simp
  · split
    · simp
    · split
      · simp
      · split
        · simp
        · split <;> split <;> simp

theorem tryBinTypes_not_returned {inst : InstanceData} {o : Oracle} {it : Nat}
    (h : ∀ st k, o.ends it st k = false) (ids : List Nat) :
    ∀ st : State, (tryBinTypes inst o it st ids).2 ≠ .returned := by
  induction ids with
  | nil => intro st; simp [tryBinTypes]
  | cons a ids ih =>
    intro st
    have h1 := tryBinType_not_returned (inst := inst) h st a
    unfold tryBinTypes
    split
    · exact ih _
    · next e => rw [e] at h1; exact h1

theorem step_not_returned {inst : InstanceData} {o : Oracle} {it : Nat}
    (h : ∀ st k, o.ends it st k = false) (st : State) :
    (step inst o it st).2 ≠ .returned := by
  unfold step
  rw [h, if_neg (by simp)]
  split
  · simp
  split
  · simp
  split
  · simp
  · next ids _ =>
    have h1 := tryBinTypes_not_returned (inst := inst) h ids st
    split
    · split
      · split <;> simp
      · dsimp only; split <;> simp
    · next e => rw [e] at h1; exact h1

theorem innerLoop_not_returned {inst : InstanceData} {o : Oracle} {it : Nat}
    (h : ∀ st k, o.ends it st k = false) (fuel : Nat) :
    ∀ st : State, (innerLoop inst o it fuel st).2 ≠ .returned := by
  induction fuel with
  | zero => intro st; simp [innerLoop]
  | succ fuel ih =>
    intro st
    have h1 := step_not_returned (inst := inst) h st
    unfold innerLoop
    split
    · exact ih _
    · next e => rw [e] at h1; exact h1

theorem tryBinType_emitted {inst : InstanceData} {o : Oracle} {it : Nat} (st : State) (t : Nat) :
    st.emitted.length ≤ (tryBinType inst o it st t).1.emitted.length := by
  unfold tryBinType
  dsimp only
  split_ifs <;> try simp
  split <;> try simp
  split_ifs <;> simp

theorem tryBinTypes_emitted {inst : InstanceData} {o : Oracle} {it : Nat} (ids : List Nat) :
    ∀ st : State, st.emitted.length ≤ (tryBinTypes inst o it st ids).1.emitted.length := by
  induction ids with
  | nil => intro st; simp [tryBinTypes]
  | cons a ids ih =>
    intro st
    have h1 := tryBinType_emitted (inst := inst) (o := o) (it := it) st a
    unfold tryBinTypes
    split
    · next e => rw [e] at h1; exact le_trans h1 (ih _)
    · next e => rw [e] at h1; exact h1

theorem step_emitted {inst : InstanceData} {o : Oracle} {it : Nat} (st : State) :
    st.emitted.length ≤ (step inst o it st).1.emitted.length := by
  unfold step
  split
  · simp
  split
  · simp
  split
  · simp
  split
  · simp
  · next ids _ =>
    have h1 := tryBinTypes_emitted (inst := inst) (o := o) (it := it) ids st
    split
    · next e =>
      rw [e] at h1
      split
      · split <;> exact h1
      · dsimp only; split <;> exact h1
    · next e => rw [e] at h1; exact h1

theorem innerLoop_emitted {inst : InstanceData} {o : Oracle} {it : Nat} (fuel : Nat) :
    ∀ st : State, st.emitted.length ≤ (innerLoop inst o it fuel st).1.emitted.length := by
  induction fuel with
  | zero => intro st; simp [innerLoop]
  | succ fuel ih =>
    intro st
    have h1 := step_emitted (inst := inst) (o := o) (it := it) st
    unfold innerLoop
    split
    · next e => rw [e] at h1; exact le_trans h1 (ih _)
    · next e => rw [e] at h1; exact h1

theorem iteration_emits {inst : InstanceData} {o : Oracle} (hv : ValidInstance inst)
    (ho : FeasibleAnswers inst o) (hmin : ∀ t < inst.binTypes.length,
      (inst.binType t).copiesMin ≤ 1) {it : Nat}
    (h : ∀ st k, o.ends it st k = false) {emitted : List (List Bin)}
    (hem : ∀ s ∈ emitted, EmittedOk inst (fun _ _ => True) s) :
    emitted.length + 1 ≤ (iteration inst o it emitted).1.length ∧
    ((∀ st, o.goal it st = false) → (iteration inst o it emitted).2 = .running) := by
  have hf := innerLoop_facts hv ho (answers_true o) (it := it) (inst.numberOfBins.toNat + 1)
    { emitted := emitted } (loopInv_init hv (fun _ => trivial) hem)
  have hn := innerLoop_not_returned (inst := inst) h (inst.numberOfBins.toNat + 1)
    { emitted := emitted }
  have hl := innerLoop_emitted (inst := inst) (o := o) (it := it) (inst.numberOfBins.toNat + 1)
    { emitted := emitted }
  dsimp only at hf
  obtain ⟨st, s, e⟩ : ∃ st s, innerLoop inst o it (inst.numberOfBins.toNat + 1)
    { emitted := emitted } = (st, s) := ⟨_, _, rfl⟩
  rw [e] at hf hn hl
  unfold iteration
  rw [e]
  obtain ⟨f1, f2, f0, f3⟩ := hf
  dsimp only at f1 f2 f0 f3 hn hl
  rcases f3 with f3 | f3 | f3 | ⟨f3, t, ht, hm⟩
  · exfalso
    have h1 := f2 f3
    have h2 := numberOfBins_le inst st.bins (fun b hb => (f1.step.inv.types b hb).1)
      f1.step.inv.copies
    have h3 : numberOfBins ([] : List Bin) = 0 := rfl
    rw [h3] at h1
    push_cast at h1
    omega
  · subst f3
    dsimp only
    refine ⟨by rw [List.length_append, List.length_singleton]; omega, fun hg => ?_⟩
    rw [hg]
    rfl
  · exact absurd f3 hn
  · have := hmin t ht
    omega

theorem outerLoop_length {inst : InstanceData} {o : Oracle} (hv : ValidInstance inst)
    (ho : FeasibleAnswers inst o) (hmin : ∀ t < inst.binTypes.length,
      (inst.binType t).copiesMin ≤ 1)
    (hends : ∀ it st k, o.ends it st k = false) (hgoal : ∀ it st, o.goal it st = false)
    (m : Nat) (fuel : Nat) : ∀ (it : Nat) (emitted : List (List Bin)),
    (∀ s ∈ emitted, EmittedOk inst (fun _ _ => True) s) → it + fuel = m + 1 → it ≤ m →
    emitted.length + (m - it) ≤ (outerLoop inst o (some m) fuel it emitted).1.length := by
  induction fuel with
  | zero => intro it em _ h1 h2; omega
  | succ fuel ih =>
    intro it em hem h1 h2
    unfold outerLoop
    by_cases hm : some m = some it
    · rw [if_pos hm]
      cases hm
      dsimp only
      omega
    · rw [if_neg hm]
      have hne : m ≠ it := fun e => hm (by rw [e])
      have he := iteration_emits hv ho hmin (hends it) hem
      have hf := iteration_facts hv ho (answers_true o) it hem
      dsimp only at hf
      obtain ⟨em', s, e⟩ : ∃ em' s, iteration inst o it em = (em', s) := ⟨_, _, rfl⟩
      rw [e] at he hf
      rw [e]
      have hs := he.2 (hgoal it)
      dsimp only at hs he hf
      subst hs
      dsimp only
      have := ih (it + 1) em' hf.1 (by omega) (by omega)
      omega

end PackingSolver.Svc.SvcLemmas
