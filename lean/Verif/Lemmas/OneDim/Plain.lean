import Verif.Spec.OneDimOutput
import Mathlib.Data.List.GetD

/-!
# Checking that a concrete packing is admissible

For instances without weights, resources, eligibility or callback, admissibility is decided
by a few comparisons; used by the concrete cases shown beside the theorems.
-/

namespace PackingSolver.OneDim

open OneDim.Spec

/-- No weight limit, hard resource or eligibility id. -/
def plainInstance (inst : Instance) : Bool :=
  (inst.itemTypes.all fun it =>
    decide (it.eligibilityId = -1) && decide (it.maximumWeightAfter = .inf))
  && inst.binTypes.all fun b => decide (b.maximumWeight = .inf)
    && b.resources.all fun r => r.penalize

/-- The remaining conditions. -/
def plainPacking (inst : Instance) (p : Packing) : Bool :=
  (p.all fun b => decide (b.binTypeId < inst.numberOfBinTypes) && decide (0 ≤ b.copies)
    && (b.items.all fun i => decide (i < inst.numberOfItemTypes)
        && decide ((b.items.length : Int) ≤ (inst.itemType i).maximumStackability))
    && (List.range b.items.length).all fun k =>
      decide (binEnd inst (b.items.take (k + 1)) ≤ (inst.binType b.binTypeId).length))
  && ((List.range inst.numberOfItemTypes).all fun i =>
    decide ((inst.itemType i).copiesMin ≤ itemCopies p i)
    && decide (itemCopies p i ≤ (inst.itemType i).copies)
    && (decide (inst.objective = .knapsack)
      || decide (itemCopies p i = (inst.itemType i).copies)))
  && ((List.range inst.numberOfBinTypes).all fun t =>
    decide ((inst.binType t).copiesMin ≤ binCopies p t)
    && decide (binCopies p t ≤ (inst.binType t).copies)
    && (List.range inst.numberOfBinTypes).all fun u =>
      decide (inst.objective ≠ .binPacking) || !decide (t < u) || !decide (0 < binCopies p u)
        || decide (binCopies p t = (inst.binType t).copies))

theorem plain_admissible {inst : Instance} {p : Packing} (h1 : plainInstance inst = true)
    (h2 : plainPacking inst p = true) (h3 : inst.callback p = true) : Admissible inst p := by
  unfold plainInstance at h1
  unfold plainPacking at h2
  simp only [Bool.and_eq_true, List.all_eq_true, decide_eq_true_eq, List.mem_range,
    Bool.or_eq_true, Bool.not_eq_true', decide_eq_false_iff_not] at h1 h2
  obtain ⟨hit, hbt⟩ := h1
  obtain ⟨⟨hp, hi⟩, hb⟩ := h2
  have hit' : ∀ i, i < inst.numberOfItemTypes → inst.itemType i ∈ inst.itemTypes := fun i hi => by
    unfold Instance.itemType
    rw [List.getD_eq_getElem _ _ hi]; exact List.getElem_mem _
  have hbt' : ∀ i, i < inst.numberOfBinTypes → inst.binType i ∈ inst.binTypes := fun i hi => by
    unfold Instance.binType
    rw [List.getD_eq_getElem _ _ hi]; exact List.getElem_mem _
  refine ⟨fun b hb => ?_, ⟨fun b hb => ?_, fun i h => ?_, h3⟩, fun t ht => ?_, fun ho i h => ?_,
    fun ho t u htu hu hpos => ?_⟩
  · obtain ⟨⟨⟨h1, h2⟩, h3⟩, h4⟩ := hp b hb
    exact ⟨h1, h2, fun i hi => (h3 i hi).1⟩
  · obtain ⟨⟨⟨h1, h2⟩, h3⟩, h4⟩ := hp b hb
    have hbb := hbt _ (hbt' _ h1)
    refine ⟨fun q hq hne => ?_, fun q hq hne => ?_, fun i hi => ?_, fun i hi => ?_,
      fun q i q' h => ?_, fun r hr hpf => ?_⟩
    · have hlen : 0 < q.length := List.length_pos_iff.mpr hne
      have := h4 (q.length - 1) (by have := hq.length_le; omega)
      rw [Nat.sub_add_cancel hlen, ← List.prefix_iff_eq_take.mp hq] at this
      exact this
    · rw [hbb.1]; trivial
    · exact .inl (hit _ (hit' _ (h3 i hi).1)).1
    · exact (h3 i hi).2
    · rw [(hit _ (hit' i (h3 i (h.subset (by simp))).1)).2]; trivial
    · have := hbb.2 r hr
      rw [hpf] at this; cases this
  · exact (hi i h).1
  · exact (hb t ht).1
  · exact (hi i h).2.resolve_left ho
  · rcases (hb t (by omega)).2 u hu with ((h | h) | h) | h
    · exact absurd ho h
    · exact absurd htu h
    · exact absurd hpos h
    · exact h

end PackingSolver.OneDim
