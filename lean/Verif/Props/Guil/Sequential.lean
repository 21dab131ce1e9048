import Verif.Lemmas.Guil.Sequential

/-!
# Packing all items within smaller and smaller bounds, guillotine

Property C121.
-/

namespace PackingSolver.Guil

open Guil.Spec
open InstanceBuilder SequentialFeasibility

section
variable {o : Objective} {ops : List BuilderOp} {inst : Instance}
  {solver : Nat → Instance → Solution} {stop : Nat → Bool} {fuel : Nat} {r : List Solution × Bool}

private theorem given_of (hinst : runOps o ops = .ok inst) (hc : ∀ t ∈ inst.binTypes, 0 < t.copies)
    (ht : 0 ≤ inst.parameters.cutThickness) : Given inst :=
  ⟨(instance_aggregates hinst).binTypeIds, (instance_aggregates hinst).numberOfItems, hc, ht⟩

private theorem even_of (hw : inst.objective = .binPackingWithLeftovers →
    ∀ t ∈ inst.binTypes, ∀ t' ∈ inst.binTypes, t.w = t'.w) : Even inst := by
  intro ho t ht t' ht'
  have mem : ∀ t < inst.numberOfBinTypes, inst.binType t ∈ inst.binTypes := by
    intro t ht
    unfold Instance.binType
    rw [List.getD_eq_getElem?_getD, List.getElem?_eq_getElem ht]
    exact List.getElem_mem ht
  exact hw ho _ (mem t ht) _ (mem t' ht')

/-- **C121**: for bin packing, with or without leftovers, and for an open width or height, every solution
reported packs all items, no type more often than it has copies; its bins are listed one by one, and the
items of each lie in the bin, have the sides of their types and leave room for the cuts.  Bins of different
widths are excluded for leftovers; the trims and the defects of the bins are not respected. -/
theorem sequential_solutions_partial (hinst : runOps o ops = .ok inst)
    (hc : ∀ t ∈ inst.binTypes, 0 < t.copies) (ht : 0 ≤ inst.parameters.cutThickness)
    (hi : 0 < inst.numberOfItems)
    (ho : inst.objective = .binPacking ∨ inst.objective = .binPackingWithLeftovers
      ∨ inst.objective = .openDimensionX ∨ inst.objective = .openDimensionY)
    (hw : inst.objective = .binPackingWithLeftovers →
      ∀ t ∈ inst.binTypes, ∀ t' ∈ inst.binTypes, t.w = t'.w)
    (ha : ∀ it ops sub, runOps inst.objective ops = .ok sub → Answer sub (solver it sub)) (h : run solver stop inst fuel = .ok r) :
    ∀ s ∈ r.1, Assembled inst s ∧ s.numberOfItems = inst.numberOfItems ∧ s.itemCopiesFeasible = true
      ∧ ∀ bin ∈ s.bins, bin.copies = 1 ∧ ItemsFit inst bin := by
  obtain ⟨b, hb, h⟩ := bind_ok.mp h
  have hg := given_of hinst hc ht
  intro s hs
  exact ((loop_solutions ha hg (even_of hw) ho hi (start_fits hg (even_of hw) hb) h).1 s hs).1

/-- **C121**: if the solver uses no bin type more often than it has copies, then neither do the solutions
reported. -/
theorem sequential_bins_available (hinst : runOps o ops = .ok inst)
    (hc : ∀ t ∈ inst.binTypes, 0 < t.copies) (ht : 0 ≤ inst.parameters.cutThickness)
    (hi : 0 < inst.numberOfItems)
    (ho : inst.objective = .binPacking ∨ inst.objective = .binPackingWithLeftovers
      ∨ inst.objective = .openDimensionX ∨ inst.objective = .openDimensionY)
    (hw : inst.objective = .binPackingWithLeftovers →
      ∀ t ∈ inst.binTypes, ∀ t' ∈ inst.binTypes, t.w = t'.w)
    (ha : ∀ it ops sub, runOps inst.objective ops = .ok sub → Answer sub (solver it sub))
    (hb : ∀ it ops sub, runOps inst.objective ops = .ok sub → ∀ t < sub.numberOfBinTypes,
      ((((solver it sub).bins.map (·.binTypeId)).count t : Nat) : Int) ≤ max (sub.binType t).copies 0)
    (h : run solver stop inst fuel = .ok r) :
    ∀ s ∈ r.1, ∀ t < inst.numberOfBinTypes,
      (((s.bins.map (·.binTypeId)).count t : Nat) : Int) ≤ (inst.binType t).copies := by
  obtain ⟨b, hstart, h⟩ := bind_ok.mp h
  have hg := given_of hinst hc ht
  intro s hs
  obtain ⟨it, b', bins, sub, hf, hr⟩ :=
    loop_rounds ha hg (even_of hw) ho hi (start_fits hg (even_of hw) hstart) h s hs
  exact hr.available hg hf (hb it _ sub hr.made)

/-- **C121**: every solution reported is better than all before it: it uses fewer bins, or less of the
width or height. -/
theorem sequential_improves (hinst : runOps o ops = .ok inst)
    (hc : ∀ t ∈ inst.binTypes, 0 < t.copies) (ht : 0 ≤ inst.parameters.cutThickness)
    (hi : 0 < inst.numberOfItems)
    (ho : inst.objective = .binPacking ∨ inst.objective = .openDimensionX
      ∨ inst.objective = .openDimensionY)
    (ha : ∀ it ops sub, runOps inst.objective ops = .ok sub → Answer sub (solver it sub)) (h : run solver stop inst fuel = .ok r) :
    r.1.Pairwise fun s s' => Better inst.objective s' s := by
  obtain ⟨b, hb, h⟩ := bind_ok.mp h
  have hg := given_of hinst hc ht
  have hne : inst.objective ≠ .binPackingWithLeftovers := by
    rcases ho with e | e | e <;> rw [e] <;> simp
  have he : Even inst := fun e => absurd e hne
  exact (loop_solutions ha hg he
    (ho.elim .inl fun h => .inr (.inr h)) hi (start_fits hg he hb) h).2.1 hne

/-- **C121**: with leftovers, no solution reported uses more bins than those before it. -/
theorem sequential_improves_partial (hinst : runOps o ops = .ok inst)
    (hc : ∀ t ∈ inst.binTypes, 0 < t.copies) (ht : 0 ≤ inst.parameters.cutThickness)
    (hi : 0 < inst.numberOfItems) (ho : inst.objective = .binPackingWithLeftovers)
    (hw : ∀ t ∈ inst.binTypes, ∀ t' ∈ inst.binTypes, t.w = t'.w)
    (ha : ∀ it ops sub, runOps inst.objective ops = .ok sub → Answer sub (solver it sub)) (h : run solver stop inst fuel = .ok r) :
    r.1.Pairwise fun s s' => s'.numberOfBins ≤ s.numberOfBins := by
  obtain ⟨b, hb, h⟩ := bind_ok.mp h
  have hg := given_of hinst hc ht
  have he : Even inst := even_of fun _ => hw
  exact (loop_solutions ha hg he (.inr (.inl ho)) hi (start_fits hg he hb) h).2.2 ho

/-- **C121**: the search ends by itself, whatever the solver answers and even if the time is never up. -/
theorem sequential_ends (hinst : runOps o ops = .ok inst)
    (hc : ∀ t ∈ inst.binTypes, 0 < t.copies) (ht : 0 ≤ inst.parameters.cutThickness)
    (hi : 0 < inst.numberOfItems)
    (ho : inst.objective = .binPacking ∨ inst.objective = .binPackingWithLeftovers
      ∨ inst.objective = .openDimensionX ∨ inst.objective = .openDimensionY)
    (hw : inst.objective = .binPackingWithLeftovers →
      ∀ t ∈ inst.binTypes, ∀ t' ∈ inst.binTypes, t.w = t'.w)
    (ha : ∀ it ops sub, runOps inst.objective ops = .ok sub → Answer sub (solver it sub)) :
    ∃ N, ∀ fuel ≥ N, ∀ r, run solver stop inst fuel = .ok r → r.2 = true := by
  have hg := given_of hinst hc ht
  cases hb : SequentialFeasibility.start inst with
  | error e =>
    refine ⟨0, fun fuel _ r h => ?_⟩
    unfold run at h
    rw [hb] at h
    cases h
  | ok b =>
    obtain ⟨N, hN⟩ := loop_ends ha hg (even_of hw) ho hi (start_fits hg (even_of hw) hb) (stop := stop) 0
    refine ⟨N, fun fuel hf r h => ?_⟩
    unfold run at h
    rw [hb] at h
    exact hN fuel hf r h

end

end PackingSolver.Guil
