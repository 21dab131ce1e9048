import Verif.Lemmas.Rect.Sweep
import Verif.Lemmas.OneDim.Dff

/-!
# Cuts

Lemmas: a cut found by `find_most_violated_dual_feasible_function_cut` is valid.
-/

namespace PackingSolver.Rect.DffLemmas

open Dff _root_.PackingSolver.Rect.Spec

variable {inst : Instance}

/-- The value of a set of selected items. -/
def selectedSum (coefficients : List Int) (selected : List (Nat × Int)) : Int :=
  (selected.map fun p => p.2 * coefficients.getD p.1 0).sum

/-- What is known of the best cut so far. -/
structure CutOk (inst : Instance) (b : Nat) (selected : List (Nat × Int)) (cut : Cut) : Prop where
  notFound : cut.found = false → cut.violation = 0
  length : cut.found = true → cut.coefficients.length = inst.numberOfItemTypes
  positive : cut.found = true → 0 < cut.violation
  violation : cut.found = true →
    selectedSum cut.coefficients selected - cut.bound = cut.violation
  valid : cut.found = true → ∀ items, BinPacking inst b items → WithinCopies inst items →
    (items.map fun p => cut.coefficients.getD p.itemTypeId 0).sum ≤ cut.bound
  nonneg : cut.found = true → ∀ i, 0 ≤ cut.coefficients.getD i 0

theorem getD_volumes (f : Nat → Int) {n i : Nat} (hi : i < n) :
    ((List.range n).map f).getD i 0 = f i := by
  rw [List.getD_eq_getElem _ _ (by simpa using hi)]
  simp

theorem cutStep_ok (h : Positive inst) {b : Nat}
    (hb : 0 < (inst.binType b).x ∧ 0 < (inst.binType b).y) {selected : List (Nat × Int)}
    (hsel : ∀ p ∈ selected, p.1 < inst.numberOfItemTypes) {c : Combo}
    (hc : GoodCombo inst (inst.binType b) c) {best : Cut} (hbest : CutOk inst b selected best) :
    ∃ cut, cutStep inst (inst.binType b) selected best c = .ok cut ∧
      CutOk inst b selected cut ∧ best.violation ≤ cut.violation ∧
      (0 < bcoef inst (inst.binType b) c →
        (selected.map fun p => p.2 * icoef inst (inst.binType b) c p.1).sum
          - bcoef inst (inst.binType b) c ≤ cut.violation) := by
  have hterms : ∀ l : List (Nat × Int), (∀ p ∈ l, p.1 < inst.numberOfItemTypes) →
      (l.mapM fun p : Nat × Int => do
        return p.2 * (← itemCoefficient (inst.binType b) c (inst.itemType p.1)))
      = (.ok (l.map fun p => p.2 * icoef inst (inst.binType b) c p.1) : Except Err (List Int)) := by
    intro l
    induction l with
    | nil => intro _; rfl
    | cons p l ih =>
      intro hl
      rw [List.mapM_cons, ih fun q hq => hl q (List.mem_cons_of_mem _ hq),
        itemCoefficient_eq h hb hc (hl p List.mem_cons_self)]
      rfl
  unfold cutStep
  rw [comboBin_eq h hb hc, comboVolumes_eq h hb hc, hterms selected hsel]
  show ∃ cut, (if bcoef inst (inst.binType b) c ≤ 0 then _ else _) = _ ∧ _
  by_cases h0 : bcoef inst (inst.binType b) c ≤ 0
  · rw [if_pos h0]
    exact ⟨best, rfl, hbest, le_refl _, fun h1 => absurd h1 (not_lt.2 h0)⟩
  · rw [if_neg h0]
    show ∃ cut, (if _ > best.violation then _ else _) = _ ∧ _
    by_cases h1 : (selected.map fun p => p.2 * icoef inst (inst.binType b) c p.1).sum
        - bcoef inst (inst.binType b) c > best.violation
    · rw [if_pos h1]
      have hv0 : 0 ≤ best.violation := by
        cases hf : best.found with
        | false => exact (hbest.notFound hf).ge
        | true => exact (hbest.positive hf).le
      refine ⟨_, rfl, ⟨by simp, by simp, fun _ => ?_, fun _ => ?_, fun _ => ?_, fun _ => ?_⟩,
        h1.le, fun _ => le_refl _⟩
      · exact lt_of_le_of_lt hv0 h1
      · show selectedSum _ _ - _ = _
        unfold selectedSum
        have e : (selected.map fun p : Nat × Int => p.2 *
            ((List.range inst.numberOfItemTypes).map (icoef inst (inst.binType b) c)).getD p.1 0)
            = selected.map fun p => p.2 * icoef inst (inst.binType b) c p.1 := by
          apply List.map_congr_left
          intro p hp
          rw [getD_volumes _ (hsel p hp)]
        rw [e]
      · intro items hp hw
        have e : (items.map fun p : PlacedItem => ((List.range inst.numberOfItemTypes).map
              (icoef inst (inst.binType b) c)).getD p.itemTypeId 0)
            = items.map fun p => icoef inst (inst.binType b) c p.itemTypeId := by
          apply List.map_congr_left
          intro p hpm
          rw [getD_volumes _ (hp.exist p hpm)]
        show (items.map fun p : PlacedItem => ((List.range inst.numberOfItemTypes).map
              (icoef inst (inst.binType b) c)).getD p.itemTypeId 0).sum ≤ _
        rw [e]
        exact bin_valid h hb hc hp hw
      · intro i
        by_cases hi : i < inst.numberOfItemTypes
        · show 0 ≤ ((List.range inst.numberOfItemTypes).map
              (icoef inst (inst.binType b) c)).getD i 0
          rw [getD_volumes _ hi]
          exact icoef_nonneg h hb hc hi
        · show 0 ≤ ((List.range inst.numberOfItemTypes).map
              (icoef inst (inst.binType b) c)).getD i 0
          rw [List.getD_eq_default _ _ (by simpa using hi)]
    · rw [if_neg h1]
      exact ⟨best, rfl, hbest, le_refl _, fun _ => not_lt.1 h1⟩

theorem findMostViolatedCut_ok (h : Positive inst) {b : Nat}
    (hb : 0 < (inst.binType b).x ∧ 0 < (inst.binType b).y) {selected : List (Nat × Int)}
    (hsel : ∀ p ∈ selected, p.1 < inst.numberOfItemTypes) :
    ∃ cut, findMostViolatedCut inst b selected = .ok cut ∧ CutOk inst b selected cut := by
  obtain ⟨ts, e, hts⟩ := dffTables_ok h hb
  obtain ⟨cut, h1, h2⟩ := OneDim.DffLemmas.foldlM_ok_inv
    (f := cutStep inst (inst.binType b) selected) (l := combos ts) (s := {})
    (P := CutOk inst b selected)
    ⟨fun _ => rfl, by simp, by simp, by simp, by simp, by simp⟩ (by
      intro c hc a ha
      obtain ⟨cut, h1, h2, -⟩ := cutStep_ok h hb hsel (hts c hc) ha
      exact ⟨cut, h1, h2⟩)
  refine ⟨cut, ?_, h2⟩
  unfold findMostViolatedCut
  rw [e]
  exact h1

end PackingSolver.Rect.DffLemmas
