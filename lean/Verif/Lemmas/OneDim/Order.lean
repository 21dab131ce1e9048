import Verif.Lemmas.OneDim.Indicators

/-! Helper lemmas: the bin type order check of `update_indicators`. -/

namespace PackingSolver.OneDim

open Spec

theorem lastUsed_spec (v : List Int) (n : Nat) :
    let L := (List.range n).foldl (fun last b => if v.getD b 0 > 0 then b + 1 else last) 0
    L ≤ n ∧ (∀ u, u < n → v.getD u 0 > 0 → u < L) ∧ (0 < L → v.getD (L - 1) 0 > 0) := by
  induction n with
  | zero => simp
  | succ n ih =>
    rw [List.range_succ, List.foldl_append]
    simp only [List.foldl_cons, List.foldl_nil]
    obtain ⟨h1, h2, h3⟩ := ih
    generalize hL : (List.range n).foldl (fun last b => if v.getD b 0 > 0 then b + 1 else last) 0
      = L at h1 h2 h3 ⊢
    by_cases hn : v.getD n 0 > 0
    · rw [if_pos hn]
      exact ⟨le_refl _, fun u hu _ => hu, fun _ => by simpa using hn⟩
    · rw [if_neg hn]
      refine ⟨by omega, fun u hu hp => ?_, h3⟩
      by_cases hun : u = n
      · subst hun; exact absurd hp hn
      · exact h2 u (by omega) hp

theorem orderOk_iff (inst : Instance) (v : List Int) (p : Packing)
    (h : ∀ t, t < inst.numberOfBinTypes → v.getD t 0 = Spec.binCopies p t) :
    orderOk inst v = true ↔ OrderOk inst p := by
  unfold orderOk lastUsedSucc OrderOk
  have hL := lastUsed_spec v inst.numberOfBinTypes
  generalize (List.range inst.numberOfBinTypes).foldl
    (fun last b => if v.getD b 0 > 0 then b + 1 else last) 0 = L at hL ⊢
  obtain ⟨h1, h2, h3⟩ := hL
  simp only [List.all_eq_true, List.mem_range, decide_eq_true_eq]
  constructor
  · intro ho t u htu hu hpos
    rw [← h u hu] at hpos
    have := h2 u hu hpos
    rw [← h t (by omega)]
    exact ho t (by omega)
  · intro ho t ht
    have hu := h3 (by omega)
    rw [h t (by omega)]
    refine ho t (L - 1) ht (by omega) ?_
    rw [← h (L - 1) (by omega)]
    exact hu

/-- The order flag after one `update_indicators` call. -/
theorem order_step {inst : Instance} {s : Solution} {done : Packing} (k : Nat)
    (h : Indic inst (s.updateIndicatorsTotal inst k) done) (ho : inst.objective = .binPacking) :
    (s.updateIndicatorsTotal inst k).binTypeOrderFeasible = true ↔
      s.binTypeOrderFeasible = true ∧ (k + 1 = s.bins.length → OrderOk inst done) := by
  have hframe := runItems_frame (inst := inst)
    (b := (s.bins.getD k default).binTypeId) (c := (s.bins.getD k default).copies)
    (st := startLoop inst s (s.bins.getD k default)) (s.bins.getD k default).items
  obtain ⟨-, -, -, -, -, -, hO⟩ := hframe
  rw [upd_order]
  by_cases hk : k + 1 = s.bins.length
  · rw [if_pos ⟨ho, hk⟩, Bool.and_eq_true, endLoop, hO]
    have := orderOk_iff inst _ _ h.binCopies
    rw [upd_binCopies, endLoop] at this
    rw [this]
    simp [startLoop, hk]
  · rw [if_neg (fun h => hk h.2), endLoop, hO]
    simp [startLoop, hk]

theorem order_step_other {inst : Instance} {s : Solution} (k : Nat)
    (ho : inst.objective ≠ .binPacking) :
    (s.updateIndicatorsTotal inst k).binTypeOrderFeasible = s.binTypeOrderFeasible := by
  have hframe := runItems_frame (inst := inst)
    (b := (s.bins.getD k default).binTypeId) (c := (s.bins.getD k default).copies)
    (st := startLoop inst s (s.bins.getD k default)) (s.bins.getD k default).items
  obtain ⟨-, -, -, -, -, -, hO⟩ := hframe
  rw [upd_order, if_neg (fun h => ho h.1), endLoop, hO]
  rfl

end PackingSolver.OneDim
