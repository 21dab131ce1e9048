import Verif.Lemmas.OneDim.Order

/-! Helper lemmas: appending bins keeps the indicators exact. -/

namespace PackingSolver.OneDim

open Spec

/-! ### Histories -/

/-- What holds of a solution all of whose bins have been processed: the
indicators are those of its bins, and the callback was last asked about
them. -/
structure Good (inst : Instance) (s : Solution) : Prop where
  indic : Indic inst s (binsView s.bins)
  typed : WellTyped inst (binsView s.bins)
  callback : s.bins ≠ [] → s.callbackFeasible = inst.callback (binsView s.bins)
  callback_nil : s.bins = [] → s.callbackFeasible = true
  order : inst.objective = .binPacking → s.binTypeOrderFeasible = true →
    OrderOk inst (binsView s.bins)
  order_other : inst.objective ≠ .binPacking → s.binTypeOrderFeasible = true

theorem good_init (inst : Instance) : Good inst (Solution.init inst) :=
  ⟨indic_init inst, by simp [Solution.init, WellTyped, binsView], by simp [Solution.init],
    fun _ => rfl, fun _ _ t u _ _ hu => by simp [Solution.init, binsView, Spec.binCopies] at hu,
    fun _ => rfl⟩

/-- Changing only the list of bins keeps the indicators. -/
theorem Indic.withBins {inst : Instance} {s : Solution} {done : Packing}
    (h : Indic inst s done) (bins : List SolutionBin) : Indic inst { s with bins := bins } done :=
  ⟨h.numberOfBins, h.numberOfItems, h.binLength, h.itemLength, h.length, h.cost, h.binCopiesLen,
    h.binCopies, h.itemCopiesLen, h.itemCopies, h.profit, h.missing, h.capacity, h.weight,
    h.eligible, h.stack, h.weightAfter, h.resources, h.itemCopiesFeasible, h.feasible⟩

/-- Appending a bin without previous content. -/
theorem good_pushBin {inst : Instance} {s s' : Solution} (hg : Good inst s) (bin : SolutionBin)
    (hw : bin.weight = 0) (hc : 0 ≤ bin.copies) (h : s.pushBin inst bin = .ok s') :
    Good inst s' ∧ binsView s'.bins = binsView s.bins ++ [viewBin bin] := by
  unfold Solution.pushBin Solution.updateIndicators at h
  split_ifs at h with hr
  cases h
  set s1 : Solution := { s with bins := s.bins ++ [bin] } with hs1
  have hget : s1.bins.getD s.bins.length default = bin := by
    simp [hs1, List.getD_eq_getElem?_getD]
  simp only [Solution.inRange, hget, Bool.and_eq_true, decide_eq_true_eq, List.all_eq_true] at hr
  have hl : InTypes inst (ids bin.items) := by
    intro i hi
    obtain ⟨it, hit, rfl⟩ := List.mem_map.mp hi
    exact hr.2 it hit
  have hview : binsView (s1.updateIndicatorsTotal inst s.bins.length).bins
      = binsView s.bins ++ [viewBin bin] := by
    rw [upd_view _ _ _ (by rw [hget]; exact hw)]
    simp [hs1, binsView]
  have hind : Indic inst (s1.updateIndicatorsTotal inst s.bins.length)
      (binsView s.bins ++ [viewBin bin]) := by
    have := indic_step (inst := inst) (s := s1) s.bins.length (hg.indic.withBins _)
      (by rw [hget]; exact hw) (by rw [hget]; exact hr.1.2) (by rw [hget]; exact hc)
      (by rw [hget]; exact hl)
    rwa [hget] at this
  refine ⟨⟨by rw [hview]; exact hind, ?_, ?_, ?_, ?_, ?_⟩, hview⟩
  · rw [hview]
    unfold WellTyped
    rw [forall_mem_snoc]
    exact ⟨hg.typed, hr.1.2, hc, hl⟩
  · intro _; exact upd_callback _ _ _
  · intro he
    rw [upd_bins] at he
    have := congrArg List.length he
    simp [hs1] at this
  · intro ho hflag
    rw [hview]
    exact ((order_step _ hind ho).mp hflag).2 (by simp [hs1])
  · intro ho
    rw [order_step_other _ ho]
    exact hg.order_other ho

end PackingSolver.OneDim
