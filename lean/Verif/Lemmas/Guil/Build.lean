import Verif.Lemmas.Guil.Indicators

/-!
# Lemmas: indicators of built guillotine solutions
-/

namespace PackingSolver.Guil

open Spec

variable {inst : Instance}

theorem mem_nd {nodes : List Node} {n : Node} (hn : n ∈ nodes) :
    ∃ i < nodes.length, nd nodes i = n := by
  obtain ⟨i, hi, he⟩ := List.getElem_of_mem hn
  refine ⟨i, hi, ?_⟩
  unfold nd
  rw [List.getD_eq_getElem?_getD, List.getElem?_eq_getElem hi, he]; rfl

theorem mem_itemsOf {nodes : List Node} {i : Nat} (h : i ∈ itemsOf nodes) :
    ∃ n ∈ nodes, n.f.isSome = true ∧ n.itemTypeId = (i : Int) := by
  obtain ⟨n, hn, rfl⟩ := List.mem_map.mp h
  obtain ⟨h1, h2⟩ := List.mem_filter.mp hn
  rw [Bool.and_eq_true, decide_eq_true_eq] at h2
  exact ⟨n, h1, h2.1, by omega⟩

theorem DoneBin.items_lt {bin : SolutionBin} (h : DoneBin inst bin) :
    ∀ i ∈ itemsOf bin.nodes, i < inst.numberOfItemTypes := by
  intro i hi
  obtain ⟨n, hn, hf, he⟩ := mem_itemsOf hi
  obtain ⟨j, hj, rfl⟩ := mem_nd hn
  obtain ⟨_, k, hk, he', _⟩ := h.tree.items j hj hf (by omega)
  omega

theorem stepOk_of {s : Solution} {k : Nat} {bin : SolutionBin} (h : DoneBin inst bin)
    (hb : s.bins.getD k default = bin) (hr : s.inRange inst k = true) : StepOk inst bin := by
  refine ⟨h.type_lt, h.tree.shaped, h.items_lt, ?_⟩
  intro n hn hd hi hp
  unfold Solution.inRange at hr
  dsimp only at hr
  rw [hb, Bool.and_eq_true, List.all_eq_true] at hr
  have hall := hr.2 n hn
  rw [Bool.and_eq_true] at hall
  have h2 := hall.2
  rw [Bool.or_eq_true, Bool.or_eq_true] at h2
  rcases h2 with (h2 | h2) | h2
  · rw [decide_eq_true_eq] at h2; omega
  · rw [Bool.and_eq_true, decide_eq_true_eq] at h2; omega
  · rw [Bool.and_eq_true] at h2
    have h3 := h2.2
    rw [Bool.or_eq_true] at h3
    rcases h3 with h3 | h3
    · have : ¬ (inst.itemType n.itemTypeId.toNat).stackPos > 0 := by simpa using h3
      omega
    · rw [Bool.and_eq_true, decide_eq_true_eq] at h3
      exact h3.2

theorem build_indic_steps {s s' : Solution} {n : Nat}
    (hdone : ∀ bin ∈ s.bins, DoneBin inst bin) (h0 : Indic inst s [])
    (h : (List.range n).foldlM (fun s pos => Solution.updateIndicators inst s pos) s = .ok s') :
    Indic inst s' (s'.bins.take n)
    ∧ (0 < n → s'.callbackFeasible = inst.callback s'.bins) := by
  induction n generalizing s' with
  | zero =>
    have : s' = s := by
      simp only [List.range_zero, List.foldlM_nil] at h
      exact (Except.ok.inj h).symm
    subst this
    exact ⟨by rw [List.take_zero]; exact h0, by omega⟩
  | succ n ih =>
    rw [List.range_succ, List.foldlM_append] at h
    obtain ⟨s1, h1, h2⟩ := bind_ok.mp h
    obtain ⟨i1, i2, i3, i4⟩ := build_steps h1
    obtain ⟨ih, _⟩ := ih h1
    rw [List.foldlM_cons] at h2
    obtain ⟨s2, h3, h4⟩ := bind_ok.mp h2
    rw [List.foldlM_nil] at h4
    have : s' = s2 := (Except.ok.inj h4).symm
    subst this
    obtain ⟨u1, _, _, _⟩ := updateIndicators_bins h3
    obtain ⟨hr, _, he⟩ := updateIndicators_ok h3
    have hmem : s1.bins.getD n default ∈ s.bins := by
      rw [i4 n (le_refl _), List.getD_eq_getElem?_getD, List.getElem?_eq_getElem (by omega)]
      exact List.getElem_mem _
    have hst := indic_step (k := n) ih rfl (stepOk_of (hdone _ hmem) rfl hr) rfl
    have hbins : s'.bins.take (n + 1) = s1.bins.take n ++ [stageBin inst
        { s1.bins.getD n default with
          resourceConsumption := (endLoop inst s1 (s1.bins.getD n default)).consumption }] := by
      have : s'.bins = s1.bins.set n (stageBin inst
        { s1.bins.getD n default with
          resourceConsumption := (endLoop inst s1 (s1.bins.getD n default)).consumption }) := by
        rw [he]; rfl
      rw [this, List.take_add_one, List.take_set_of_le (le_refl _), List.getElem?_set]
      simp [u1]
    refine ⟨?_, fun _ => by rw [he]; rfl⟩
    rw [hbins, he]
    exact hst

/-- The indicators of a built solution are those of its bins. -/
theorem build_indic {ops : List Op} {s : Solution}
    (h : (SolutionBuilder.run inst ops).build inst = .ok s) :
    Indic inst s s.bins ∧ (s.bins ≠ [] → s.callbackFeasible = inst.callback s.bins)
    ∧ (s.bins = [] → s.callbackFeasible = true) := by
  have hrun := runInv_run (inst := inst) ops
  have hl := (build_bins h).1
  have hlen : (finishBins inst.parameters.cutThickness
      (SolutionBuilder.run inst ops).sol.bins).length
      = (SolutionBuilder.run inst ops).sol.bins.length := by
    unfold finishBins
    dsimp only
    rw [List.length_modify, List.length_map]
  unfold SolutionBuilder.build at h
  dsimp only at h
  rw [hlen] at h
  rw [hrun.rest] at h
  dsimp only at h
  obtain ⟨h1, h2⟩ := build_indic_steps (s := { Solution.init inst with
      bins := finishBins inst.parameters.cutThickness
        (SolutionBuilder.run inst ops).sol.bins })
    (fun b hb => (finishBins_done hrun b hb).1) (indic_init _) h
  rw [List.take_of_length_le (by omega)] at h1
  refine ⟨h1, ?_, ?_⟩
  · intro hne
    apply h2
    have := List.length_pos_iff.mpr hne
    omega
  · intro he
    rw [he] at hl
    rw [← hl] at h
    simp only [List.length_nil, List.range_zero, List.foldlM_nil] at h
    rw [← Except.ok.inj h]
    rfl

end PackingSolver.Guil
