import Verif.Lemmas.Stacks.Weights

/-! Helper lemmas: when the calls that make a solution succeed. -/

namespace PackingSolver.Stacks

open Spec
open PackingSolver.Box (Rotation)

theorem updateIndicators_succeeds {inst : Instance} {s : Solution} {k : Nat}
    (hr : s.inRange inst k = true)
    (ha : ∃ r, feasibleAxleWeights inst (s.updateTotals inst k).bins = .ok r) :
    ∃ s', s.updateIndicators inst k = .ok s' := by
  obtain ⟨r, ha⟩ := ha
  unfold Solution.updateIndicators
  rw [if_pos hr]
  simp only [ha]
  split_ifs
  · exact ⟨_, rfl⟩
  · exact ⟨_, rfl⟩

theorem feasibleAxleWeights_unchecked {inst : Instance} (bins : List SolutionBin)
    (hc : ∀ g, g < inst.numberOfGroups → inst.checkWeightConstraints g = false) :
    feasibleAxleWeights inst bins = .ok true := by
  induction bins with
  | nil => rfl
  | cons b bs ih =>
    unfold feasibleAxleWeights
    rw [axleGroups_unchecked _ (fun g hg => hc g (List.mem_range.mp hg))]
    exact ih

theorem pushBin_succeeds {inst : Instance} {s : Solution} (hg : Good inst s) (bin : SolutionBin)
    (ht : BinTyped inst (viewBin bin)) : ∃ s', s.pushBin inst bin = .ok s' := by
  unfold Solution.pushBin
  set s1 : Solution := { s with bins := s.bins ++ [bin] } with hs1
  have hget : s1.bins.getD s.bins.length default = bin := by
    simp [hs1, List.getD_eq_getElem?_getD]
  apply updateIndicators_succeeds
  · rw [inRange_spec, hget]
    refine ⟨by simp [hs1], ?_, ht.2⟩
    intro b hb
    rw [hs1] at hb
    rcases List.mem_append.mp hb with hb | hb
    · exact (hg.typed (viewBin b) (List.mem_map_of_mem hb)).1
    · rw [List.mem_singleton.mp hb]; exact ht.1
  · obtain ⟨r, hr, -⟩ := feasibleAxleWeights_good (inst := inst)
      (s1.updateTotals inst s.bins.length).bins (by
        intro b hb
        obtain ⟨n, hn, rfl⟩ := List.getElem_of_mem hb
        rw [← List.getD_eq_getElem _ default hn]
        by_cases hnk : n = s.bins.length
        · subst hnk
          exact (upd_bin_good inst s1 _ (by simp [hs1])).2
        · rw [upd_bin_other inst s1 _ _ hnk]
          rw [upd_length] at hn
          have hn' : n < s.bins.length := by
            have : s1.bins.length = s.bins.length + 1 := by simp [hs1]
            omega
          have : s1.bins.getD n default = s.bins[n] := by
            simp [hs1, List.getD_eq_getElem?_getD, List.getElem?_append_left hn', hn']
          rw [this]
          exact hg.bins _ (List.getElem_mem _))
    exact ⟨r, hr⟩

theorem relabel_succeeds {m : List Nat} {i : Nat} (h : m = [] ∨ i < m.length) :
    relabel m i = some (mapId m i) := by
  unfold relabel mapId
  rcases h with rfl | h
  · rfl
  · have hne : m.isEmpty = false := by
      cases m with
      | nil => simp at h
      | cons a l => rfl
    simp [hne, List.getElem?_eq_getElem h]

theorem mapM_succeeds {α β : Type} (f : α → Option β) (l : List α) (h : ∀ a ∈ l, (f a).isSome) :
    ∃ l', l.mapM f = some l' := by
  induction l with
  | nil => exact ⟨[], rfl⟩
  | cons a l ih =>
    obtain ⟨l', hl⟩ := ih (fun a ha => h a (List.mem_cons_of_mem _ ha))
    obtain ⟨b, hb⟩ := Option.isSome_iff_exists.mp (h a (by simp))
    exact ⟨b :: l', by simp [List.mapM_cons, hl, hb]⟩

theorem relabelPiles_succeeds {m : List Nat} (l : List SolutionStack)
    (h : ∀ i ∈ pileItems l, m = [] ∨ i.1 < m.length) : ∃ l', relabelPiles m l = some l' := by
  apply mapM_succeeds
  intro p hp
  obtain ⟨l', hl⟩ := mapM_succeeds
    (fun it : SolutionItem => (relabel m it.itemTypeId).map fun j => { it with itemTypeId := j })
    p.items (by
      intro it hit
      rw [relabel_succeeds (h (viewItem it)
        (List.mem_flatMap.mpr ⟨p, hp, List.mem_map_of_mem hit⟩))]
      rfl)
  unfold relabelItems
  rw [hl]; rfl

theorem appendBin_succeeds {inst : Instance} {s other : Solution} {k : Nat} {c : Int}
    {mb mi : List Nat} (hg : Good inst s) (hk : k < other.bins.length)
    (hb : mb = [] ∨ (other.bins.getD k default).binTypeId < mb.length)
    (hi : ∀ i ∈ binItems (viewBin (other.bins.getD k default)), mi = [] ∨ i.1 < mi.length)
    (ht : BinTyped inst (relabelBin mb mi (viewBin (other.bins.getD k default)))) :
    ∃ s', s.appendBin inst other k c mb mi = .ok s' := by
  unfold Solution.appendBin
  rw [List.getElem?_eq_getElem hk]
  rw [List.getD_eq_getElem _ _ hk] at hb hi ht
  rw [binItems_view] at hi
  obtain ⟨l', hl⟩ := relabelPiles_succeeds _ hi
  simp only [relabel_succeeds hb, hl]
  apply pushBin_succeeds hg
  have e := relabelPiles_eq _ _ hl
  have : viewBin { binTypeId := mapId mb other.bins[k].binTypeId, copies := c, piles := l' }
      = { relabelBin mb mi (viewBin other.bins[k]) with copies := c } := by
    simp [viewBin, relabelBin, e, viewPile, Function.comp_def]
  rw [this]
  exact ht

/-! ### The builder -/

theorem building_inRange {inst : Instance} {s0 : Solution} {p : Packing} (hr : Raw inst s0 p)
    (hgr : ∀ b ∈ p, ∀ i ∈ binItems b, (inst.itemType i.1).groupId < inst.numberOfGroups)
    {k : Nat} {s : Solution} (hb : Building inst p k s) (hk : k < p.length) :
    s.inRange inst k = true := by
  obtain ⟨hlen, hview⟩ := building_view hb hk
  rw [inRange_spec]
  refine ⟨by omega, ?_, ?_⟩
  · intro b hbm
    have hm : viewBin b ∈ p := by rw [← hb.view]; exact List.mem_map_of_mem hbm
    exact (hr.typed _ hm).1
  · rw [hview]
    intro i hi
    obtain ⟨q, hq, hiq⟩ := List.mem_flatMap.mp hi
    exact ⟨((hr.typed _ (List.getElem_mem hk)).2 q hq i hiq).1, hgr _ (List.getElem_mem hk) i hi⟩

theorem build_succeeds {inst : Instance} {sb : SolutionBuilder} {p : Packing}
    (hr : Raw inst sb.sol p)
    (hgr : ∀ b ∈ p, ∀ i ∈ binItems b, (inst.itemType i.1).groupId < inst.numberOfGroups)
    (hc : p.length ≤ 1
      ∨ ∀ g, g < inst.numberOfGroups → inst.checkWeightConstraints g = false) :
    ∃ s, sb.build inst = .ok s := by
  have hlen : sb.sol.bins.length = p.length := by rw [← hr.view]; simp [binsView]
  unfold SolutionBuilder.build
  have : ∀ k, k ≤ p.length → ∃ s, (List.range k).foldlM
      (fun s pos => s.updateIndicators inst pos) sb.sol = .ok s := by
    intro k
    induction k with
    | zero => intro _; exact ⟨_, rfl⟩
    | succ k ih =>
      intro hk
      obtain ⟨s1, h1⟩ := ih (by omega)
      have hb := build_loop hr k (by omega) s1 h1
      have hl1 : s1.bins.length = p.length := by rw [← hb.view]; simp [binsView]
      obtain ⟨s2, h2⟩ := updateIndicators_succeeds (building_inRange hr hgr hb (by omega)) (by
        rcases hc with hc | hc
        · obtain ⟨r, hr, -⟩ := feasibleAxleWeights_good (inst := inst)
            (s1.updateTotals inst k).bins (by
              intro b hbm
              obtain ⟨n, hn, rfl⟩ := List.getElem_of_mem hbm
              rw [← List.getD_eq_getElem _ default hn]
              have hn' : n < s1.bins.length := by rw [upd_length] at hn; exact hn
              have : n = k := by omega
              subst this
              exact (upd_bin_good inst s1 _ hn').2)
          exact ⟨r, hr⟩
        · exact ⟨true, feasibleAxleWeights_unchecked _ hc⟩)
      refine ⟨s2, ?_⟩
      rw [List.range_succ, foldlM_snoc_ok]
      exact ⟨s1, h1, h2⟩
  exact this _ (by omega)

/-- The first call of `update_indicators` reads the weights of the second bin, which are not there
yet. -/
theorem build_second_ub {inst : Instance} {sb : SolutionBuilder} {b c : PackedBin} {q : Packing}
    (hr : Raw inst sb.sol (b :: c :: q))
    (hgr : ∀ i ∈ binItems b, (inst.itemType i.1).groupId < inst.numberOfGroups)
    (hT : TrucksOk inst) (hw : WeightOk inst b) (ha : AxlesOk inst b)
    (hmax : ∀ t, t < inst.numberOfBinTypes → Within 0 (inst.binType t).maximumWeight)
    (hc : ∃ g, g < inst.numberOfGroups ∧ inst.checkWeightConstraints g = true) :
    sb.build inst = .error .ub := by
  have hlen : sb.sol.bins.length = q.length + 2 := by
    have := congrArg List.length hr.view
    simpa [binsView] using this
  have hb0 := building_zero hr
  have hview : viewBin (sb.sol.bins.getD 0 default) = b :=
    (building_view hb0 (k := 0) (by simp)).2
  have hin : sb.sol.inRange inst 0 = true := by
    rw [inRange_spec, hview]
    refine ⟨by omega, ?_, ?_⟩
    · intro x hx
      have hm : viewBin x ∈ b :: c :: q := by rw [← hr.view]; exact List.mem_map_of_mem hx
      exact (hr.typed _ hm).1
    · intro i hi
      obtain ⟨p, hp, hip⟩ := List.mem_flatMap.mp hi
      exact ⟨((hr.typed b (by simp)).2 p hp i hip).1, hgr i hi⟩
  obtain ⟨uv, ug⟩ := upd_bin_good inst sb.sol 0 (by omega)
  rw [hview] at uv
  have hul := upd_length inst sb.sol 0
  set U := sb.sol.updateTotals inst 0 with hU
  have hothers : ∀ j, j ≠ 0 → j < U.bins.length →
      (U.bins.getD j default).weight = []
      ∧ (U.bins.getD j default).binTypeId < inst.numberOfBinTypes := by
    intro j hj hjl
    rw [hU, upd_bin_other inst sb.sol 0 j hj]
    rw [hul] at hjl
    rw [List.getD_eq_getElem _ _ hjl]
    have hm : viewBin sb.sol.bins[j] ∈ b :: c :: q := by
      rw [← hr.view]; exact List.mem_map_of_mem (List.getElem_mem _)
    exact ⟨(hr.weights _ (List.getElem_mem _)).1, (hr.typed _ hm).1⟩
  have hbt : b.binTypeId < inst.numberOfBinTypes := (hr.typed b (by simp)).1
  have hbtyped : BinTyped inst b := ⟨hbt, fun i hi => by
    obtain ⟨p, hp, hip⟩ := List.mem_flatMap.mp hi
    exact ⟨((hr.typed b (by simp)).2 p hp i hip).1, hgr i hi⟩⟩
  have htot : feasibleTotalWeight inst U.bins = true := by
    unfold feasibleTotalWeight
    rw [List.all_eq_true]
    intro x hx
    obtain ⟨n, hn, rfl⟩ := List.getElem_of_mem hx
    rw [← List.getD_eq_getElem _ default hn]
    by_cases h0 : n = 0
    · subst h0
      rw [weight_head ug (by rw [uv]; exact hbtyped), uv]
      have := (within_iff _ _).mp hw
      have e : (U.bins.getD 0 default).binTypeId = b.binTypeId := by rw [← uv]; rfl
      rw [e, this]; rfl
    · obtain ⟨w, t⟩ := hothers n h0 hn
      rw [w]
      have := (within_iff _ _).mp (hmax _ t)
      change (!ExtQ.exceeded 0 (inst.binType (U.bins.getD n default).binTypeId).maximumWeight)
        = true
      rw [this]; rfl
  have haxle : feasibleAxleWeights inst U.bins = .error .ub := by
    have h2 : 2 ≤ U.bins.length := by omega
    obtain ⟨x, y, l, hl⟩ : ∃ x y l, U.bins = x :: y :: l := by
      match hm : U.bins, h2 with
      | x :: y :: l, _ => exact ⟨x, y, l, rfl⟩
    have hx : U.bins.getD 0 default = x := by rw [hl]; rfl
    have hy : U.bins.getD 1 default = y := by rw [hl]; rfl
    have hyw := (hothers 1 (by omega) (by omega)).1
    rw [hx] at ug uv
    rw [hy] at hyw
    obtain ⟨r0, hr0, hi0⟩ := axleGroups_good ug (List.range inst.numberOfGroups)
      (fun g hg => List.mem_range.mp hg)
    have hfine : ∀ g ∈ List.range inst.numberOfGroups, groupFine inst x g := by
      intro g hg
      have e : x.binTypeId = b.binTypeId := by rw [← uv]; rfl
      exact (groupFine_iff ug (by rw [e]; exact hbt) hT).mpr (by rw [uv]; exact ha) g
        (List.mem_range.mp hg)
    have hr1 : r0 = true := hi0.mpr hfine
    rw [hr1] at hr0
    rw [hl]
    unfold feasibleAxleWeights
    rw [hr0]
    simp only
    unfold feasibleAxleWeights
    rw [axleGroups_empty hyw _ (by
      obtain ⟨g, hg, hc⟩ := hc
      exact ⟨g, List.mem_range.mpr hg, hc⟩)]
  have hstep : sb.sol.updateIndicators inst 0 = .error .ub := by
    unfold Solution.updateIndicators
    rw [if_pos hin]
    simp only [← hU, htot, haxle, Bool.not_true, Bool.false_eq_true, if_false]
  unfold SolutionBuilder.build
  rw [hlen, List.range_succ_eq_map]
  simp only [List.foldlM_cons, hstep, bind, Except.bind]

end PackingSolver.Stacks
