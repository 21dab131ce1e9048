import Verif.Lemmas.OneDim.PostProcess
import Verif.Props.OneDim.Solution
import Verif.Spec.OneDimPost
import Mathlib.Tactic.IntervalCases

/-!
# C06, C07: grouping identical bins and enforcing the bin type order
-/

namespace PackingSolver.OneDim

open Spec PostLemmas

variable {inst : Instance} {s : Solution}

/-! ## C06 -/

theorem appendPairs_reachable {s0 s1 other : Solution} (gs : List (Nat × Int))
    (h0 : Reachable inst s0) (hc : ∀ g ∈ gs, 0 ≤ g.2)
    (h : gs.foldlM (fun n g => n.appendBin inst other g.1 g.2 [] []) s0 = .ok s1) :
    Reachable inst s1 :=
  foldlM_inv (P := Reachable inst) h0
    (fun g _ _ hg ha hb => Reachable.appendBin _ _ other g.1 g.2 [] [] ha (hc g hg) hb) h

/-- The solution returned by `group_identical_bins` lists the same bins as the
original one: every content occurs the same number of times, and none is listed
twice. -/
theorem group_identical_bins_contents (h : Reachable inst s) :
    ∃ s', groupIdenticalBins inst s = .ok s' ∧ Reachable inst s'
      ∧ (∀ t l, contentCopies (packingOf s') t l = contentCopies (packingOf s) t l)
      ∧ (contents (packingOf s')).Nodup
      ∧ ∀ c, c ∈ contents (packingOf s') ↔ c ∈ contents (packingOf s) := by
  have hg := h.good
  have hcop : ∀ b ∈ s.bins, 0 ≤ b.copies := fun b hb =>
    (hg.typed (viewBin b) (List.mem_map.mpr ⟨b, hb, rfl⟩)).2.1
  have hG : Groups s s.bins.length (binGroups s) := groups_loop s hcop _ (le_refl _)
  obtain ⟨s', h1, hg', hv, -⟩ := appendList_progress (binGroups s) (good_init inst) hg.typed
    hG.lt hG.nonneg
  have hv' : packingOf s' = groupView s (binGroups s) := by
    rw [hv]; simp [packingOf, Solution.init]
  have hat : ∀ k, k < s.bins.length → at' s k ∈ s.bins := by
    intro k hk
    rw [show at' s k = s.bins[k] from List.getD_eq_getElem _ _ hk]
    exact List.getElem_mem hk
  refine ⟨s', h1, appendPairs_reachable _ .init hG.nonneg h1, ?_, ?_, ?_⟩
  · intro t l
    rw [hv']
    exact groups_sum (fun c t' l' => if t' = t ∧ l' = l then c else 0)
      (by intro a b t' l'; split_ifs <;> simp) s
  · rw [hv', contents, groupView, List.map_map]
    apply List.Nodup.of_map id
    rw [List.map_id, List.Nodup, List.pairwise_map]
    refine hG.distinct.imp_of_mem fun {a b} ha hb hd heq => ?_
    simp only [Function.comp, Prod.mk.injEq] at heq
    have := BinExact.items_eq (h.exact _ (hat _ (hG.lt a ha))) (h.exact _ (hat _ (hG.lt b hb)))
      heq.2
    simp only [sameBin, Bool.and_eq_false_iff, decide_eq_false_iff_not] at hd
    rcases hd with hd | hd
    · exact hd heq.1
    · exact hd this
  · intro c
    rw [hv', contents, contents, groupView, List.map_map, packingOf, List.map_map,
      List.mem_map, List.mem_map]
    constructor
    · rintro ⟨g, hg1, rfl⟩
      exact ⟨at' s g.1, hat _ (hG.lt g hg1), rfl⟩
    · rintro ⟨b, hb, rfl⟩
      obtain ⟨pos, hpos, rfl⟩ := List.getElem_of_mem hb
      obtain ⟨g, hg1, he⟩ := hG.covers pos hpos
      simp only [sameBin, Bool.and_eq_true, decide_eq_true_eq] at he
      have hb' : at' s pos = s.bins[pos] := List.getD_eq_getElem _ _ hpos
      rw [hb'] at he
      exact ⟨g, hg1, by simp only [Function.comp]; rw [he.1, he.2]⟩

theorem contents_forall {p q : Packing} (h : ∀ c, c ∈ contents p ↔ c ∈ contents q)
    (P : Nat → List Nat → Prop) :
    (∀ b ∈ p, P b.binTypeId b.items) ↔ ∀ b ∈ q, P b.binTypeId b.items := by
  have key : ∀ {p q : Packing}, (∀ c, c ∈ contents p ↔ c ∈ contents q) →
      (∀ b ∈ p, P b.binTypeId b.items) → ∀ b ∈ q, P b.binTypeId b.items := by
    intro p q h hp b hb
    have h1 : (b.binTypeId, b.items) ∈ contents q := List.mem_map.mpr ⟨b, hb, rfl⟩
    obtain ⟨b', hb', he⟩ := List.mem_map.mp ((h _).mpr h1)
    simp only [Prod.mk.injEq] at he
    rw [← he.1, ← he.2]
    exact hp b' hb'
  exact ⟨key h, key fun c => (h c).symm⟩

/-- **C06**, the part that holds: `group_identical_bins` succeeds and keeps the
number of bins, the number of items, the copies of each item and bin type, the
cost, the lengths and the feasibility (for a callback giving the same answer on
both lists); the profit is kept when no resource is penalized.
Missing: the reported length (and the waste), see `group_changes_length`, and
the profit with penalized resources, see `group_changes_profit`. -/
theorem group_identical_bins_partial (h : Reachable inst s) (hR : ResourceIdsOk inst)
    (hcap : CapacitiesNonneg inst) :
    ∃ s', groupIdenticalBins inst s = .ok s' ∧ Reachable inst s'
      ∧ s'.numberOfBins = s.numberOfBins ∧ s'.numberOfItems = s.numberOfItems
      ∧ s'.binLength = s.binLength ∧ s'.itemLength = s.itemLength ∧ s'.binCost = s.binCost
      ∧ (∀ t, t < inst.numberOfBinTypes → s'.binCopies.getD t 0 = s.binCopies.getD t 0)
      ∧ (∀ i, i < inst.numberOfItemTypes → s'.itemCopies.getD i 0 = s.itemCopies.getD i 0)
      ∧ (inst.callback (packingOf s') = inst.callback (packingOf s) →
          s'.feasible = s.feasible)
      ∧ ((∀ b ∈ inst.binTypes, ∀ r ∈ b.resources, r.penalize = false) →
          ConsumptionsNonneg inst → s'.itemProfit = s.itemProfit) := by
  obtain ⟨s', hrun, hreach, -, -, hcont⟩ := group_identical_bins_contents h
  have hg := h.good
  have hg' := hreach.good
  have hcop : ∀ b ∈ s.bins, 0 ≤ b.copies := fun b hb =>
    (hg.typed (viewBin b) (List.mem_map.mpr ⟨b, hb, rfl⟩)).2.1
  have hG : Groups s s.bins.length (binGroups s) := groups_loop s hcop _ (le_refl _)
  obtain ⟨s2, h1, -, hv, -⟩ := appendList_progress (binGroups s) (good_init inst) hg.typed
    hG.lt hG.nonneg
  have hs2 : s2 = s' := by
    have := h1.symm.trans hrun
    exact Except.ok.inj this
  subst hs2
  have hv' : binsView s2.bins = groupView s (binGroups s) := by
    have : packingOf s2 = groupView s (binGroups s) := by
      rw [hv]; simp [packingOf, Solution.init]
    exact this
  have hi := hg.indic
  have hi' := hg'.indic
  have htotal : ∀ {M : Type} [AddCommMonoid M] (w : Int → Nat → List Nat → M),
      (∀ a b t l, w (a + b) t l = w a t l + w b t l) →
      wsum w (binsView s2.bins) = wsum w (binsView s.bins) := by
    intro M _ w hw
    rw [hv']
    exact groups_sum w hw s
  have hic : ∀ i, Spec.itemCopies (binsView s2.bins) i = Spec.itemCopies (binsView s.bins) i :=
    fun i => htotal (fun c _ l => c * (l.count i : Int)) (by intros; ring)
  have hbc : ∀ t, Spec.binCopies (binsView s2.bins) t = Spec.binCopies (binsView s.bins) t :=
    fun t => htotal (fun c t' _ => if t' = t then c else 0)
      (by intro a b t' l; split_ifs <;> simp)
  refine ⟨s2, hrun, hreach, ?_, ?_, ?_, ?_, ?_, ?_, ?_, ?_, ?_⟩
  · rw [hi.numberOfBins, hi'.numberOfBins]; exact htotal (fun c _ _ => c) (by intros; rfl)
  · rw [hi.numberOfItems, hi'.numberOfItems]
    exact htotal (fun c _ l => c * (l.length : Int)) (by intros; ring)
  · rw [hi.binLength, hi'.binLength]
    exact htotal (fun c t _ => c * (inst.binType t).length) (by intros; ring)
  · rw [hi.itemLength, hi'.itemLength]
    exact htotal (fun c _ l => c * (l.map fun i => (inst.itemType i).length).sum)
      (by intros; ring)
  · rw [hi.cost, hi'.cost]
    exact htotal (fun c t _ => (c : ℚ) * (inst.binType t).cost) (by intros; push_cast; ring)
  · intro t ht; rw [hi.binCopies t ht, hi'.binCopies t ht, hbc]
  · intro i hlt; rw [hi.itemCopies i hlt, hi'.itemCopies i hlt, hic]
  · intro hcb
    have hnil : s2.bins = [] ↔ s.bins = [] := by
      have h0 : contents (packingOf s2) = [] ↔ contents (packingOf s) = [] := by
        rw [List.eq_nil_iff_forall_not_mem, List.eq_nil_iff_forall_not_mem]
        exact forall_congr' fun c => not_congr (hcont c)
      simpa [contents, packingOf] using h0
    have hcall : s2.callbackFeasible = s.callbackFeasible := by
      by_cases he : s.bins = []
      · rw [hg.callback_nil he, hg'.callback_nil (hnil.mpr he)]
      · rw [hg.callback he, hg'.callback (fun e => he (hnil.mp e))]
        exact hcb
    have hmem : ∀ P : Nat → List Nat → Prop,
        (∀ b ∈ binsView s2.bins, P b.binTypeId b.items)
          ↔ ∀ b ∈ binsView s.bins, P b.binTypeId b.items :=
      fun P => contents_forall hcont P
    have hmiss : Spec.missing inst (binsView s2.bins) = Spec.missing inst (binsView s.bins) := by
      unfold Spec.missing
      simp only [hic]
    rw [Bool.eq_iff_iff, hi.feasible, hi'.feasible]
    simp only [Bool.and_eq_true, decide_eq_true_eq]
    rw [hi.capacity, hi.weight, hi.stack, hi.weightAfter, hi.itemCopiesFeasible,
      hi.resources hR hcap, hi.eligible, hi.missing,
      hi'.capacity, hi'.weight, hi'.stack, hi'.weightAfter, hi'.itemCopiesFeasible,
      hi'.resources hR hcap, hi'.eligible, hi'.missing, hcall, hmiss,
      hmem (fun t l => Fits inst t l), hmem (fun t l => WeightOk inst t l),
      hmem (fun _ l => StackOk inst l), hmem (fun _ l => WeightAfterOk inst l),
      hmem (fun t l => ResourcesOk inst t l), hmem (fun t l => EligibleAll inst t l)]
    simp only [hic]
    rw [hmem (fun _ l => ∀ i ∈ l, Spec.itemCopies (binsView s.bins) i ≤ (inst.itemType i).copies)]
  · intro hpen hnn
    rw [profit_exact h hR hcap hnn, profit_exact hreach hR hcap hnn]
    have hz : ∀ p : Packing, WellTyped inst p → Spec.profit inst p
        = wsum (fun c _ l => (c : ℚ) * itemsProfit inst l) p := by
      intro p hp
      unfold Spec.profit wsum
      congr 1
      refine List.map_congr_left fun b hb => ?_
      have hz : penalties inst b.binTypeId b.items = 0 := by
        apply List.sum_eq_zero
        intro x hx
        obtain ⟨r, hr, rfl⟩ := List.mem_map.mp hx
        have hlt := (hp b hb).1
        have hbt : inst.binType b.binTypeId ∈ inst.binTypes := by
          unfold Instance.binType
          rw [List.getD_eq_getElem _ _ hlt]
          exact List.getElem_mem hlt
        rw [hpen _ hbt r hr]
        simp
      rw [hz, sub_zero]
    rw [hz (packingOf s) hg.typed, hz (packingOf s2) hg'.typed]
    exact htotal _ (by intros; push_cast; ring)

/-- Three bins with contents A, B, A. -/
def groupOps : List BuilderOp :=
  [.addBin 0 1, .addItem 0 0, .addBin 0 1, .addItem 1 1, .addBin 0 1, .addItem 2 0]

def groupInst : Instance := {
  objective := .knapsack
  itemTypes := [{ length := 5, profit := 1, copies := 2, copiesMin := 0, resourceIds := [[]] },
    { length := 1, profit := 1, copies := 1, copiesMin := 0, resourceIds := [[]] }]
  binTypes := [{ length := 10, cost := 1, copies := 3, copiesMin := 0 }] }

def groupSol : Solution := Examples.okD {} (SolutionBuilder.runOps groupInst groupOps)

theorem groupSol_reachable : Reachable groupInst groupSol :=
  .built groupOps groupSol (by intro t c h; simp [groupOps] at h; omega) (by decide +kernel)

example : Reachable groupInst groupSol ∧ groupSol.bins.length = 3 ∧ groupSol.feasible = true
    ∧ ResourceIdsOk groupInst ∧ CapacitiesNonneg groupInst := by
  refine ⟨groupSol_reachable, by decide +kernel, by decide +kernel, ?_, ?_⟩
  · intro i hi b hb
    have hb' : b = 0 := by
      have : b < 1 := hb
      omega
    subst hb'
    have hi' : i < 2 := hi
    interval_cases i <;>
      exact ⟨by decide, fun r => ⟨fun h => absurd h (by simp [groupInst, Instance.itemType]),
        fun h => absurd h.1 (by simp [groupInst, Instance.binType])⟩⟩
  · intro b hb r hr
    simp only [groupInst, List.mem_singleton] at hb
    subst hb
    simp at hr

/-- **C06** fails for the reported length, and so for the waste: grouping moves
another bin to the last place. -/
theorem group_changes_length : ∃ (inst : Instance) (s s' : Solution), Reachable inst s
    ∧ groupIdenticalBins inst s = .ok s' ∧ s'.length ≠ s.length ∧ s'.waste ≠ s.waste := by
  let s' := Examples.okD {} (groupIdenticalBins groupInst groupSol)
  exact ⟨groupInst, groupSol, s', groupSol_reachable, by decide +kernel, by decide +kernel,
    by decide +kernel⟩

/-- **C06** fails for the profit when a resource is penalized: the penalty of a
group is counted once. -/
theorem group_changes_profit : ∃ (inst : Instance) (s s' : Solution), Reachable inst s
    ∧ groupIdenticalBins inst s = .ok s' ∧ s'.itemProfit ≠ s.itemProfit := by
  let inst : Instance := {
    objective := .knapsack
    itemTypes := [{ length := 1, profit := 3, copies := 2, copiesMin := 0, resourceIds := [[0]] }]
    binTypes := [{ length := 5, cost := 1, copies := 2, copiesMin := 0,
                   resources := [{ capacity := 0, penalize := true, penalty := 1,
                                   itemConsumptions := [[1]] }] }] }
  let ops : List BuilderOp := [.addBin 0 1, .addItem 0 0, .addBin 0 1, .addItem 1 0]
  let s := Examples.okD {} (SolutionBuilder.runOps inst ops)
  let s' := Examples.okD {} (groupIdenticalBins inst s)
  have hrun : SolutionBuilder.runOps inst ops = .ok s := by decide +kernel
  exact ⟨inst, s, s', .built ops s (by intro t c h; simp [ops] at h; omega) hrun,
    by decide +kernel, by decide +kernel⟩

/-! ## C07 -/

/-- **C07**: on a non-empty solution `enforce_bin_type_order` succeeds; the result
uses the bin types in order and says so; every bin type before the last used one is
used up, the last used one is used as often as before.  If the solution uses no bin
type more often than it is available, the result contains the same non-empty bins,
each the same number of times: only empty bins are added.  An empty solution is
returned unchanged. -/
theorem enforce_bin_type_order_correct (h : Reachable inst s)
    (hn : ∀ t, t < inst.numberOfBinTypes → 0 ≤ (inst.binType t).copies) :
    (s.bins = [] → enforceBinTypeOrder inst s = .ok s)
    ∧ (s.bins ≠ [] → ∃ s' last, enforceBinTypeOrder inst s = .ok s' ∧ Reachable inst s'
      ∧ s'.binTypeOrderFeasible = true ∧ OrderOk inst (packingOf s')
      ∧ (∃ b ∈ packingOf s, b.binTypeId = last) ∧ (∀ b ∈ packingOf s, b.binTypeId ≤ last)
      ∧ (∀ t, t < last → Spec.binCopies (packingOf s') t = (inst.binType t).copies)
      ∧ Spec.binCopies (packingOf s') last = Spec.binCopies (packingOf s) last
      ∧ (∀ t, last < t → Spec.binCopies (packingOf s') t = 0)
      ∧ ((∀ t, t < inst.numberOfBinTypes →
            Spec.binCopies (packingOf s) t ≤ (inst.binType t).copies) →
          (∀ t l, l ≠ [] →
            contentCopies (packingOf s') t l = contentCopies (packingOf s) t l)
          ∧ ∀ i, Spec.itemCopies (packingOf s') i = Spec.itemCopies (packingOf s) i)) := by
  have hg := h.good
  have hcop : ∀ b ∈ s.bins, 0 ≤ b.copies := fun b hb =>
    (hg.typed (viewBin b) (List.mem_map.mpr ⟨b, hb, rfl⟩)).2.1
  obtain ⟨hub, -, hex⟩ := lastUsed_spec' s
  refine ⟨fun he => ?_, fun hne => ?_⟩
  · unfold enforceBinTypeOrder
    rw [if_pos]
    unfold lastUsedBinType
    rw [he]; rfl
  · have hnm1 : lastUsedBinType s ≠ -1 := by
      intro e
      obtain ⟨b, hb⟩ := List.exists_mem_of_ne_nil _ hne
      have := hub b hb
      omega
    rcases hex with hex | ⟨b0, hb0, hbe⟩
    · exact absurd hex hnm1
    set last := (lastUsedBinType s).toNat with hl
    have hb0l : b0.binTypeId = last := by omega
    have hlast : last < inst.numberOfBinTypes := by
      rw [← hb0l]
      exact (hg.typed (viewBin b0) (List.mem_map.mpr ⟨b0, hb0, rfl⟩)).1
    have hle : ∀ b ∈ s.bins, b.binTypeId ≤ last := fun b hb => by
      have := hub b hb; omega
    obtain ⟨s', h1, hg', hv, hf⟩ := enforce_loop hg last hlast (fun t ht => hn t (by omega))
      (last + 1) (le_refl _)
    have hbc := fun u => blocks_binCopies (inst := inst) (s := s) last (last + 1) u
      (fun t ht => hn t (by omega))
    have hlt' : ∀ t, t < last → Spec.binCopies (packingOf s') t = (inst.binType t).copies := by
      intro t ht
      rw [hv, hbc, if_pos (by omega), if_pos ht]
    have hgt' : ∀ t, last < t → Spec.binCopies (packingOf s') t = 0 := by
      intro t ht
      rw [hv, hbc, if_neg (by omega)]
    refine ⟨s', last, ?_, ?_, hf, ?_, ⟨viewBin b0, List.mem_map.mpr ⟨b0, hb0, rfl⟩, hb0l⟩, ?_,
      hlt', ?_, hgt', ?_⟩
    · unfold enforceBinTypeOrder
      rw [if_neg hnm1]
      exact h1
    · refine foldlM_inv (P := Reachable inst) .init (fun t a b _ ha hb => ?_) h1
      unfold enforceStep at hb
      dsimp only at hb
      obtain ⟨s2, h2, h3⟩ := bind_ok.mp hb
      rw [mapM_pairs] at h2
      have hr2 : Reachable inst s2 := appendPairs_reachable _ ha
        (fun g hg => by obtain ⟨pos, -, rfl⟩ := List.mem_map.mp hg; exact zero_le_one) h2
      generalize (if t < last then (inst.binType t).copies
        else ((binPositions s t).length : Int)) = target at h3
      by_cases hgt : target > (binPositions s t).length
      · rw [if_pos hgt] at h3
        exact .appendEmptyBin _ _ _ _ hr2 (by omega) h3
      · rw [if_neg hgt] at h3
        cases h3
        exact hr2
    · intro t u htu hu hpos
      rcases Nat.lt_or_ge last u with hul | hul
      · rw [hgt' u hul] at hpos; exact absurd hpos (by decide)
      · exact hlt' t (by omega)
    · intro b hb
      obtain ⟨b', hb', rfl⟩ := List.mem_map.mp hb
      exact hle b' hb'
    · rw [hv, hbc, if_pos (by omega), if_neg (by omega), positions_length hcop]
    · intro hlim
      have hlim' : ∀ t, t < last →
          Spec.binCopies (packingOf s) t ≤ (inst.binType t).copies :=
        fun t ht => hlim t (by omega)
      refine ⟨fun t l hl => ?_, fun i => ?_⟩
      · rw [hv]
        exact blocks_sum (fun c t' l' => if t' = t ∧ l' = l then c else 0)
          (by intro a b t' l'; split_ifs <;> simp)
          (by intro a t'; rw [if_neg fun e => hl e.2.symm]) hcop last hle hlim'
      · rw [hv]
        exact blocks_sum (fun c _ l' => c * (l'.count i : Int)) (by intros; ring)
          (by intros; simp) hcop last hle hlim'

/-- Every bin of the result of `enforce_bin_type_order` is empty or has the type and
the items of a bin of the original solution. -/
theorem enforce_bin_type_order_bins {s' : Solution} (h : Reachable inst s)
    (hn : ∀ t, t < inst.numberOfBinTypes → 0 ≤ (inst.binType t).copies)
    (hrun : enforceBinTypeOrder inst s = .ok s') : ∀ b ∈ packingOf s', b.items = []
      ∨ ∃ b' ∈ packingOf s, b'.binTypeId = b.binTypeId ∧ b'.items = b.items := by
  have hg := h.good
  obtain ⟨hub, -, hex⟩ := lastUsed_spec' s
  unfold enforceBinTypeOrder at hrun
  by_cases hnm1 : lastUsedBinType s = -1
  · rw [if_pos hnm1] at hrun
    cases hrun
    exact fun b hb => .inr ⟨b, hb, rfl, rfl⟩
  · rw [if_neg hnm1] at hrun
    rcases hex with hex | ⟨b0, hb0, hbe⟩
    · exact absurd hex hnm1
    set last := (lastUsedBinType s).toNat with hl
    have hb0l : b0.binTypeId = last := by omega
    have hlast : last < inst.numberOfBinTypes := by
      rw [← hb0l]
      exact (hg.typed (viewBin b0) (List.mem_map.mpr ⟨b0, hb0, rfl⟩)).1
    obtain ⟨s1, h1, -, hv, -⟩ := enforce_loop hg last hlast (fun t ht => hn t (by omega))
      (last + 1) (le_refl _)
    rw [h1] at hrun
    cases hrun
    intro b hb
    rw [hv] at hb
    obtain ⟨t, -, hb⟩ := List.mem_flatMap.mp hb
    unfold block at hb
    dsimp only at hb
    rcases List.mem_append.mp hb with hb | hb
    · unfold groupView at hb
      rw [List.map_map] at hb
      obtain ⟨pos, hp, rfl⟩ := List.mem_map.mp hb
      have hlt := (mem_binPositions (List.mem_of_mem_take hp)).1
      refine .inr ⟨viewBin (at' s pos), List.mem_map.mpr ⟨at' s pos, ?_, rfl⟩, rfl, rfl⟩
      unfold at'
      rw [List.getD_eq_getElem _ _ hlt]
      exact List.getElem_mem hlt
    · left
      generalize (if t < last then (inst.binType t).copies else
        ((binPositions s t).length : Int)) = target at hb
      by_cases hgt : target > (binPositions s t).length
      · rw [if_pos hgt] at hb
        rw [List.mem_singleton.mp hb]
      · rw [if_neg hgt] at hb
        simp at hb

/-- A solution using only the second bin type, and the first one in the wrong order. -/
def orderInst : Instance := {
  objective := .binPacking
  itemTypes := [{ length := 5, profit := 1, copies := 3, copiesMin := 3, resourceIds := [[], []] }]
  binTypes := [{ length := 10, cost := 1, copies := 3, copiesMin := 0 },
    { length := 10, cost := 1, copies := 2, copiesMin := 0 }] }

def orderOps : List BuilderOp :=
  [.addBin 1 1, .addItem 0 0, .addItem 0 0, .addBin 0 1, .addItem 1 0]

def orderSol : Solution := Examples.okD {} (SolutionBuilder.runOps orderInst orderOps)

theorem orderSol_reachable : Reachable orderInst orderSol :=
  .built orderOps orderSol (by intro t c h; simp [orderOps] at h; omega) (by decide +kernel)

example : Reachable orderInst orderSol ∧ orderSol.bins ≠ []
    ∧ orderSol.binTypeOrderFeasible = false
    ∧ (∀ t, t < orderInst.numberOfBinTypes → 0 ≤ (orderInst.binType t).copies)
    ∧ (∀ t, t < orderInst.numberOfBinTypes →
      Spec.binCopies (packingOf orderSol) t ≤ (orderInst.binType t).copies) :=
  ⟨orderSol_reachable, by decide +kernel, by decide +kernel, by decide +kernel,
    by decide +kernel⟩

/-- Without the limit on bin copies items are lost: a solution that uses a bin type
more often than it is available is truncated. -/
theorem enforce_order_drops_items : ∃ (inst : Instance) (s s' : Solution), Reachable inst s
    ∧ (∀ t, t < inst.numberOfBinTypes → 0 ≤ (inst.binType t).copies)
    ∧ s.feasible = true ∧ enforceBinTypeOrder inst s = .ok s'
    ∧ s'.numberOfItems < s.numberOfItems ∧ s'.feasible = false := by
  let inst : Instance := {
    objective := .binPacking
    itemTypes := [{ length := 5, profit := 1, copies := 3, copiesMin := 3, resourceIds := [[], []] }]
    binTypes := [{ length := 10, cost := 1, copies := 1, copiesMin := 0 },
      { length := 10, cost := 1, copies := 2, copiesMin := 0 }] }
  let ops : List BuilderOp := [.addBin 0 2, .addItem 0 0, .addBin 1 1, .addItem 1 0]
  let s := Examples.okD {} (SolutionBuilder.runOps inst ops)
  let s' := Examples.okD {} (enforceBinTypeOrder inst s)
  have hrun : SolutionBuilder.runOps inst ops = .ok s := by decide +kernel
  exact ⟨inst, s, s', .built ops s (by intro t c h; simp [ops] at h; omega) hrun,
    by decide, by decide +kernel, by decide +kernel, by decide +kernel, by decide +kernel⟩

end PackingSolver.OneDim
