import Verif.Lemmas.OneDim.DynamicProgramming
import Verif.Lemmas.OneDim.Plain
import Verif.Spec.OneDimBuild
import Verif.Props.OneDim.Build

/-!
# C27: dynamic programming for a single knapsack
-/

namespace PackingSolver.OneDim

open OneDim.Spec PackingSolver.Spec PackingLemmas BoundLemmas DpLemmas
open scoped List

open InstanceBuilder

variable {inst : Instance}

/-- **C27** (splitting): every number of copies from 0 to `copies` whose weight fits is the sum
of some of the chunks, and no selection of chunks has more than `copies` copies. -/
theorem split_represents {copies weight capacity : Int} (hcap : 0 ≤ capacity) :
    (∀ n, 0 ≤ n → n ≤ copies → n * weight ≤ capacity →
      ∃ s, s <+ splitCopies copies weight capacity ∧ s.sum = n)
    ∧ ∀ s, s <+ splitCopies copies weight capacity → 0 ≤ s.sum ∧ s.sum ≤ max copies 0 := by
  refine ⟨fun n h0 hn hw => ?_, fun s hs => ?_⟩
  · obtain ⟨s, h1, h2, h3⟩ := splitLoop_cover hcap copies.toNat 0 (le_refl _) (by omega) n h0 hn hw
    exact ⟨s, h1, by omega⟩
  · obtain ⟨h1, h2⟩ := splitLoop_bound (copies := copies) (w := weight) (cap := capacity)
      copies.toNat 0 1 (le_refl _) (by omega)
    refine ⟨List.sum_nonneg fun x hx => ?_, ?_⟩
    · have := h1 x (hs.subset hx); omega
    · have := hs.sum_le_sum (fun x hx => by have := h1 x hx; omega)
      unfold splitCopies at *
      omega

/-- Eleven copies of length 3 in a bin of length 20: chunks 1, 2, 4, 4 represent 0 to 6; 7
to 11 are representable too although they do not fit. -/
example : splitCopies 11 3 20 = [1, 2, 4, 4] ∧ splitCopies 6 3 100 = [1, 2, 3]
    ∧ (6 : Int) * 3 ≤ 20 := by decide

/-- A multiset of copies: at most `copies` of each eligible item type, of total reduced length
at most the length of the bin. -/
structure FitsOneBin (inst : Instance) (x : Nat → Int) : Prop where
  nonneg : ∀ i, 0 ≤ x i
  copies : ∀ i, x i ≤ (inst.itemType i).copies ∨ x i = 0
  eligible : ∀ i, x i ≠ 0 → i < inst.numberOfItemTypes ∧ EligibleIn inst i 0
  length : ∑ i ∈ Finset.range inst.numberOfItemTypes,
    x i * ((inst.itemType i).length - max (inst.itemType i).nestingLength 0)
      ≤ (inst.binType 0).length

/-- **C27** (optimum): the items chosen with an exact knapsack solver have the largest profit
among all the multisets of copies that fit. -/
theorem dp_selection_optimal (ha : Aggregates inst) (h1 : inst.numberOfBinTypes = 1)
    (hcap : 0 ≤ (inst.binType 0).length)
    (hcop : ∀ i, i < inst.numberOfItemTypes → 0 ≤ (inst.itemType i).copies)
    (hlen : ∀ i, i < inst.numberOfItemTypes → 0 ≤ reducedLength (inst.itemType i))
    {mask : List Bool} (hm : OptimalSelection (kpItems inst) (inst.binType 0).length mask) :
    FitsOneBin inst (fun i => (dpItems inst mask).count i)
    ∧ ∀ x, FitsOneBin inst x →
      ∑ i ∈ Finset.range inst.numberOfItemTypes, (x i : ℚ) * (inst.itemType i).profit
        ≤ itemsProfit inst (dpItems inst mask) := by
  obtain ⟨hnd, hids⟩ := ha.itemTypeIds 0 (by omega)
  have hlt : ∀ i ∈ dpItems inst mask, i < inst.numberOfItemTypes :=
    fun i hi => ((hids i).mp (dpItems_mem hi)).1
  have hpos : ∀ y ∈ marked (kp2ps inst) mask, 1 ≤ y.2 :=
    fun y hy => (kp2ps_mem ((marked_sublist _ _).subset hy)).2
  constructor
  · refine ⟨fun i => by positivity, fun i => ?_, fun i hi => ?_, ?_⟩
    · by_cases hi : i ∈ dpItems inst mask
      · left
        have := count_dpItems_le (mask := mask) hnd i
        have := hcop i (hlt i hi)
        show (((dpItems inst mask).count i : Nat) : Int) ≤ _
        omega
      · right; simpa using List.count_eq_zero_of_not_mem hi
    · have : i ∈ dpItems inst mask := by
        by_contra h
        exact hi (by simpa using List.count_eq_zero_of_not_mem h)
      exact (hids i).mp (dpItems_mem this)
    · have h2 := sum_map_count (R := Int) (fun i => reducedLength (inst.itemType i)) _ _ hlt
      refine le_trans (le_of_eq ?_) hm.fits
      refine (h2.symm.trans ?_ : _)
      unfold dpItems
      rw [sum_replicates _ _ hpos]
      unfold kpItems
      rw [selectionWeight_marked]
      rfl
  · intro x hx
    have hzero : ∀ i, i ∉ (inst.binType 0).itemTypeIds → x i = 0 := by
      intro i hi
      by_contra h
      exact hi ((hids i).mpr (hx.eligible i h))
    have hsum : ∀ {R : Type} [CommRing R] (f : Nat → R),
        ((inst.binType 0).itemTypeIds.map fun i => (x i : R) * f i).sum
          = ∑ i ∈ Finset.range inst.numberOfItemTypes, (x i : R) * f i := by
      intro R _ f
      rw [← List.sum_toFinset _ hnd]
      refine Finset.sum_subset ?_ ?_
      · intro i hi
        rw [List.mem_toFinset] at hi
        exact Finset.mem_range.mpr ((hids i).mp hi).1
      · intro i _ hi
        rw [List.mem_toFinset] at hi
        rw [hzero i hi]; simp
    have hterm : ∀ i ∈ Finset.range inst.numberOfItemTypes,
        0 ≤ x i * reducedLength (inst.itemType i) := fun i hi =>
      mul_nonneg (hx.nonneg i) (hlen i (Finset.mem_range.mp hi))
    obtain ⟨s, hs, hs2⟩ := kp2ps_cover hcap x (inst.binType 0).itemTypeIds
      (fun i _ => hx.nonneg i) (fun i hi => by
        rcases hx.copies i with h | h
        · exact h
        · rw [h]; exact hcop i ((hids i).mp hi).1) (fun i hi => by
        refine le_trans ?_ hx.length
        exact Finset.single_le_sum (f := fun i => x i * reducedLength (inst.itemType i)) hterm
          (Finset.mem_range.mpr ((hids i).mp hi).1))
    obtain ⟨m', hm1, hm2⟩ := exists_mask hs
    have hbest := hm.best m' (by rw [hm1]; simp [kpItems, kp2ps]) (by
      unfold kpItems
      rw [selectionWeight_marked]
      have : marked (kp2ps inst) m' = s := hm2
      rw [this]
      have h3 := hs2 (R := Int) (fun i => reducedLength (inst.itemType i))
      rw [hsum] at h3
      simp only [Int.cast_id] at h3
      rw [h3]
      exact hx.length)
    have hp1 : selectionProfit (kpItems inst) m'
        = ∑ i ∈ Finset.range inst.numberOfItemTypes, (x i : ℚ) * (inst.itemType i).profit := by
      unfold kpItems
      rw [selectionProfit_marked]
      have : marked (kp2ps inst) m' = s := hm2
      rw [this, ← hsum, ← hs2]
    have hp2 : selectionProfit (kpItems inst) mask = itemsProfit inst (dpItems inst mask) := by
      unfold itemsProfit dpItems
      rw [sum_replicates _ _ hpos]
      unfold kpItems
      rw [selectionProfit_marked]
    rw [← hp1, ← hp2]
    exact hbest

/-- **C27** (bound; `_partial`: requires that no resource is penalized, see
`dp_bound_with_penalties`): the algorithm terminates normally, the bound it reports is at least
the profit of every admissible packing, and the solution it reports, if any, is a feasible
packing of exactly this profit, hence optimal. -/
theorem dp_bound_valid_partial (ha : Aggregates inst) (h1 : inst.numberOfBinTypes = 1)
    (hc1 : (inst.binType 0).copies = 1)
    (hcap : 0 ≤ (inst.binType 0).length)
    (hcop : ∀ i, i < inst.numberOfItemTypes → 0 ≤ (inst.itemType i).copies)
    (hlen : ∀ i, i < inst.numberOfItemTypes → 0 ≤ reducedLength (inst.itemType i))
    (hpen : ∀ b ∈ inst.binTypes, ∀ r ∈ b.resources, r.penalize = false)
    (hrc : CapacitiesNonneg inst) (hrn : ConsumptionsNonneg inst)
    {knapsack : List (ℚ × Int) → Int → List Bool}
    (hm : OptimalSelection (kpItems inst) (inst.binType 0).length
      (knapsack (kpItems inst) (inst.binType 0).length)) :
    ∃ r bound, dynamicProgramming inst knapsack = .ok (r, bound)
      ∧ (∀ p, Admissible inst p → profit inst p ≤ bound)
      ∧ ∀ s, r = some s → Reachable inst s ∧ Feasible inst (packingOf s)
        ∧ numberOfBins (packingOf s) = 1 ∧ profit inst (packingOf s) = bound := by
  generalize hmask : knapsack (kpItems inst) (inst.binType 0).length = mask at hm
  obtain ⟨-, hopt⟩ := dp_selection_optimal ha h1 hcap hcop hlen hm
  obtain ⟨hnd, hids⟩ := ha.itemTypeIds 0 (by omega)
  have hty : WellTyped inst [⟨0, 1, dpItems inst mask⟩] := by
    intro b hb
    rw [List.mem_singleton] at hb
    subst hb
    exact ⟨by show 0 < _; omega, by show (0 : Int) ≤ 1; decide, fun i hi => ((hids i).mp (dpItems_mem hi)).1⟩
  obtain ⟨s, hs, hps⟩ := CertificateLemmas.runOps_progress hty
  rw [← dpOps_eq] at hs
  have hreach : Reachable inst s := .built _ s (by
    intro t c h
    simp [dpOps] at h
    omega) hs
  have hpz : ∀ b : PackedBin, b.binTypeId < inst.numberOfBinTypes →
      penalties inst b.binTypeId b.items = 0 := by
    intro b hb
    unfold penalties
    apply List.sum_eq_zero
    intro x hx
    obtain ⟨r, hr, rfl⟩ := List.mem_map.mp hx
    have hmem : inst.binType b.binTypeId ∈ inst.binTypes := by
      unfold Instance.binType
      rw [List.getD_eq_getElem _ _ hb]; exact List.getElem_mem _
    rw [hpen _ hmem r hr]
    simp
  have hprof := profit_exact hreach ha.resourceIds hrc hrn
  have hbound : s.itemProfit = itemsProfit inst (dpItems inst mask) := by
    rw [hprof, hps]
    unfold profit
    simp [hpz ⟨0, 1, dpItems inst mask⟩ (by show 0 < _; omega)]
  refine ⟨if s.feasible then some s else none, s.itemProfit, ?_, fun p hp => ?_, fun s' hs' => ?_⟩
  · unfold dynamicProgramming
    rw [hmask, hs]
    rfl
  · have hpp : profit inst p = ∑ i ∈ Finset.range inst.numberOfItemTypes,
        (itemCopies p i : ℚ) * (inst.itemType i).profit := by
      rw [← items_sum (R := ℚ) (fun i => (inst.itemType i).profit) hp.typed]
      unfold profit
      congr 1
      refine List.map_congr_left fun b hb => ?_
      rw [hpz b (hp.typed b hb).1, sub_zero]
      rfl
    rw [hpp, hbound]
    have hx0 : ∀ i, ¬ i < inst.numberOfItemTypes → itemCopies p i = 0 := by
      intro i hi
      unfold itemCopies
      apply List.sum_eq_zero
      intro x hx
      obtain ⟨b, hb, rfl⟩ := List.mem_map.mp hx
      have : b.items.count i = 0 := List.count_eq_zero_of_not_mem fun h =>
        hi ((hp.typed b hb).2.2 i h)
      rw [this]; simp
    apply hopt
    refine ⟨fun i => itemCopies_nonneg hp.typed i, fun i => ?_, fun i hi => ?_, ?_⟩
    · by_cases hi : i < inst.numberOfItemTypes
      · exact .inl (hp.feasible.copies i hi).2
      · exact .inr (hx0 i hi)
    · have hlt : i < inst.numberOfItemTypes := by
        by_contra h; exact hi (hx0 i h)
      refine ⟨hlt, ?_⟩
      have : ∃ b ∈ p, i ∈ b.items := by
        by_contra h
        push Not at h
        apply hi
        unfold itemCopies
        apply List.sum_eq_zero
        intro x hx
        obtain ⟨b, hb, rfl⟩ := List.mem_map.mp hx
        rw [List.count_eq_zero_of_not_mem (h b hb)]; simp
      obtain ⟨b, hb, hib⟩ := this
      have he := (hp.feasible.bins b hb).eligible i hib
      have : b.binTypeId = 0 := by have := (hp.typed b hb).1; omega
      rwa [this] at he
    · have ht := total_load hp.typed
      refine le_trans (le_of_eq ht.symm) ?_
      have hnb := DffLemmas.numberOfBins_le_copies hp h1
      rw [hc1] at hnb
      calc (p.map fun b => b.copies * load inst b.items).sum
          ≤ (p.map fun b => b.copies * (inst.binType 0).length).sum := by
            apply List.sum_le_sum
            intro b hb
            apply mul_le_mul_of_nonneg_left _ (hp.typed b hb).2.1
            have h2 := load_le (hp.feasible.bins b hb).fits
            have h3 : b.binTypeId = 0 := by have := (hp.typed b hb).1; omega
            rw [h3, max_eq_left hcap] at h2
            exact h2
        _ = numberOfBins p * (inst.binType 0).length := by
            rw [List.sum_map_mul_right]; rfl
        _ ≤ (inst.binType 0).length := by nlinarith
  · have hf : s.feasible = true ∧ s' = s := by
      by_cases h : s.feasible = true
      · rw [if_pos h] at hs'; exact ⟨h, (Option.some.inj hs').symm⟩
      · rw [if_neg h] at hs'; cases hs'
    obtain ⟨hf, rfl⟩ := hf
    refine ⟨hreach, ?_, ?_, hprof.symm⟩
    · refine (feasible_iff hreach ha.resourceIds hrc hcop ?_).mp hf
      intro h
      have : packingOf s' = [] := by unfold packingOf; rw [h]; rfl
      rw [hps] at this; cases this
    · rw [hps]; rfl

/-- An exact knapsack solver exists, whatever the instance. -/
theorem exact_knapsack_exists : ∃ knapsack : List (ℚ × Int) → Int → List Bool,
    ∀ items capacity, 0 ≤ capacity → OptimalSelection items capacity (knapsack items capacity) := by
  classical
  refine ⟨fun items capacity => if h : 0 ≤ capacity then (exists_optimal items h).choose else [],
    fun items capacity h => ?_⟩
  show OptimalSelection items capacity (if h : 0 ≤ capacity then _ else _)
  rw [dif_pos h]
  exact (exists_optimal items h).choose_spec

/-- One bin of length 20, items 6 (profit 7, 3 copies, nesting 1) and 4 (profit 4, 2 copies). -/
def dpInst : Instance where
  objective := .knapsack
  itemTypes := [
    { length := 6, profit := 7, copies := 3, copiesMin := 0, nestingLength := 1,
      resourceIds := [[]] },
    { length := 4, profit := 4, copies := 2, copiesMin := 0, resourceIds := [[]] }]
  binTypes := [{ length := 20, cost := 20, copies := 1, copiesMin := 0, itemTypeIds := [0, 1] }]
  binTypeIds := [0]

/-- Three long items and one short item, or two and two: the first one is better (25). -/
example : OptimalSelection (kpItems dpInst) 20 [true, true, true, false]
    ∧ dpItems dpInst [true, true, true, false] = [0, 0, 0, 1]
    ∧ kp2ps dpInst = [(0, 1), (0, 2), (1, 1), (1, 1)]
    ∧ Admissible dpInst [⟨0, 1, [0, 0, 0, 1]⟩]
    ∧ (match dynamicProgramming dpInst fun _ _ => [true, true, true, false] with
      | .ok (some s, b) => decide (b = 25 ∧ s.itemProfit = 25)
      | _ => false) = true :=
  ⟨optimal_of_all (by decide) (by decide +kernel) (by decide +kernel), by decide +kernel,
    by decide +kernel, plain_admissible (by decide +kernel) (by decide +kernel) rfl,
    by decide +kernel⟩

/-- The same instance from builder calls, with a hard resource: all the hypotheses of
`dp_bound_valid_partial` are met. -/
example : ∃ inst, runOps .knapsack [.addBinType 20, .addBinTypeResource 0 3 false 0,
      .addItemType 6, .setItemTypeProfit 0 7, .setItemTypeCopies 0 3,
      .setItemTypeNestingLength 0 1, .addResourceConsumption 0 0 0 0 2,
      .addItemType 4, .setItemTypeProfit 1 4, .setItemTypeCopies 1 2] = .ok inst
    ∧ Aggregates inst ∧ inst.numberOfBinTypes = 1 ∧ (inst.binType 0).copies = 1
    ∧ 0 ≤ (inst.binType 0).length
    ∧ (∀ i, i < inst.numberOfItemTypes → 0 ≤ (inst.itemType i).copies)
    ∧ (∀ i, i < inst.numberOfItemTypes → 0 ≤ reducedLength (inst.itemType i))
    ∧ (∀ b ∈ inst.binTypes, ∀ r ∈ b.resources, r.penalize = false)
    ∧ CapacitiesNonneg inst ∧ ConsumptionsNonneg inst
    ∧ OptimalSelection (kpItems inst) (inst.binType 0).length [true, true, true, false] := by
  have hev : (match runOps .knapsack [.addBinType 20, .addBinTypeResource 0 3 false 0,
      .addItemType 6, .setItemTypeProfit 0 7, .setItemTypeCopies 0 3,
      .setItemTypeNestingLength 0 1, .addResourceConsumption 0 0 0 0 2,
      .addItemType 4, .setItemTypeProfit 1 4, .setItemTypeCopies 1 2] with
    | .error _ => false
    | .ok inst => decide (inst.numberOfBinTypes = 1) && decide ((inst.binType 0).copies = 1)
        && decide ((inst.binType 0).length = 20)
        && decide (∀ i, i < inst.numberOfItemTypes → 0 ≤ (inst.itemType i).copies)
        && decide (∀ i, i < inst.numberOfItemTypes → 0 ≤ reducedLength (inst.itemType i))
        && decide (∀ b ∈ inst.binTypes, ∀ r ∈ b.resources, r.penalize = false)
        && decide (∀ b ∈ inst.binTypes, ∀ r ∈ b.resources, 0 ≤ r.capacity)
        && decide (∀ b ∈ inst.binTypes, ∀ r ∈ b.resources, ∀ s ∈ r.itemConsumptions,
          ∀ q ∈ s, 0 ≤ q)
        && decide (kpItems inst = [(7, 5), (14, 10), (4, 4), (4, 4)])) = true := by
    decide +kernel
  split at hev
  · cases hev
  · rename_i inst h
    simp only [Bool.and_eq_true, decide_eq_true_eq] at hev
    obtain ⟨⟨⟨⟨⟨⟨⟨⟨h1, h2⟩, h3⟩, h4⟩, h5⟩, h6⟩, h7⟩, h8⟩, h9⟩ := hev
    refine ⟨inst, h, build_aggregates h, h1, h2, by omega, h4, h5, h6, h7, h8, ?_⟩
    rw [h3, h9]
    exact optimal_of_all (by decide) (by decide +kernel) (by decide +kernel)

/-- The builder calls of the counterexample below: two items of which one fits; the more
profitable one exceeds a penalized resource. -/
def dpPenaltyCalls : List Op :=
  [.addBinType 10, .addBinTypeResource 0 1 true 8,
   .addItemType 6, .setItemTypeProfit 0 10, .addResourceConsumption 0 0 0 0 2,
   .addItemType 6, .setItemTypeProfit 1 5]

/-- **C27** fails with a penalized resource: the knapsack solver ignores the penalty, the bound
does not, so that the bound is smaller than the profit of an admissible packing. -/
theorem dp_bound_with_penalties : ∃ (inst : Instance) (p : Packing) (mask : List Bool) (bound : ℚ),
    runOps .knapsack dpPenaltyCalls = .ok inst ∧ inst.numberOfBins = 1
    ∧ OptimalSelection (kpItems inst) (inst.binType 0).length mask
    ∧ (∃ r, dynamicProgramming inst (fun _ _ => mask) = .ok (r, bound))
    ∧ Admissible inst p ∧ bound < profit inst p := by
  have hev : (match runOps .knapsack dpPenaltyCalls with
    | .error _ => false
    | .ok inst => decide (inst.numberOfBins = 1) && decide ((inst.binType 0).length = 10)
        && decide (kpItems inst = [(10, 6), (5, 6)])
        && (match dynamicProgramming inst fun _ _ => [true, false] with
          | .ok (_, b) => decide (b = 2)
          | _ => false)
        && plainInstance inst && plainPacking inst [⟨0, 1, [1]⟩]
        && inst.callback [⟨0, 1, [1]⟩] && decide (profit inst [⟨0, 1, [1]⟩] = 5)) = true := by
    decide +kernel
  cases h : runOps .knapsack dpPenaltyCalls with
  | error e => rw [h] at hev; cases hev
  | ok inst =>
    rw [h] at hev
    simp only [Bool.and_eq_true, decide_eq_true_eq] at hev
    obtain ⟨⟨⟨⟨⟨⟨⟨h1, h2⟩, h3⟩, h4⟩, h5⟩, h6⟩, h7⟩, h8⟩ := hev
    refine ⟨inst, [⟨0, 1, [1]⟩], [true, false], 2, rfl, h1, ?_, ?_, plain_admissible h5 h6 h7, ?_⟩
    · rw [h2, h3]
      exact optimal_of_all (by decide) (by decide +kernel) (by decide +kernel)
    · cases hd : dynamicProgramming inst fun _ _ => [true, false] with
      | error e => rw [hd] at h4; cases h4
      | ok r =>
        rw [hd] at h4
        obtain ⟨r1, b⟩ := r
        have : b = 2 := of_decide_eq_true h4
        exact ⟨r1, by rw [this]⟩
    · rw [h8]; norm_num

end PackingSolver.OneDim
