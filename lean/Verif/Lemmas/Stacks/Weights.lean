import Verif.Lemmas.Stacks.Reach
import Mathlib.Tactic.FieldSimp
import Mathlib.Tactic.LinearCombination

/-! Helper lemmas: the weight constraints. -/

namespace PackingSolver.Stacks

open Spec
open PackingSolver.Box (Rotation)

theorem within_iff (q : ℚ) (e : ExtQ) : Within q e ↔ ExtQ.exceeded q e = false := by
  cases e with
  | fin m => simp [Within, ExtQ.exceeded, pstol]
  | inf => simp [Within, ExtQ.exceeded]

/-- The axle weights computed by the code are the only ones that balance. -/
theorem balance_iff {d : TruckData} (hd : TruckOk d) (his : d.is = true) {w m : ℚ}
    (h a r : ℚ) : AxleBalance d w (m / w) h a r ↔ h = d.harnessWeight m w
      ∧ a = (d.computeAxleWeights m w).1 ∧ r = (d.computeAxleWeights m w).2 := by
  have h1 : (d.harnessRearAxleDistance : ℚ) ≠ 0 := by exact_mod_cast hd.1
  have h2 : (d.frontAxleMiddleAxleDistance : ℚ) ≠ 0 := by exact_mod_cast hd.2
  have e1 : (h * d.harnessRearAxleDistance
      = w * (d.trailerStartHarnessDistance + d.harnessRearAxleDistance - m / w)
        + d.emptyTrailerWeight * d.trailerGravityCenterRearAxleDistance)
      ↔ h = d.harnessWeight m w := by
    unfold TruckData.harnessWeight
    rw [eq_div_iff h1]
  simp only [TruckData.computeAxleWeights, his, Bool.not_true, Bool.false_eq_true, if_false]
  constructor
  · rintro ⟨a1, a2, a3⟩
    have hh := e1.mp a1
    refine ⟨hh, ?_, by rw [← hh]; linarith⟩
    rw [eq_div_iff h2, a3, hh]
  · rintro ⟨hh, ha, hr⟩
    refine ⟨e1.mpr hh, by rw [hr, hh]; ring, ?_⟩
    rw [ha, hh, div_mul_cancel₀ _ h2]

/-- The constraint checked for a group. -/
def groupFine (inst : Instance) (b : SolutionBin) (g : Nat) : Prop :=
  inst.checkWeightConstraints g = true →
    axleExceeded (inst.binType b.binTypeId).truck (b.weight.getD g 0)
      ((inst.binType b.binTypeId).truck.computeAxleWeights (b.weightWeightedSum.getD g 0)
        (b.weight.getD g 0)).1 (inst.binType b.binTypeId).truck.middleAxleMaximumWeight = false
    ∧ axleExceeded (inst.binType b.binTypeId).truck (b.weight.getD g 0)
      ((inst.binType b.binTypeId).truck.computeAxleWeights (b.weightWeightedSum.getD g 0)
        (b.weight.getD g 0)).2 (inst.binType b.binTypeId).truck.rearAxleMaximumWeight = false

theorem axleGroups_good {inst : Instance} {b : SolutionBin} (hb : BinGood inst b) (gs : List Nat)
    (hgs : ∀ g ∈ gs, g < inst.numberOfGroups) :
    ∃ r, axleGroups inst b gs = .ok r ∧ (r = true ↔ ∀ g ∈ gs, groupFine inst b g) := by
  induction gs with
  | nil => exact ⟨true, rfl, by simp⟩
  | cons g gs ih =>
    obtain ⟨r, hr, hi⟩ := ih (fun g hg => hgs g (List.mem_cons_of_mem _ hg))
    unfold axleGroups
    by_cases hc : inst.checkWeightConstraints g = true
    · have hg := hgs g (by simp)
      have l1 : b.weight[g]? = some (b.weight.getD g 0) := by
        have : g < b.weight.length := by rw [hb.weightLen]; exact hg
        rw [List.getD_eq_getElem _ _ this, List.getElem?_eq_getElem this]
      have l2 : b.weightWeightedSum[g]? = some (b.weightWeightedSum.getD g 0) := by
        have : g < b.weightWeightedSum.length := by rw [hb.momentLen]; exact hg
        rw [List.getD_eq_getElem _ _ this, List.getElem?_eq_getElem this]
      rw [hc, l1, l2]
      simp only [Bool.not_true, Bool.false_eq_true, if_false, List.forall_mem_cons]
      by_cases hm : axleExceeded (inst.binType b.binTypeId).truck (b.weight.getD g 0)
          ((inst.binType b.binTypeId).truck.computeAxleWeights (b.weightWeightedSum.getD g 0)
            (b.weight.getD g 0)).1 (inst.binType b.binTypeId).truck.middleAxleMaximumWeight = true
      · rw [if_pos hm]
        refine ⟨false, rfl, ?_⟩
        simp only [Bool.false_eq_true, false_iff]
        rintro ⟨h1, -⟩
        have := (h1 hc).1
        rw [hm] at this; simp at this
      rw [if_neg hm]
      by_cases hn : axleExceeded (inst.binType b.binTypeId).truck (b.weight.getD g 0)
          ((inst.binType b.binTypeId).truck.computeAxleWeights (b.weightWeightedSum.getD g 0)
            (b.weight.getD g 0)).2 (inst.binType b.binTypeId).truck.rearAxleMaximumWeight = true
      · rw [if_pos hn]
        refine ⟨false, rfl, ?_⟩
        simp only [Bool.false_eq_true, false_iff]
        rintro ⟨h1, -⟩
        have := (h1 hc).2
        rw [hn] at this; simp at this
      rw [if_neg hn]
      refine ⟨r, hr, ?_⟩
      rw [hi]
      constructor
      · exact fun h => ⟨fun _ => ⟨by simpa using hm, by simpa using hn⟩, h⟩
      · exact fun h => h.2
    · have hc' : inst.checkWeightConstraints g = false := by simpa using hc
      rw [hc']
      simp only [Bool.not_false, if_true, List.forall_mem_cons]
      refine ⟨r, hr, ?_⟩
      rw [hi]
      constructor
      · exact fun h => ⟨fun hc2 => absurd hc2 hc, h⟩
      · exact fun h => h.2

/-- The weights of a bin that has not been processed are not there to be read. -/
theorem axleGroups_empty {inst : Instance} {b : SolutionBin} (hw : b.weight = []) (gs : List Nat)
    (hc : ∃ g ∈ gs, inst.checkWeightConstraints g = true) :
    axleGroups inst b gs = .error .ub := by
  induction gs with
  | nil => simp at hc
  | cons g gs ih =>
    unfold axleGroups
    by_cases hg : inst.checkWeightConstraints g = true
    · rw [hg, hw]
      simp only [Bool.not_true, Bool.false_eq_true, if_false, List.getElem?_nil]
      cases b.weightWeightedSum[g]? <;> rfl
    · have hg' : inst.checkWeightConstraints g = false := by simpa using hg
      rw [hg']
      simp only [Bool.not_false, if_true]
      apply ih
      obtain ⟨x, hx, hx2⟩ := hc
      rcases List.mem_cons.mp hx with rfl | hx
      · exact absurd hx2 hg
      · exact ⟨x, hx, hx2⟩

theorem axleGroups_unchecked {inst : Instance} {b : SolutionBin} (gs : List Nat)
    (hc : ∀ g ∈ gs, inst.checkWeightConstraints g = false) :
    axleGroups inst b gs = .ok true := by
  induction gs with
  | nil => rfl
  | cons g gs ih =>
    unfold axleGroups
    rw [hc g (by simp)]
    exact ih fun g hg => hc g (List.mem_cons_of_mem _ hg)

theorem feasibleAxleWeights_good {inst : Instance} (bins : List SolutionBin)
    (hb : ∀ b ∈ bins, BinGood inst b) :
    ∃ r, feasibleAxleWeights inst bins = .ok r
      ∧ (r = true ↔ ∀ b ∈ bins, ∀ g, g < inst.numberOfGroups → groupFine inst b g) := by
  induction bins with
  | nil => exact ⟨true, rfl, by simp⟩
  | cons b bs ih =>
    obtain ⟨r, hr, hi⟩ := ih (fun b h => hb b (List.mem_cons_of_mem _ h))
    obtain ⟨r0, hr0, hi0⟩ := axleGroups_good (hb b (by simp)) (List.range inst.numberOfGroups)
      (fun g hg => List.mem_range.mp hg)
    unfold feasibleAxleWeights
    rw [hr0]
    simp only [List.mem_range] at hi0
    rw [List.forall_mem_cons]
    cases r0 with
    | false =>
      refine ⟨false, rfl, ?_⟩
      simp only [Bool.false_eq_true, false_iff] at hi0 ⊢
      exact fun h => hi0 h.1
    | true =>
      refine ⟨r, hr, ?_⟩
      rw [hi]
      exact ⟨fun h => ⟨hi0.mp rfl, h⟩, fun h => h.2⟩

theorem weight_head {inst : Instance} {b : SolutionBin} (hb : BinGood inst b)
    (ht : BinTyped inst (viewBin b)) :
    b.weight.headD 0 = weightFrom inst 0 (binItems (viewBin b)) := by
  by_cases h0 : 0 < inst.numberOfGroups
  · rw [← hb.weight 0 h0]
    cases hw : b.weight with
    | nil => rfl
    | cons a l => rfl
  · have hn : inst.numberOfGroups = 0 := by omega
    have hw : b.weight = [] := List.length_eq_zero_iff.mp (by rw [hb.weightLen, hn])
    have hi : binItems (viewBin b) = [] := by
      rw [List.eq_nil_iff_forall_not_mem]
      intro i hi
      have := (ht.2 i hi).2
      omega
    rw [hw, hi]; rfl

theorem totalWeight_good {inst : Instance} (bins : List SolutionBin)
    (hb : ∀ b ∈ bins, BinGood inst b) (ht : ∀ b ∈ bins, BinTyped inst (viewBin b)) :
    feasibleTotalWeight inst bins = true ↔ ∀ b ∈ bins, WeightOk inst (viewBin b) := by
  unfold feasibleTotalWeight
  rw [List.all_eq_true]
  refine forall_congr' fun b => forall_congr' fun hm => ?_
  rw [weight_head (hb b hm) (ht b hm), WeightOk, within_iff]
  simp [viewBin]

/-- The constraint checked for the groups is the one of the specification. -/
theorem groupFine_iff {inst : Instance} {b : SolutionBin} (hb : BinGood inst b)
    (ht : b.binTypeId < inst.numberOfBinTypes) (hT : TrucksOk inst) :
    (∀ g, g < inst.numberOfGroups → groupFine inst b g) ↔ AxlesOk inst (viewBin b) := by
  have hT' := hT b.binTypeId ht
  have hvt : (viewBin b).binTypeId = b.binTypeId := rfl
  unfold AxlesOk
  rw [hvt]
  cases his : (inst.binType b.binTypeId).truck.is with
  | false =>
    obtain ⟨w1, w2⟩ := hT'.2 his
    simp only [Bool.false_eq_true, false_imp_iff, iff_true]
    intro g _ _
    simp only [axleExceeded, TruckData.computeAxleWeights, his, Bool.false_and, Bool.false_eq_true,
      if_false, Bool.not_false, if_true]
    exact ⟨(within_iff _ _).mp w1, (within_iff _ _).mp w2⟩
  | true =>
    have hd := hT'.1 his
    simp only [true_imp_iff]
    refine forall_congr' fun g => forall_congr' fun hg => ?_
    unfold groupFine
    refine forall_congr' fun _ => ?_
    rw [hb.weight g hg, hb.moment g hg]
    by_cases hw : weightFrom inst g (binItems (viewBin b)) = 0
    · simp [axleExceeded, his, hw]
    · simp only [axleExceeded, hw, decide_false, Bool.and_false, Bool.false_eq_true, if_false,
        ne_eq, not_false_eq_true, true_imp_iff]
      constructor
      · intro h hn m r hbal
        obtain ⟨-, e1, e2⟩ := (balance_iff hd his _ _ _).mp hbal
        rw [e1, e2, within_iff, within_iff]
        exact h
      · intro h
        have := h _ _ _ ((balance_iff hd his _ _ _).mpr ⟨rfl, rfl, rfl⟩)
        rw [within_iff, within_iff] at this
        exact this

/-- A sum of positive terms under a condition. -/
theorem foldl_guard_sum {α : Type} (l : List α) (P : α → Bool) (f : α → ℚ) (v : ℚ)
    (hf : ∀ a ∈ l, P a = true → 0 < f a) :
    v ≤ l.foldl (fun v a => if P a then v + f a else v) v
    ∧ (l.foldl (fun v a => if P a then v + f a else v) v = v ↔ ∀ a ∈ l, P a = false) := by
  induction l generalizing v with
  | nil => simp
  | cons a l ih =>
    rw [List.foldl_cons, List.forall_mem_cons]
    have hl := fun b hb => hf b (List.mem_cons_of_mem _ hb)
    by_cases hp : P a = true
    · rw [if_pos hp]
      have h1 := hf a (by simp) hp
      obtain ⟨i1, -⟩ := ih (v + f a) hl
      refine ⟨by linarith, ?_⟩
      constructor
      · intro e; linarith
      · intro e; rw [hp] at e; simp at e
    · rw [if_neg hp]
      have hp' : P a = false := by simpa using hp
      obtain ⟨i1, i2⟩ := ih v hl
      exact ⟨i1, by rw [i2]; exact ⟨fun h => ⟨hp', h⟩, fun h => h.2⟩⟩

/-- The maximum axle weights are not negative. -/
def AxleMaxNonneg (d : TruckData) : Prop :=
  (∀ m, d.middleAxleMaximumWeight = .fin m → 0 ≤ m) ∧ ∀ m, d.rearAxleMaximumWeight = .fin m → 0 ≤ m

theorem overweight_pos {q : ℚ} {e : ExtQ} (he : ∀ m, e = .fin m → 0 ≤ m)
    (h : ExtQ.exceeded q e = true) : 0 < ExtQ.overweight q e := by
  cases e with
  | inf => simp [ExtQ.exceeded] at h
  | fin m =>
    have := he m rfl
    simp only [ExtQ.exceeded, pstol, gt_iff_lt, decide_eq_true_eq] at h
    simp only [ExtQ.overweight]
    linarith

theorem axleExceeded_exceeded {d : TruckData} {w a : ℚ} {e : ExtQ}
    (h : axleExceeded d w a e = true) : ExtQ.exceeded a e = true := by
  unfold axleExceeded at h
  split_ifs at h
  exact h

/-- The violation of a bin is 0 exactly if the constraints checked for its groups hold. -/
theorem violation_bin {inst : Instance} {b : SolutionBin}
    (hm : AxleMaxNonneg (inst.binType b.binTypeId).truck) :
    0 ≤ middleViolation inst b ∧ 0 ≤ rearViolation inst b
    ∧ (middleViolation inst b = 0 ∧ rearViolation inst b = 0
      ↔ ∀ g, g < inst.numberOfGroups → groupFine inst b g) := by
  set d := (inst.binType b.binTypeId).truck with hd
  let A : Nat → ℚ × ℚ := fun g =>
    d.computeAxleWeights (b.weightWeightedSum.getD g 0) (b.weight.getD g 0)
  have e1 : middleViolation inst b = (List.range inst.numberOfGroups).foldl (fun v g =>
      if inst.checkWeightConstraints g
        && axleExceeded d (b.weight.getD g 0) (A g).1 d.middleAxleMaximumWeight
      then v + ((g : ℚ) + 1) * ExtQ.overweight (A g).1 d.middleAxleMaximumWeight else v) 0 := by
    unfold middleViolation
    congr 1
    funext v g
    cases inst.checkWeightConstraints g <;> simp [A, hd]
  have e2 : rearViolation inst b = (List.range inst.numberOfGroups).foldl (fun v g =>
      if inst.checkWeightConstraints g
        && axleExceeded d (b.weight.getD g 0) (A g).2 d.rearAxleMaximumWeight
      then v + ((g : ℚ) + 1) * ExtQ.overweight (A g).2 d.rearAxleMaximumWeight else v) 0 := by
    unfold rearViolation
    congr 1
    funext v g
    cases inst.checkWeightConstraints g <;> simp [A, hd]
  have hpos : ∀ g : Nat, (0 : ℚ) < (g : ℚ) + 1 := fun g => by positivity
  obtain ⟨i1, i2⟩ := foldl_guard_sum (List.range inst.numberOfGroups)
    (fun g => inst.checkWeightConstraints g
        && axleExceeded d (b.weight.getD g 0) (A g).1 d.middleAxleMaximumWeight)
    (fun g => ((g : ℚ) + 1) * ExtQ.overweight (A g).1 d.middleAxleMaximumWeight) 0
    (fun g _ h => mul_pos (hpos g) (overweight_pos hm.1
      (axleExceeded_exceeded (Bool.and_eq_true_iff.mp h).2)))
  obtain ⟨j1, j2⟩ := foldl_guard_sum (List.range inst.numberOfGroups)
    (fun g => inst.checkWeightConstraints g
        && axleExceeded d (b.weight.getD g 0) (A g).2 d.rearAxleMaximumWeight)
    (fun g => ((g : ℚ) + 1) * ExtQ.overweight (A g).2 d.rearAxleMaximumWeight) 0
    (fun g _ h => mul_pos (hpos g) (overweight_pos hm.2
      (axleExceeded_exceeded (Bool.and_eq_true_iff.mp h).2)))
  rw [e1, e2]
  refine ⟨i1, j1, ?_⟩
  rw [i2, j2]
  simp only [List.mem_range, Bool.and_eq_false_iff]
  constructor
  · rintro ⟨h1, h2⟩ g hg hc
    have k1 := h1 g hg
    have k2 := h2 g hg
    rw [hc] at k1 k2
    simp only [Bool.true_eq_false, false_or] at k1 k2
    exact ⟨k1, k2⟩
  · intro h
    constructor
    · intro g hg
      cases hc : inst.checkWeightConstraints g with
      | false => exact .inl rfl
      | true => exact .inr (h g hg hc).1
    · intro g hg
      cases hc : inst.checkWeightConstraints g with
      | false => exact .inl rfl
      | true => exact .inr (h g hg hc).2

theorem violation_bins {inst : Instance} (bins : List SolutionBin) (v : ℚ)
    (hm : ∀ b ∈ bins, AxleMaxNonneg (inst.binType b.binTypeId).truck) :
    v ≤ bins.foldl (fun v b => v + middleViolation inst b + rearViolation inst b) v
    ∧ (bins.foldl (fun v b => v + middleViolation inst b + rearViolation inst b) v = v
      ↔ ∀ b ∈ bins, ∀ g, g < inst.numberOfGroups → groupFine inst b g) := by
  induction bins generalizing v with
  | nil => simp
  | cons b bs ih =>
    rw [List.foldl_cons, List.forall_mem_cons]
    obtain ⟨h1, h2, h3⟩ := violation_bin (hm b (by simp))
    obtain ⟨i1, i2⟩ := ih (v + middleViolation inst b + rearViolation inst b)
      (fun b hb => hm b (List.mem_cons_of_mem _ hb))
    refine ⟨by linarith, ?_⟩
    rw [← h3]
    constructor
    · intro e
      have hz : middleViolation inst b = 0 ∧ rearViolation inst b = 0 :=
        ⟨by linarith, by linarith⟩
      refine ⟨hz, i2.mp ?_⟩
      rw [e, hz.1, hz.2]; ring
    · rintro ⟨hz, h⟩
      rw [i2.mpr h, hz.1, hz.2]; ring

end PackingSolver.Stacks
