import Verif.Lemmas.Rect.Scales
import Verif.Props.Rect.Dff
import Mathlib.Order.Interval.Finset.Basic
import Mathlib.Data.Int.Interval
import Mathlib.Data.Fintype.Pi
import Mathlib.Order.Interval.Finset.Fin
import Mathlib.Data.Pi.Interval
import Mathlib.Data.Set.Finite.Lemmas

/-!
# Property C41: conservative scales
-/

namespace PackingSolver.Rect

open Scales ScaleLemmas
open _root_.PackingSolver.Rect.Spec

variable {inst : Instance}

/-- **C41**: if the rescaled widths and heights are conservative, the bound of the pair is at most
the number of bins of every packing of all items. -/
theorem scales_bound_valid (h : Positive inst) (h1 : inst.numberOfBinTypes = 1)
    (ho : inst.allItemTypesOriented = true) {a b : List ℚ}
    (ha : Conservative inst (·.x) (inst.binType 0).x a 0)
    (hb : Conservative inst (·.y) (inst.binType 0).y b 0) {bins : List (List PlacedItem)}
    (hp : FullPacking inst bins) :
    boundForPair inst a b (((inst.binType 0).x : ℚ) * ((inst.binType 0).y : ℚ)) ≤ bins.length := by
  have hpos := DffLemmas.bin0 h (binTypes_ne h1)
  refine boundForPair_le h ho rfl rfl hpos.1 hpos.2 ha hb hp ?_
  have hA : (0 : ℚ) ≤ ((inst.binType 0).x : ℚ) * ((inst.binType 0).y : ℚ) := by
    exact_mod_cast (Int.mul_pos hpos.1 hpos.2).le
  have := mul_nonneg scaleTol_nonneg hA
  rw [add_zero, add_zero]
  linarith

/-- **C41** for the whole computation, for every LP solver that respects the variable bounds and
every exact knapsack solver: no reported bound exceeds the number of bins `m` of a packing of all
items, as long as `m (W + H + 10⁻⁶) ≤ W H`.

The suffix `_partial`: the full claim has no such condition, and without it the tolerance of
`10⁻⁶` accepted in each row of the linear programs is larger than what is subtracted from the bound
(`scales_tolerance_unsound`). -/
theorem scales_bounds_valid_partial {o : Oracles} (hkp : ExactKp o.kp) (hlp : NonnegLp o.lp)
    (h : Positive inst) {stop : Nat → Bool} {iterations : Nat} {bounds : List Int}
    (hr : conservativeScales o stop iterations inst = .ok bounds)
    {bins : List (List PlacedItem)} (hp : FullPacking inst bins)
    (hm : (bins.length : ℚ) * ((inst.binType 0).x + (inst.binType 0).y + 1 / 1000000)
      ≤ (inst.binType 0).x * (inst.binType 0).y) :
    ∀ b ∈ bounds, b ≤ bins.length := by
  unfold conservativeScales at hr
  split_ifs at hr with c1 c2 c3
  dsimp only at hr
  cases hr
  have h1 : inst.numberOfBinTypes = 1 := by omega
  have ho : inst.allItemTypesOriented = true := by simpa using c3
  have hpos := DffLemmas.bin0 h (binTypes_ne h1)
  have hdx : ∀ i, i < inst.numberOfItemTypes → 0 ≤ (inst.itemType i).x := fun i hi =>
    (h.items _ (DffLemmas.itemType_mem hi)).1.le
  have hdy : ∀ i, i < inst.numberOfItemTypes → 0 ≤ (inst.itemType i).y := fun i hi =>
    (h.items _ (DffLemmas.itemType_mem hi)).2.1.le
  have horig : ∀ (dim : ItemType → Int) (capacity : Int),
      (∀ i, i < inst.numberOfItemTypes → 0 ≤ dim (inst.itemType i)) →
      Conservative inst dim capacity ((inst.itemTypes.map dim).map fun x : Int => (x : ℚ)) 0 := by
    intro dim capacity hd
    refine conservative_congr (conservative_original hd fun _ => true) ?_
    intro i
    rw [getD_map_range]
    by_cases hi : i < inst.numberOfItemTypes
    · rw [if_pos hi, if_pos rfl, ← getD_dims dim hi]
      have hi' : i < inst.itemTypes.length := hi
      rw [List.getD_eq_getElem _ _ (by simpa using hi'),
        List.getD_eq_getElem _ _ (by simpa using hi')]
      simp
    · rw [if_neg hi, List.getD_eq_default]
      unfold Instance.numberOfItemTypes at hi
      simpa using hi
  have hx := horig (·.x) (inst.binType 0).x hdx
  have hy := horig (·.y) (inst.binType 0).y hdy
  refine scalesLoop_le hkp hlp h ho rfl rfl hpos.1 hpos.2 hp hm stop iterations 1 _ _ _ ?_ ?_ ?_
  · intro w hw
    rw [List.mem_singleton.1 hw]
    exact hx.mono scaleTol_nonneg
  · intro w hw
    rw [List.mem_singleton.1 hw]
    exact hy.mono scaleTol_nonneg
  · intro b hb
    rw [List.mem_singleton.1 hb]
    exact scales_bound_valid h h1 ho hx hy hp

/-- **C41** (Feasibility), under the same condition on the number of available bins: if the
instance is declared infeasible, the items cannot be packed in the available bins. -/
theorem scales_infeasible_valid_partial {o : Oracles} (hkp : ExactKp o.kp) (hlp : NonnegLp o.lp)
    (h : Positive inst) {stop : Nat → Bool} {iterations : Nat} {bounds : List Int}
    (hr : conservativeScales o stop iterations inst = .ok bounds)
    (hinf : provenInfeasible inst bounds = true)
    (hm : (inst.numberOfBins : ℚ) * ((inst.binType 0).x + (inst.binType 0).y + 1 / 1000000)
      ≤ (inst.binType 0).x * (inst.binType 0).y) :
    ∀ bins, FullPacking inst bins → ¬ bins.length ≤ inst.numberOfBins := by
  intro bins hp hle
  unfold provenInfeasible at hinf
  rw [Bool.and_eq_true, List.any_eq_true] at hinf
  obtain ⟨-, b, hb, hgt⟩ := hinf
  have hgt : b > (inst.numberOfBins : Int) := of_decide_eq_true hgt
  have h1 : inst.numberOfBinTypes = 1 := by
    unfold conservativeScales at hr
    split_ifs at hr with c1 c2 c3
    omega
  have hpos := DffLemmas.bin0 h (binTypes_ne h1)
  have := scales_bounds_valid_partial hkp hlp h hr hp (by
    refine le_trans (mul_le_mul_of_nonneg_right ?_ ?_) hm
    · exact_mod_cast hle
    · have h2 : (0 : ℚ) < (inst.binType 0).x := by exact_mod_cast hpos.1
      have h3 : (0 : ℚ) < (inst.binType 0).y := by exact_mod_cast hpos.2
      linarith) b hb
  omega

/-! ## The hypotheses can be met -/

/-- Exact knapsack solvers exist: a knapsack has finitely many selections. -/
theorem exists_exactKp : ∃ kp, ExactKp kp := by
  have : ∀ (capacity : Int) (items : List KpItem), ∃ sel : List Int, ∀ x,
      KpFeasible capacity items x → kpProfit items x ≤ kpProfit items fun k => sel.getD k 0 := by
    intro capacity items
    let ext : (Fin items.length → Int) → Nat → Int := fun x k =>
      if h : k < items.length then x ⟨k, h⟩ else 0
    let S : Set (Fin items.length → Int) := {x | KpFeasible capacity items (ext x)}
    have hfin : S.Finite := by
      refine Set.Finite.subset (Set.finite_Icc (fun _ => (0 : Int))
        fun k : Fin items.length => (items.getD k default).copies) ?_
      intro x hx
      refine ⟨fun k => ?_, fun k => ?_⟩
      · have := (hx.1 k k.2).1
        simpa [ext] using this
      · have := (hx.1 k k.2).2
        simpa [ext] using this
    have hcongr : ∀ x : Nat → Int, kpProfit items (ext fun k => x k) = kpProfit items x := by
      intro x
      unfold kpProfit
      congr 1
      refine List.map_congr_left fun k hk => ?_
      have hk := List.mem_range.1 hk
      simp [ext, hk]
    have hfeas : ∀ x : Nat → Int, KpFeasible capacity items x →
        (fun k : Fin items.length => x k) ∈ S := by
      intro x hx
      refine ⟨fun k hk => ?_, ?_⟩
      · have := hx.1 k hk
        simpa [ext, hk] using this
      · refine le_trans (le_of_eq ?_) hx.2
        congr 1
        refine List.map_congr_left fun k hk => ?_
        have hk := List.mem_range.1 hk
        simp [ext, hk]
    by_cases hne : S.Nonempty
    · obtain ⟨y, _, hy⟩ := Set.exists_max_image S (fun x => kpProfit items (ext x)) hfin hne
      refine ⟨(List.range items.length).map (ext y), fun x hx => ?_⟩
      have h1 := hy _ (hfeas x hx)
      rw [hcongr] at h1
      refine le_trans h1 (le_of_eq ?_)
      unfold kpProfit
      congr 1
      refine List.map_congr_left fun k hk => ?_
      dsimp only
      rw [getD_map_range, if_pos (List.mem_range.1 hk)]
    · exact ⟨[], fun x hx => absurd ⟨_, hfeas x hx⟩ hne⟩
  choose kp h using this
  exact ⟨kp, h⟩

noncomputable def anyExactKp : Int → List KpItem → List Int := Classical.choose exists_exactKp

/-- An exact knapsack solver that takes as many copies as possible of a single item type. -/
noncomputable def exactKp (capacity : Int) (items : List KpItem) : List Int :=
  match items with
  | [it] => if 0 < it.length ∧ 0 ≤ it.profit then [min it.copies (capacity / it.length)]
    else anyExactKp capacity [it]
  | items => anyExactKp capacity items

theorem exactKp_exact : ExactKp exactKp := by
  intro capacity items x hx
  unfold exactKp
  split
  · rename_i it
    split_ifs with h
    · obtain ⟨h1, h2⟩ := hx
      have h3 := h1 0 (by simp)
      simp only [List.length_singleton, List.range_one, List.map_cons, List.map_nil,
        List.sum_cons, List.sum_nil, List.getD_cons_zero, add_zero] at h2 h3
      simp only [kpProfit, List.length_singleton, List.range_one, List.map_cons, List.map_nil,
        List.sum_cons, List.sum_nil, List.getD_cons_zero, add_zero]
      refine mul_le_mul_of_nonneg_left ?_ h.2
      have h4 : x 0 ≤ capacity / it.length := by
        rw [Int.le_ediv_iff_mul_le h.1]
        linarith
      exact_mod_cast le_min h3.2 h4
    · exact Classical.choose_spec exists_exactKp _ _ _ hx
  · exact Classical.choose_spec exists_exactKp _ _ _ hx

/-- Five oriented 6 × 6 items in 11 × 11 bins: each of them is rescaled to the whole bin. -/
def scaleInst (o : Objective) (copies : Nat) : Instance := {
  objective := o
  itemTypes := [{ x := 6, y := 6, copies := 5, oriented := true }]
  binTypes := [{ x := 11, y := 11, copies := copies }]
  numberOfItems := 5
  binTypeIds := List.replicate copies 0 }

/-- Solvers that are right for `scaleInst`. -/
noncomputable def scaleOracles : Oracles where
  lp := fun p => [max (p.capacity : ℚ) 0]
  kp := exactKp

/-- The original areas give two bins, the rescaled ones five. -/
example : Positive (scaleInst .binPacking 5) ∧ ExactKp scaleOracles.kp ∧
    NonnegLp scaleOracles.lp ∧
    conservativeScales scaleOracles (fun _ => false) 3 (scaleInst .binPacking 5)
      = .ok [2, 3, 3, 5, 3, 5, 3, 5, 5] ∧
    FullPacking (scaleInst .binPacking 5) (List.replicate 5 [⟨0, 0, 0, false⟩]) ∧
    ((5 : Nat) : ℚ) * (11 + 11 + 1 / 1000000) ≤ 11 * 11 := by
  refine ⟨⟨by decide, by decide⟩, exactKp_exact, ?_, by decide +kernel,
    fullPacking_of (by decide +kernel) (by decide +kernel), by norm_num⟩
  intro p v hv
  rw [List.mem_singleton.1 hv]
  exact le_max_right _ _

/-- Declared infeasible with four bins. -/
example : (match conservativeScales scaleOracles (fun _ => false) 3 (scaleInst .feasibility 4) with
      | .ok bounds => provenInfeasible (scaleInst .feasibility 4) bounds
      | .error _ => false) = true ∧
    ((4 : Nat) : ℚ) * (11 + 11 + 1 / 1000000) ≤ 11 * 11 :=
  ⟨by decide +kernel, by norm_num⟩

/-! ## The tolerance -/

/-- An LP answer satisfies the rows and bounds of the linear program up to `e`. -/
def AlmostFeasible (e : ℚ) (p : ScaleLp) (answer : List ℚ) : Prop :=
  (∀ v ∈ answer, 0 ≤ v ∧ v ≤ p.capacity + e) ∧
  ∀ row ∈ p.rows, (List.zipWith (fun i v => (row.getD i 0 : ℚ) * v) p.eligible answer).sum
    ≤ p.capacity + e

/-- 42 oriented 1 × 2 items in 2 × 2 bins. -/
def tightInst : Instance := {
  objective := .binPacking
  itemTypes := [{ x := 1, y := 2, copies := 42, oriented := true }]
  binTypes := [{ x := 2, y := 2, copies := 42 }]
  numberOfItems := 42
  binTypeIds := List.replicate 42 0 }

/-- An LP solver that is exact up to its feasibility tolerance of `10⁻⁷` on the linear programs
of `tightInst`, and an exact knapsack solver. -/
noncomputable def tightOracles : Oracles where
  lp := fun p => if p.rows = [] then [max (p.capacity : ℚ) 0] else [1 + 1 / 20000000]
  kp := exactKp

/-- **C41** fails without the condition of `scales_bounds_valid_partial`: with an LP solver whose
answers are within `10⁻⁷` of being feasible, a bound of 22 bins is reported although all items
fit in 21 bins. -/
theorem scales_tolerance_unsound :
    Positive tightInst ∧ ExactKp tightOracles.kp ∧ NonnegLp tightOracles.lp ∧
    (∀ p, (p.rows = [] ∧ 0 ≤ p.capacity ∨ p = ⟨[0], 2, p.weights, [[2]]⟩) →
      AlmostFeasible (1 / 10000000) p (tightOracles.lp p)) ∧
    (∃ bins, FullPacking tightInst bins ∧ bins.length = 21) ∧
    ∃ bounds, conservativeScales tightOracles (fun _ => false) 1 tightInst = .ok bounds ∧
      22 ∈ bounds := by
  refine ⟨⟨by decide, by decide⟩, exactKp_exact, ?_, ?_,
    ⟨List.replicate 21 [⟨0, 0, 0, false⟩, ⟨0, 1, 0, false⟩],
      fullPacking_of (by decide +kernel) (by decide +kernel), by decide⟩, ?_⟩
  · intro p v hv
    simp only [tightOracles] at hv
    split_ifs at hv
    · rw [List.mem_singleton.1 hv]
      exact le_max_right _ _
    · rw [List.mem_singleton.1 hv]
      norm_num
  · intro p hp
    rcases hp with ⟨h1, h2⟩ | h1
    · have h2 : (0 : ℚ) ≤ p.capacity := by exact_mod_cast h2
      refine ⟨?_, by rw [h1]; simp⟩
      intro v hv
      simp only [tightOracles] at hv
      rw [if_pos h1, List.mem_singleton] at hv
      rw [hv, max_eq_left h2]
      constructor <;> linarith
    · rw [h1]
      refine ⟨?_, ?_⟩
      · intro v hv
        simp [tightOracles] at hv
        rw [hv]
        norm_num
      · simp [tightOracles]
        norm_num
  · refine ⟨_, rfl, ?_⟩
    decide +kernel

end PackingSolver.Rect
