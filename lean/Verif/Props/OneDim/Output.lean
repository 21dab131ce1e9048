import Verif.Props.Output
import Verif.Props.OneDim.Compare
import Verif.Spec.OneDimOutput
import Verif.Lemmas.OneDim.Packing

/-!
# C19, C20 for one-dimensional instances
-/

namespace PackingSolver.OneDim

open OneDim.Spec PackingSolver.Spec OutputLemmas PackingLemmas

variable {inst : Instance}

/-- The state of the solver's output after a sequence of updates. -/
abbrev outputAfter (inst : Instance) (us : List (Update Solution)) : Formatter Solution :=
  (Formatter.new (outputParams inst) (Output.new (outputParams inst))).run (outputParams inst) us

/-- **C19** for one-dimensional instances: over every interleaving of updates, bounds
only improve, the best solution is only replaced by a better one, infeasibility and the
stop signal are never retracted, and the stop signal is raised at proven optimality. -/
theorem output_monotone (ho : SingleValue inst.objective) (us : List (Update Solution))
    (hus : ∀ s, Update.solution s ∈ us → NonnegValues s) (u : Update Solution)
    (hu : ∀ s, u = .solution s → NonnegValues s) :
    let f := outputAfter inst us
    let f' := outputAfter inst (us ++ [u])
    extLe f'.output.knapsackBound f.output.knapsackBound
    ∧ f.output.binPackingBound ≤ f'.output.binPackingBound
    ∧ f.output.variableSizedBinPackingBound ≤ f'.output.variableSizedBinPackingBound
    ∧ (f.output.isProvenInfeasible = true → f'.output.isProvenInfeasible = true)
    ∧ (f.end_ = true → f'.end_ = true)
    ∧ (f'.output.pool.best = f.output.pool.best
        ∨ (u = .solution f'.output.pool.best
          ∧ Solution.ltB inst f.output.pool.best f'.output.pool.best = true))
    ∧ (∀ s, u = .solution s → Solution.ltB inst f.output.pool.best s = true →
        f'.output.pool.best = s)
    ∧ (f'.output.isProvenOptimal (outputParams inst) = true → f'.end_ = true) := by
  intro f f'
  obtain ⟨h1, h2, h3, h4, h5, h6, h7, -, -, -, -, h8⟩ :=
    updates_monotone (P := outputParams inst) NonnegValues (lt_asymm ho) ⟨le_refl _, le_refl _⟩
      us hus u hu
  have e : f' = f.step (outputParams inst) u := run_snoc _ us u
  rw [e]
  exact ⟨h1, h2, h3, h4, h5, h6, h7, h8⟩

/-- The best solution is the empty one or a feasible one. -/
theorem best_feasible_or_empty (ho : SingleValue inst.objective) (us : List (Update Solution))
    (hus : ∀ s, Update.solution s ∈ us → NonnegValues s) :
    (outputAfter inst us).output.pool.best = Solution.init inst
      ∨ ((outputAfter inst us).output.pool.best.feasible = true
        ∧ Update.solution (outputAfter inst us).output.pool.best ∈ us) := by
  induction us using List.reverseRecOn with
  | nil => exact .inl rfl
  | append_singleton us u ih =>
    have hus' : ∀ s, Update.solution s ∈ us → NonnegValues s := fun s hs => hus s (by simp [hs])
    have hu : ∀ s, u = .solution s → NonnegValues s := fun s hs => hus s (by simp [hs])
    obtain ⟨-, -, -, -, -, h, -⟩ := output_monotone (inst := inst) ho us hus' u hu
    rcases h with h | ⟨h, h'⟩
    · rw [h]
      rcases ih hus' with ih | ih
      · exact .inl ih
      · exact .inr ⟨ih.1, by simp [ih.2]⟩
    · exact .inr ⟨((ltB_true_iff ho _ _).mp h').1, List.mem_append.mpr (.inr (List.mem_singleton.mpr h.symm))⟩

/-- **C20**: when all bound updates are valid for the instance and the solver reports
proven optimality, either the instance has no admissible packing or no admissible packing
improves on the best solution by more than the tolerance.  For the objectives that require
all items the best solution packs them and is feasible (`_partial`: for Knapsack it can be
the infeasible empty solution, see `knapsack_optimal_infeasible`; and feasibility of a
solution ignores the bin limits, see C11). -/
theorem proven_optimal_partial (ho : SingleValue inst.objective)
    (ha : inst.binTypeIds = binPositions inst.binTypes)
    (hc : ∀ b ∈ inst.binTypes, 0 ≤ b.copies ∧ 0 ≤ b.cost) (hn : 0 < inst.numberOfItems)
    (hR : ResourceIdsOk inst) (hcap : CapacitiesNonneg inst) (hnn : ConsumptionsNonneg inst)
    (us : List (Update Solution))
    (hsol : ∀ s, Update.solution s ∈ us → Reachable inst s ∧ NonnegValues s)
    (hus : ∀ u ∈ us, ValidUpdate (ι := {p : Packing // Admissible inst p}) inst.objective
      (fun p => profit inst p.1) (fun p => numberOfBins p.1) (fun p => cost inst p.1) u)
    (hopt : (outputAfter inst us).output.isProvenOptimal (outputParams inst) = true) :
    let best := (outputAfter inst us).output.pool.best
    (¬ ∃ p, Admissible inst p) ∨
      match inst.objective with
      | .knapsack => (best = Solution.init inst ∨ best.feasible = true)
          ∧ ∀ p, Admissible inst p →
            profit inst p * (1 - 1 / 1000000) ≤ profit inst (packingOf best)
      | .binPacking => best.feasible = true ∧ numberOfItems (packingOf best) = inst.numberOfItems
          ∧ ∀ p, Admissible inst p → numberOfBins (packingOf best) ≤ numberOfBins p
      | .variableSizedBinPacking => best.feasible = true
          ∧ numberOfItems (packingOf best) = inst.numberOfItems
          ∧ ∀ p, Admissible inst p →
            cost inst (packingOf best) ≤ max (1 / 1000000) ((1 + 1 / 1000000) * cost inst p)
      | .feasibility => best.feasible = true ∧ numberOfItems (packingOf best) = inst.numberOfItems
      | _ => False := by
  intro best
  have hfe := best_feasible_or_empty (inst := inst) ho us fun s hs => (hsol s hs).2
  have hreach : Reachable inst best := by
    rcases hfe with h | h
    · show Reachable inst (outputAfter inst us).output.pool.best
      rw [h]; exact .init
    · exact (hsol _ h.2).1
  have hval : NonnegValues best := by
    rcases hfe with h | h
    · show NonnegValues (outputAfter inst us).output.pool.best
      rw [h]; exact ⟨le_refl _, le_refl _⟩
    · exact (hsol _ h.2).2
  have hfe : best = Solution.init inst ∨ best.feasible = true := hfe.imp_right (·.1)
  have h := proven_optimal_sound (P := outputParams inst)
    (ι := {p : Packing // Admissible inst p})
    (prof := fun p => profit inst p.1) (bins := fun p => numberOfBins p.1)
    (cost := fun p => cost inst p.1)
    (fun p => numberOfBins_le ha (fun b hb => (hc b hb).1) p.2.typed p.2.limits)
    (fun p => numberOfBins_nonneg p.2.typed)
    (fun p => cost_nonneg p.2.typed fun b hb => (hc b hb).2) us hus hval.1 hval.2 hopt
  obtain ⟨e1, e2, -, -, -, e3, -⟩ := indicators_exact hreach
  have e4 := profit_exact hreach hR hcap hnn
  have hfull : best.full inst = true → best.feasible = true
      ∧ numberOfItems (packingOf best) = inst.numberOfItems := by
    intro hf
    have hf : best.numberOfItems = inst.numberOfItems := by
      unfold Solution.full at hf; simpa using hf
    refine ⟨?_, by rw [← e2]; exact hf⟩
    rcases hfe with he | he
    · rw [he] at hf
      have : (Solution.init inst).numberOfItems = 0 := rfl
      omega
    · exact he
  rcases h with h | h
  · exact .inl fun ⟨p, hp⟩ => h.false ⟨p, hp⟩
  · right
    have h : (match inst.objective with
      | .knapsack => ∀ p : {p : Packing // Admissible inst p},
          profit inst p.1 * (1 - 1 / 1000000) ≤ best.itemProfit
      | .binPacking => best.full inst = true
          ∧ ∀ p : {p : Packing // Admissible inst p}, best.numberOfBins ≤ numberOfBins p.1
      | .variableSizedBinPacking => best.full inst = true
          ∧ ∀ p : {p : Packing // Admissible inst p},
            best.binCost ≤ max (1 / 1000000) ((1 + 1 / 1000000) * cost inst p.1)
      | .feasibility => best.full inst = true ∧ best.feasible = true
      | _ => False) := h
    rw [← e1, ← e2, ← e3, ← e4]
    rw [← e2] at hfull
    generalize inst.objective = obj at h ⊢
    cases obj <;> simp only at h ⊢
    · obtain ⟨f1, f2⟩ := hfull h.1
      exact ⟨f1, f2, fun p hp => h.2 ⟨p, hp⟩⟩
    · exact ⟨hfe, fun p hp => h ⟨p, hp⟩⟩
    · obtain ⟨f1, f2⟩ := hfull h.1
      exact ⟨f1, f2, fun p hp => h.2 ⟨p, hp⟩⟩
    · exact hfull h.1

/-- One item type (two copies), one bin type. -/
def outInst (obj : Objective) (profit : ℚ) (copiesMin : Int) : Instance := {
  objective := obj
  itemTypes := [
    { length := 4, profit := profit, copies := 2, copiesMin := copiesMin, resourceIds := [[]] }]
  binTypes := [{ length := 10, cost := 3, copies := 2, copiesMin := 0 }]
  numberOfItems := 2
  binTypeIds := [0, 0] }

def outOps : List BuilderOp := [.addBin 0 1, .addItem 0 0, .addItem 0 0]

def outSol : Solution := Examples.okD {} (SolutionBuilder.runOps (outInst .binPacking 1 2) outOps)

theorem outSol_reachable : Reachable (outInst .binPacking 1 2) outSol :=
  .built outOps outSol (by intro t c h; simp [outOps] at h; omega) (by decide +kernel)

theorem outInst_resourceIds (obj : Objective) (q : ℚ) (m : Int) :
    ResourceIdsOk (outInst obj q m) := by
  intro i hi b hb
  have hi' : i = 0 := by
    have : i < 1 := hi
    omega
  have hb' : b = 0 := by
    have : b < 1 := hb
    omega
  subst hi' hb'
  refine ⟨by simp [outInst, Instance.itemType], fun r => ⟨fun h => absurd h (by simp [outInst, Instance.itemType]),
    fun h => absurd h.1 (by simp [outInst, Instance.binType])⟩⟩

theorem no_bins_no_items {p : Packing} (hp : WellTyped inst p) (h : numberOfBins p ≤ 0) (i : Nat) :
    itemCopies p i = 0 := by
  have h0 : ∀ b ∈ p, b.copies = 0 := by
    unfold numberOfBins at h
    induction p with
    | nil => simp
    | cons b p ih =>
      rw [List.map_cons, List.sum_cons] at h
      have hb := (hp b (by simp)).2.1
      have hp' : WellTyped inst p := fun b hb => hp b (by simp [hb])
      have hs := numberOfBins_nonneg hp'
      unfold numberOfBins at hs
      intro b' hb'
      rcases List.mem_cons.mp hb' with rfl | hb'
      · omega
      · exact ih hp' (by omega) b' hb'
  unfold itemCopies
  exact List.sum_eq_zero fun x hx => by
    obtain ⟨b, hb, rfl⟩ := List.mem_map.mp hx
    rw [h0 b hb, zero_mul]

/-- Non-vacuity of C19/C20: one solution with one bin and the valid bound 1. -/
example : let inst := outInst .binPacking 1 2
    SingleValue inst.objective ∧ inst.binTypeIds = binPositions inst.binTypes
    ∧ (∀ b ∈ inst.binTypes, 0 ≤ b.copies ∧ 0 ≤ b.cost) ∧ 0 < inst.numberOfItems
    ∧ ResourceIdsOk inst ∧ CapacitiesNonneg inst ∧ ConsumptionsNonneg inst
    ∧ Reachable inst outSol ∧ NonnegValues outSol ∧ Admissible inst (packingOf outSol)
    ∧ (∀ u ∈ [Update.solution outSol, .binPacking 1],
      ValidUpdate (ι := {p : Packing // Admissible inst p}) inst.objective
        (fun p => profit inst p.1) (fun p => numberOfBins p.1) (fun p => cost inst p.1) u)
    ∧ (outputAfter inst [Update.solution outSol, .binPacking 1]).output.isProvenOptimal
        (outputParams inst) = true
    ∧ (outputAfter inst [Update.solution outSol, .binPacking 1]).output.isProvenInfeasible
        = false := by
  intro inst
  have e : packingOf outSol = [⟨0, 1, [0, 0]⟩] := by decide +kernel
  have hR := outInst_resourceIds .binPacking 1 2
  have hcap : CapacitiesNonneg inst := by
    intro b hb r hr
    simp [inst, outInst] at hb
    subst hb
    simp at hr
  have hnn : ConsumptionsNonneg inst := by
    intro b hb r hr
    simp [inst, outInst] at hb
    subst hb
    simp at hr
  refine ⟨trivial, by decide, by simp [inst, outInst], by decide, hR, hcap, hnn,
    outSol_reachable, by constructor <;> decide +kernel, ⟨?_, ?_, ?_, ?_, ?_⟩, ?_,
    by decide +kernel, by decide +kernel⟩
  · rw [e]; intro b hb; simp at hb; subst hb; decide
  · refine (feasible_iff outSol_reachable hR hcap ?_ (fun _ => rfl)).mp (by decide +kernel)
    intro i hi
    have : i < 1 := hi
    have : i = 0 := by omega
    subst this; decide
  · rw [e]; intro t ht
    have : t < 1 := ht
    have : t = 0 := by omega
    subst this; decide
  · rw [e]; intro _ t ht
    have : t < 1 := ht
    have : t = 0 := by omega
    subst this; decide
  · rw [e]; intro _ t u htu hu
    have : u < 1 := hu
    omega
  · intro u hu
    simp only [List.mem_cons, List.not_mem_nil, or_false] at hu
    rcases hu with rfl | rfl
    · trivial
    · rintro ⟨p, hp⟩
      by_contra hlt
      have h0 := no_bins_no_items hp.typed (by show numberOfBins p ≤ 0; simp at hlt; omega) 0
      have h2 := hp.complete (by simp [inst, outInst]) 0 (by decide)
      rw [h0] at h2
      exact absurd h2 (by decide)

/-- **C20** fails in full for Knapsack: with valid bound updates only, the solver can
report the empty, infeasible solution as proven optimal although a feasible packing
exists. -/
theorem knapsack_optimal_infeasible : ∃ (inst : Instance) (us : List (Update Solution)),
    inst.objective = .knapsack
    ∧ (∀ u ∈ us, ValidUpdate (ι := {p : Packing // Admissible inst p}) inst.objective
      (fun p => profit inst p.1) (fun p => numberOfBins p.1) (fun p => cost inst p.1) u)
    ∧ (outputAfter inst us).output.isProvenOptimal (outputParams inst) = true
    ∧ (outputAfter inst us).output.isProvenInfeasible = false
    ∧ (outputAfter inst us).output.pool.best.feasible = false
    ∧ ∃ p, Admissible inst p := by
  let inst := outInst .knapsack 0 1
  let s := Examples.okD {} (SolutionBuilder.runOps inst outOps)
  have hrun : SolutionBuilder.runOps inst outOps = .ok s := by decide +kernel
  have hs : Reachable inst s := .built outOps s (by intro t c h; simp [outOps] at h; omega) hrun
  have e : packingOf s = [⟨0, 1, [0, 0]⟩] := by decide +kernel
  have hcap : CapacitiesNonneg inst := by
    intro b hb r hr
    simp [inst, outInst] at hb
    subst hb
    simp at hr
  refine ⟨inst, [.knapsack (.fin 0)], rfl, ?_, by decide +kernel, by decide +kernel,
    by decide +kernel, packingOf s, ⟨?_, ?_, ?_, by simp [inst, outInst], by simp [inst, outInst]⟩⟩
  · intro u hu
    simp only [List.mem_cons, List.not_mem_nil, or_false] at hu
    subst hu
    rintro ⟨p, hp⟩
    show profit inst p ≤ 0
    unfold profit
    refine (List.sum_eq_zero fun x hx => ?_).le
    obtain ⟨b, hb, rfl⟩ := List.mem_map.mp hx
    obtain ⟨h1, -, h3⟩ := hp.typed b hb
    have hb0 : b.binTypeId = 0 := by
      have : b.binTypeId < 1 := h1
      omega
    have hi : itemsProfit inst b.items = 0 := by
      unfold itemsProfit
      refine List.sum_eq_zero fun x hx => ?_
      obtain ⟨i, hi, rfl⟩ := List.mem_map.mp hx
      have : i < 1 := h3 i hi
      have : i = 0 := by omega
      subst this; rfl
    have hpen : penalties inst b.binTypeId b.items = 0 := by rw [hb0]; rfl
    rw [hi, hpen]; simp
  · rw [e]; intro b hb; simp at hb; subst hb; decide
  · refine (feasible_iff hs (outInst_resourceIds _ _ _) hcap ?_ (fun _ => rfl)).mp
      (by decide +kernel)
    intro i hi
    have : i < 1 := hi
    have : i = 0 := by omega
    subst this; decide
  · rw [e]; intro t ht
    have : t < 1 := ht
    have : t = 0 := by omega
    subst this; decide

end PackingSolver.OneDim
