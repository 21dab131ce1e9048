import Verif.Model.Stacks.Compare
import Verif.Props.Stacks.Feasible
import Verif.Props.Rect.Compare
import Verif.Props.Pool
import Verif.Props.Num
import Verif.Spec.StacksCompare

/-!
# C92: comparing boxstacks solutions
-/

namespace PackingSolver.Stacks

open Stacks.Spec
open PackingSolver.OneDim.Examples (okD)

variable {inst : Instance}

/-- Solutions with non-negative profit. -/
def NonnegValues (s : Solution) : Prop := 0 ≤ s.itemProfit

/-- The comparison of two solutions, objective by objective. -/
theorem ltB_true_iff (ho : Ordered inst.objective) (a b : Solution) :
    Solution.ltB inst a b = true ↔ b.feasible = true ∧ (a.feasible = false ∨
      match inst.objective with
      | .binPacking => b.numberOfBins < a.numberOfBins
      | .binPackingWithLeftovers => b.waste < a.waste
      | .openDimensionX => b.xMax < a.xMax
      | .openDimensionY => b.yMax < a.yMax
      | .knapsack | .feasibility => strictlyGreaterProfit b.itemProfit a.itemProfit = true
      | _ => False) := by
  unfold Solution.ltB Solution.lt
  cases hb : b.feasible <;> cases ha : a.feasible <;> simp
  generalize inst.objective = obj at ho ⊢
  cases obj <;> simp [Ordered] at ho ⊢

/-- **C92** (asymmetry). -/
theorem lt_asymm (ho : Ordered inst.objective) :
    PackingSolver.Spec.Asymmetric NonnegValues (Solution.ltB inst) := by
  intro a b va vb h
  by_contra hc
  rw [Bool.not_eq_false] at hc
  rw [ltB_true_iff ho] at h hc
  rcases h with ⟨hb, h⟩
  rcases hc with ⟨ha, hc⟩
  rw [ha] at h
  rw [hb] at hc
  simp only [Bool.true_eq_false, false_or] at h hc
  generalize inst.objective = obj at ho h hc
  cases obj <;> simp only [Ordered] at ho h hc
  · omega
  · omega
  · omega
  · omega
  · rw [profit_greater_asymm vb va h] at hc; exact absurd hc (by decide)
  · rw [profit_greater_asymm vb va h] at hc; exact absurd hc (by decide)

/-- **C92** (transitivity). -/
theorem lt_trans (ho : Ordered inst.objective) :
    PackingSolver.Spec.Transitive NonnegValues (Solution.ltB inst) := by
  intro a b c va vb vc h1 h2
  rw [ltB_true_iff ho] at h1 h2 ⊢
  obtain ⟨hb, h1⟩ := h1
  obtain ⟨hc, h2⟩ := h2
  refine ⟨hc, ?_⟩
  rw [hb] at h2
  simp only [Bool.true_eq_false, false_or] at h2
  rcases h1 with h1 | h1
  · exact .inl h1
  · right
    generalize inst.objective = obj at ho h1 h2 ⊢
    cases obj <;> simp only [Ordered] at ho h1 h2 ⊢
    · omega
    · omega
    · omega
    · omega
    · exact profit_greater_trans vc vb va h2 h1
    · exact profit_greater_trans vc vb va h2 h1

/-- **C92** (feasible solutions are preferred): for every objective, a feasible solution is better
than any infeasible one, and an infeasible solution is never better. -/
theorem lt_prefers_feasible (a b : Solution) :
    (b.feasible = true → a.feasible = false → Solution.lt inst a b = .ok true)
    ∧ (b.feasible = false → Solution.lt inst a b = .ok false) := by
  unfold Solution.lt
  constructor
  · intro hb ha; simp [hb, ha]
  · intro hb; simp [hb]

/-- **C92** (totality): the comparison answers for every supported objective; for every other one
it throws as soon as two feasible solutions are compared. -/
theorem lt_answers_iff (a b : Solution) (ha : a.feasible = true) (hb : b.feasible = true) :
    ((∃ r, Solution.lt inst a b = .ok r) ↔ Supported inst.objective)
    ∧ (¬ Supported inst.objective → Solution.lt inst a b = .error .logicError) := by
  unfold Solution.lt
  simp only [ha, hb, Bool.not_true, Bool.false_eq_true, if_false]
  generalize inst.objective = obj
  have hite : ∀ (c : Prop) [Decidable c] (x y : Except Err Bool), (∃ r, x = .ok r) →
      (∃ r, y = .ok r) → ∃ r, (if c then x else y) = .ok r := by
    intro c _ x y hx hy
    by_cases hc : c
    · rw [if_pos hc]; exact hx
    · rw [if_neg hc]; exact hy
  cases obj
  case default =>
    exact ⟨⟨fun _ => .inr rfl, fun _ => hite _ _ _ ⟨_, rfl⟩ (hite _ _ _ ⟨_, rfl⟩ ⟨_, rfl⟩)⟩,
      fun hn => absurd (.inr rfl) hn⟩
  all_goals simp [Supported, Ordered]

/-! ### Exactness -/

/-- **C92** (extents): `x_max()` and `y_max()` are the used lengths of the last bin. -/
theorem used_exact {s : Solution} (h : Reachable inst s) :
    s.xMax = usedX (packingOf s) ∧ s.yMax = usedY (packingOf s) :=
  ⟨Rect.isMaxWithZero_unique (extents_exact h).1 (Rect.isMaxWithZero_foldl _),
    Rect.isMaxWithZero_unique (extents_exact h).2 (Rect.isMaxWithZero_foldl _)⟩

/-- **C92** (waste): if the largest slab left in the last bin lies beyond the stacks along x, `waste()`
is the waste of the packing. -/
theorem wasted_exact_partial {s : Solution} (h : Reachable inst s) (hf : Fitting inst (packingOf s))
    (hs : SlabAlongX inst (packingOf s)) : s.waste = wasted inst (packingOf s) := by
  obtain ⟨b, hb, h1, h2, h3, h4, h5⟩ := hs
  obtain ⟨hx, hy⟩ := used_exact h
  obtain ⟨q, hq⟩ : ∃ q, packingOf s = q ++ [b] := by
    rw [List.getLast?_eq_some_iff] at hb; exact hb
  have := (waste_exact_partial h hf q b hq h1 h2 h3 h4).2 (by rw [hx, hy]; exact h5)
  rw [this, wasted, hb, hx, hy]

/-- **C92** (exactness): among feasible solutions, the preferred one is the one whose packing is
better by more than the tolerance. -/
theorem lt_iff_clearlyBetter_partial (ho : Ordered inst.objective) {a b : Solution}
    (ha : Reachable inst a) (hb : Reachable inst b) (fa : a.feasible = true)
    (fb : b.feasible = true) (pa : 0 ≤ a.itemProfit) (pb : 0 ≤ b.itemProfit)
    (hw : inst.objective = .binPackingWithLeftovers →
      (Fitting inst (packingOf a) ∧ SlabAlongX inst (packingOf a))
      ∧ Fitting inst (packingOf b) ∧ SlabAlongX inst (packingOf b)) :
    Solution.ltB inst a b = true ↔ ClearlyBetter inst (packingOf a) (packingOf b) := by
  rw [ltB_true_iff ho, fa, fb]
  simp only [Bool.true_eq_false, false_or, true_and]
  have e := used_exact ha
  have e' := used_exact hb
  have n := (indicators_exact ha).1
  have n' := (indicators_exact hb).1
  have p := (indicators_exact ha).2.2.2.2.2.2.2.1
  have p' := (indicators_exact hb).2.2.2.2.2.2.2.1
  have w : inst.objective = .binPackingWithLeftovers → a.waste = wasted inst (packingOf a)
      ∧ b.waste = wasted inst (packingOf b) := fun h =>
    ⟨wasted_exact_partial ha (hw h).1.1 (hw h).1.2, wasted_exact_partial hb (hw h).2.1 (hw h).2.2⟩
  unfold ClearlyBetter Better
  generalize inst.objective = obj at ho w ⊢
  cases obj <;> simp only [Ordered] at ho ⊢
  · rw [n, n']
  · rw [(w rfl).1, (w rfl).2]
  · rw [e.1, e'.1]
  · rw [e.2, e'.2]
  · rw [strictlyGreaterProfit_iff pb pa, p, p']
  · rw [strictlyGreaterProfit_iff pb pa, p, p']

/-- A worse solution than `SolEx.sol`: it uses five bins. -/
def worse : Solution := okD {} (SolEx.first.appendBin SolEx.inst SolEx.second 0 2 [] [] >>= fun s =>
  s.appendEmptyBin SolEx.inst 1 2)

theorem worse_reachable : Reachable SolEx.inst worse :=
  .appendEmptyBin SolEx.sol _ 1 2 SolEx.sol_reachable (by decide +kernel)

example : Ordered SolEx.inst.objective ∧ Reachable SolEx.inst SolEx.sol
    ∧ Reachable SolEx.inst worse ∧ worse.feasible = true ∧ SolEx.sol.feasible = true
    ∧ 0 ≤ worse.itemProfit ∧ 0 ≤ SolEx.sol.itemProfit
    ∧ SolEx.inst.objective ≠ .binPackingWithLeftovers
    ∧ Solution.ltB SolEx.inst worse SolEx.sol = true
    ∧ Solution.ltB SolEx.inst (Solution.init SolEx.inst) worse = true :=
  ⟨trivial, SolEx.sol_reachable, worse_reachable, by decide +kernel, by decide +kernel,
    by decide +kernel, by decide +kernel, by decide +kernel, by decide +kernel, by decide +kernel⟩

/-- **C04** for boxstacks solutions: whatever the sequence of solutions offered to the output, its
best solution is one of them (or the empty one) and none is strictly better. -/
theorem best_solution_correct (ho : Ordered inst.objective) (l : List Solution)
    (hl : ∀ s ∈ l, NonnegValues s) :
    PackingSolver.Spec.IsBest (Solution.ltB inst) (Solution.init inst :: l)
      ((Pool.new (Solution.ops inst) 1).addAll (Solution.ops inst) l).best :=
  pool_best_size_one (o := Solution.ops inst) NonnegValues (lt_asymm ho) (lt_trans ho)
    (le_refl _) l hl

example : Ordered SolEx.inst.objective ∧ NonnegValues SolEx.sol ∧ NonnegValues worse
    ∧ ((Pool.new (Solution.ops SolEx.inst) 1).addAll (Solution.ops SolEx.inst)
        [worse, SolEx.sol, worse]).best = SolEx.sol :=
  ⟨trivial, by unfold NonnegValues; decide +kernel, by unfold NonnegValues; decide +kernel,
    by decide +kernel⟩

/-! ### A case with leftovers, and negations -/

/-- Two items of footprint 1 × 10, or 10 × 1 if rotated, in a bin 10 × 10, and small bins. -/
def leftInst : Instance := {
  objective := .binPackingWithLeftovers
  itemTypes := [
    { box := ⟨1, 10, 10⟩, rotations := [.xyz, .yxz], copiesMin := 0, copies := 2 },
    { box := ⟨1, 1, 10⟩, rotations := [.xyz], copiesMin := 0, copies := 2 }]
  binTypes := [{ box := ⟨10, 10, 10⟩ }, { box := ⟨1, 1, 10⟩, copies := 2 }]
  numberOfGroups := 1 }

def leftSol (ops : List BuilderOp) : Solution := okD {} (SolutionBuilder.runOps leftInst ops)

/-- The item at the start of the bin, lying along y. -/
def lyingOps : List BuilderOp := [.addBin 0 1, .addStack 0 0 10 0 1, .addItem 0 0 0 .yxz]

/-- The item in the middle of the bin. -/
def middleOps : List BuilderOp := [.addBin 0 1, .addStack 0 5 6 0 10, .addItem 0 0 0 .xyz]

/-- The item at the start of the bin. -/
def startOps : List BuilderOp := [.addBin 0 1, .addStack 0 0 1 0 10, .addItem 0 0 0 .xyz]

example : Reachable leftInst (leftSol middleOps) ∧ Reachable leftInst (leftSol startOps)
    ∧ (leftSol middleOps).feasible = true ∧ (leftSol startOps).feasible = true
    ∧ Fitting leftInst (packingOf (leftSol middleOps))
    ∧ SlabAlongX leftInst (packingOf (leftSol middleOps))
    ∧ Fitting leftInst (packingOf (leftSol startOps))
    ∧ SlabAlongX leftInst (packingOf (leftSol startOps))
    ∧ Solution.ltB leftInst (leftSol middleOps) (leftSol startOps) = true :=
  ⟨.built middleOps _ (by decide +kernel), .built startOps _ (by decide +kernel), by decide +kernel,
    by decide +kernel, by unfold Fitting; decide +kernel,
    ⟨⟨0, 1, [⟨5, 6, 0, 10, [(0, .xyz)]⟩]⟩, by decide +kernel⟩, by unfold Fitting; decide +kernel,
    ⟨⟨0, 1, [⟨0, 1, 0, 10, [(0, .xyz)]⟩]⟩, by decide +kernel⟩, by decide +kernel⟩

/-- **C92**, negation: under bin packing with leftovers, a solution that wastes nothing is considered
worse than one that wastes half a bin, because the leftover along y is not computed correctly. -/
theorem leftovers_misjudged : ∃ (inst : Instance) (a b : Solution),
    inst.objective = .binPackingWithLeftovers ∧ Reachable inst a ∧ Reachable inst b
    ∧ a.feasible = true ∧ b.feasible = true
    ∧ Fitting inst (packingOf a) ∧ Fitting inst (packingOf b)
    ∧ wasted inst (packingOf a) = 0 ∧ wasted inst (packingOf b) = 500
    ∧ Better inst (packingOf b) (packingOf a) ∧ Solution.ltB inst a b = true :=
  ⟨leftInst, leftSol lyingOps, leftSol middleOps, rfl, .built lyingOps _ (by decide +kernel),
    .built middleOps _ (by decide +kernel), by decide +kernel, by decide +kernel,
    by unfold Fitting; decide +kernel, by unfold Fitting; decide +kernel, by decide +kernel,
    by decide +kernel, by change wasted leftInst _ < wasted leftInst _; decide +kernel,
    by decide +kernel⟩

/-- **C92**, negation: under bin packing with leftovers the number of bins is not compared: of two
solutions with the same items the one with more bins may be preferred. -/
theorem leftovers_prefers_more_bins : ∃ (inst : Instance) (a b : Solution),
    inst.objective = .binPackingWithLeftovers ∧ Reachable inst a ∧ Reachable inst b
    ∧ a.feasible = true ∧ b.feasible = true
    ∧ (∀ i, Spec.itemCopies (packingOf a) i = Spec.itemCopies (packingOf b) i)
    ∧ Spec.numberOfBins (packingOf a) < Spec.numberOfBins (packingOf b)
    ∧ Solution.ltB inst a b = true := by
  let oa : List BuilderOp := [.addBin 0 1, .addStack 0 0 1 0 1, .addItem 0 0 1 .xyz,
    .addStack 0 1 2 0 1, .addItem 0 1 1 .xyz]
  let ob : List BuilderOp := [.addBin 1 2, .addStack 0 0 1 0 1, .addItem 0 0 1 .xyz]
  refine ⟨leftInst, leftSol oa, leftSol ob, rfl, .built oa _ (by decide +kernel),
    .built ob _ (by decide +kernel), by decide +kernel, by decide +kernel, ?_, by decide +kernel,
    by decide +kernel⟩
  have e1 : packingOf (leftSol oa)
      = [⟨0, 1, [⟨0, 1, 0, 1, [(1, .xyz)]⟩, ⟨1, 2, 0, 1, [(1, .xyz)]⟩]⟩] := by decide +kernel
  have e2 : packingOf (leftSol ob) = [⟨1, 2, [⟨0, 1, 0, 1, [(1, .xyz)]⟩]⟩] := by decide +kernel
  intro i
  rw [e1, e2]
  by_cases h : 1 = i
  · subst h; decide +kernel
  · simp [Spec.itemCopies, Spec.count, binItems, h]

/-- **C92**, negation: variable-sized bin packing is an objective of the library, but boxstacks
solutions cannot be compared under it: as soon as two solutions are feasible the comparison throws. -/
theorem variableSized_comparison_throws (hi : inst.objective = .variableSizedBinPacking)
    (a b : Solution) (ha : a.feasible = true) (hb : b.feasible = true) :
    Solution.lt inst a b = .error .logicError :=
  (lt_answers_iff a b ha hb).2 (by rw [hi]; simp [Supported, Ordered])

/-- The open dimension z is not supported either. -/
theorem openZ_comparison_throws (hi : inst.objective = .openDimensionZ)
    (a b : Solution) (ha : a.feasible = true) (hb : b.feasible = true) :
    Solution.lt inst a b = .error .logicError :=
  (lt_answers_iff a b ha hb).2 (by rw [hi]; simp [Supported, Ordered])

/-- An instance with two bin types. -/
def vsInst (o : Objective) : Instance := {
  objective := o
  itemTypes := [{ box := ⟨2, 2, 2⟩, rotations := [.xyz], copies := 1, copiesMin := 1 }]
  binTypes := [{ box := ⟨2, 2, 2⟩, cost := 3 }, { box := ⟨3, 3, 3⟩, cost := 5 }]
  numberOfGroups := 1 }

def vsOps (t : Nat) : List BuilderOp := [.addBin t 1, .addStack 0 0 2 0 2, .addItem 0 0 0 .xyz]

example : ∀ o ∈ [Objective.variableSizedBinPacking, .openDimensionZ],
    (okD {} (SolutionBuilder.runOps (vsInst o) (vsOps 0))).feasible = true
    ∧ (okD {} (SolutionBuilder.runOps (vsInst o) (vsOps 1))).feasible = true := by decide +kernel

/-- One bin with an item of profit 10⁶, 10⁶ + 0.6 or 10⁶ + 1.2. -/
def cycleInst : Instance := {
  objective := .default
  itemTypes := [
    { box := ⟨1, 1, 1⟩, rotations := [.xyz], profit := 1000000, copiesMin := 0 },
    { box := ⟨1, 1, 1⟩, rotations := [.xyz], profit := 1000000 + 3/5, copiesMin := 0 },
    { box := ⟨1, 1, 1⟩, rotations := [.xyz], profit := 1000000 + 6/5, copiesMin := 0 }]
  binTypes := [{ box := ⟨10, 1, 1⟩, cost := 1, copies := 2 }]
  numberOfGroups := 1 }

def cycleOps (i : Nat) : List BuilderOp :=
  [.addBin 0 1, .addStack 0 i (i + 1) 0 1, .addItem 0 0 i .xyz]

def cycleSol (i : Nat) : Solution := okD {} (SolutionBuilder.runOps cycleInst (cycleOps i))

/-- **C92**, negation: under the Default objective three feasible solutions beat each other in a
cycle. -/
theorem default_objective_cycles : ∃ (inst : Instance) (a b c : Solution),
    inst.objective = .default ∧ Reachable inst a ∧ Reachable inst b ∧ Reachable inst c
    ∧ a.feasible = true ∧ b.feasible = true ∧ c.feasible = true
    ∧ Solution.ltB inst a b = true ∧ Solution.ltB inst b c = true
    ∧ Solution.ltB inst c a = true :=
  ⟨cycleInst, cycleSol 2, cycleSol 1, cycleSol 0, rfl, .built (cycleOps 2) _ (by decide +kernel),
    .built (cycleOps 1) _ (by decide +kernel), .built (cycleOps 0) _ (by decide +kernel),
    by decide +kernel, by decide +kernel, by decide +kernel, by decide +kernel,
    by decide +kernel, by decide +kernel⟩

end PackingSolver.Stacks
