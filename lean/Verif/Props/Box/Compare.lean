import Verif.Model.Box.Compare
import Verif.Props.Box.Solution
import Verif.Props.Rect.Compare
import Verif.Props.Pool
import Verif.Props.Num
import Verif.Spec.BoxCompare

/-!
# C86: comparing box solutions
-/

namespace PackingSolver.Box

open Box.Spec
open PackingSolver.OneDim.Examples (okD)

variable {inst : Instance}

/-- Solutions with non-negative profit. -/
def NonnegValues (s : Solution) : Prop := 0 ≤ s.itemProfit

/-- The comparison of two solutions, objective by objective. -/
theorem ltB_true_iff (ho : Ordered inst.objective) (a b : Solution) :
    Solution.ltB inst a b = true ↔ b.feasible = true ∧ (a.feasible = false ∨
      match inst.objective with
      | .binPacking => b.numberOfBins < a.numberOfBins
      | .binPackingWithLeftovers => b.numberOfBins < a.numberOfBins
          ∨ (b.numberOfBins = a.numberOfBins ∧ a.leftoverValue < b.leftoverValue)
      | .openDimensionX => b.xMax < a.xMax
      | .openDimensionY => b.yMax < a.yMax
      | .openDimensionZ => b.zMax < a.zMax
      | .knapsack | .feasibility => strictlyGreaterProfit b.itemProfit a.itemProfit = true
      | _ => False) := by
  unfold Solution.ltB Solution.lt
  cases hb : b.feasible <;> cases ha : a.feasible <;> simp
  generalize inst.objective = obj at ho ⊢
  cases obj <;> simp [Ordered] at ho ⊢
  by_cases he : b.numberOfBins = a.numberOfBins
  · simp only [he, if_true, lt_irrefl, false_or, true_and, strictlyGreater, tol,
      one_div]
    rw [decide_eq_true_iff]
    constructor
    · intro h
      have : (a.leftoverValue : ℚ) < b.leftoverValue := by linarith
      exact_mod_cast this
    · intro h
      have : (a.leftoverValue : ℚ) + 1 ≤ b.leftoverValue := by exact_mod_cast h
      linarith
  · simp [he]

/-- **C86** (asymmetry). -/
theorem lt_asymm (ho : Ordered inst.objective) :
    PackingSolver.Spec.Asymmetric NonnegValues (Solution.ltB inst) := by
  intro a b va vb h
  by_contra hc
  rw [Bool.not_eq_false] at hc
  rw [ltB_true_iff ho] at h hc
  rcases h with ⟨hb, h⟩
  rcases hc with ⟨ha, hc⟩
  rw [ha] at h
  rw [hb] at hc
  simp only [Bool.true_eq_false, false_or] at h hc
  generalize inst.objective = obj at ho h hc
  cases obj <;> simp only [Ordered] at ho h hc
  · omega
  · rcases h with h | ⟨h, h'⟩ <;> rcases hc with hc | ⟨hc, hc'⟩
    · omega
    · omega
    · omega
    · linarith
  · omega
  · omega
  · omega
  · rw [profit_greater_asymm vb va h] at hc; exact absurd hc (by decide)
  · rw [profit_greater_asymm vb va h] at hc; exact absurd hc (by decide)

/-- **C86** (transitivity). -/
theorem lt_trans (ho : Ordered inst.objective) :
    PackingSolver.Spec.Transitive NonnegValues (Solution.ltB inst) := by
  intro a b c va vb vc h1 h2
  rw [ltB_true_iff ho] at h1 h2 ⊢
  obtain ⟨hb, h1⟩ := h1
  obtain ⟨hc, h2⟩ := h2
  refine ⟨hc, ?_⟩
  rw [hb] at h2
  simp only [Bool.true_eq_false, false_or] at h2
  rcases h1 with h1 | h1
  · exact .inl h1
  · right
    generalize inst.objective = obj at ho h1 h2 ⊢
    cases obj <;> simp only [Ordered] at ho h1 h2 ⊢
    · omega
    · rcases h1 with h1 | ⟨h1, h1'⟩ <;> rcases h2 with h2 | ⟨h2, h2'⟩
      · left; omega
      · left; omega
      · left; omega
      · right; exact ⟨by omega, by linarith⟩
    · omega
    · omega
    · omega
    · exact profit_greater_trans vc vb va h2 h1
    · exact profit_greater_trans vc vb va h2 h1

/-- **C86** (feasible solutions are preferred): for every objective, a feasible solution is better
than any infeasible one, and an infeasible solution is never better. -/
theorem lt_prefers_feasible (a b : Solution) :
    (b.feasible = true → a.feasible = false → Solution.lt inst a b = .ok true)
    ∧ (b.feasible = false → Solution.lt inst a b = .ok false) := by
  unfold Solution.lt
  constructor
  · intro hb ha; simp [hb, ha]
  · intro hb; simp [hb]

/-- **C86** (totality): the comparison answers for every supported objective; for every other one
it throws as soon as two feasible solutions are compared. -/
theorem lt_answers_iff (a b : Solution) (ha : a.feasible = true) (hb : b.feasible = true) :
    (∃ r, Solution.lt inst a b = .ok r) ↔ Supported inst.objective := by
  unfold Solution.lt
  simp only [ha, hb, Bool.not_true, Bool.false_eq_true, if_false]
  generalize inst.objective = obj
  have hite : ∀ (c : Prop) [Decidable c] (x y : Except Err Bool), (∃ r, x = .ok r) →
      (∃ r, y = .ok r) → ∃ r, (if c then x else y) = .ok r := by
    intro c _ x y hx hy
    by_cases hc : c
    · rw [if_pos hc]; exact hx
    · rw [if_neg hc]; exact hy
  cases obj
  case default =>
    exact ⟨fun _ => .inr rfl, fun _ => hite _ _ _ ⟨_, rfl⟩ (hite _ _ _ ⟨_, rfl⟩ ⟨_, rfl⟩)⟩
  case binPackingWithLeftovers =>
    exact ⟨fun _ => .inl trivial, fun _ => hite _ _ _ ⟨_, rfl⟩ ⟨_, rfl⟩⟩
  all_goals simp [Supported, Ordered]

/-! ### Exactness -/

/-- **C86** (extents): `x_max()` and `y_max()` are the used lengths of the last bin, and so is
`z_max()` if the solution comes from the builder or has one bin. -/
theorem used_exact_partial {s : Solution} (h : Reachable inst s) :
    s.xMax = usedX inst (packingOf s) ∧ s.yMax = usedY inst (packingOf s)
    ∧ (HeightTracked inst s → s.zMax = usedZ inst (packingOf s)) :=
  ⟨Rect.isMaxWithZero_unique (extents_exact_partial h).1 (Rect.isMaxWithZero_foldl _),
    Rect.isMaxWithZero_unique (extents_exact_partial h).2.1 (Rect.isMaxWithZero_foldl _),
    fun hz => Rect.isMaxWithZero_unique (zMax_exact_partial h hz) (Rect.isMaxWithZero_foldl _)⟩

/-- **C86** (leftover): if the last bin is not empty, `leftover_value()` is what remains of it (for
a solution of the builder or with one bin). -/
theorem leftover_exact_partial {s : Solution} (h : Reachable inst s) (hz : HeightTracked inst s)
    (hl : lastItems (packingOf s) ≠ []) :
    s.leftoverValue = remaining inst (packingOf s) := by
  obtain ⟨hx, hy, hz'⟩ := used_exact_partial h
  cases hp : (packingOf s).getLast? with
  | none => rw [lastItems, hp] at hl; exact absurd rfl hl
  | some b =>
    rw [lastItems, hp] at hl
    obtain ⟨q, hq⟩ : ∃ q, packingOf s = q ++ [b] := by
      rw [List.getLast?_eq_some_iff] at hp; exact hp
    obtain ⟨ha, hle⟩ := h.good.extents.volume q b hq hl
    simp only [hle, ha, remaining, hp, hx, hy, hz' hz, BinType.volume, Dims.volume, volumeOf]
    ring

/-- **C86** (exactness): among feasible solutions, the preferred one is the one whose packing is
better by more than the tolerance. -/
theorem lt_iff_clearlyBetter_partial (ho : Ordered inst.objective) {a b : Solution}
    (ha : Reachable inst a) (hb : Reachable inst b) (fa : a.feasible = true)
    (fb : b.feasible = true) (hR : ResourceIdsOk inst) (hcap : CapacitiesNonneg inst)
    (hnn : ConsumptionsNonneg inst) (pa : 0 ≤ a.itemProfit) (pb : 0 ≤ b.itemProfit)
    (la : lastItems (packingOf a) ≠ []) (lb : lastItems (packingOf b) ≠ [])
    (za : HeightTracked inst a) (zb : HeightTracked inst b) :
    Solution.ltB inst a b = true ↔ ClearlyBetter inst (packingOf a) (packingOf b) := by
  rw [ltB_true_iff ho, fa, fb]
  simp only [Bool.true_eq_false, false_or, true_and]
  have e := used_exact_partial ha
  have e' := used_exact_partial hb
  have l := leftover_exact_partial ha za la
  have l' := leftover_exact_partial hb zb lb
  have n := (indicators_exact ha).1
  have n' := (indicators_exact hb).1
  have p := profit_exact ha hR hcap hnn
  have p' := profit_exact hb hR hcap hnn
  unfold ClearlyBetter Better
  generalize inst.objective = obj at ho ⊢
  cases obj <;> simp only [Ordered] at ho ⊢
  · rw [n, n']
  · rw [n, n', l, l']
  · rw [e.1, e'.1]
  · rw [e.2.1, e'.2.1]
  · rw [e.2.2 za, e'.2.2 zb]
  · rw [strictlyGreaterProfit_iff pb pa, p, p']
  · rw [strictlyGreaterProfit_iff pb pa, p, p']

/-- A worse solution than `SolEx.sol`: it uses four bins. -/
def worse : Solution := okD {} (SolutionBuilder.runOps SolEx.inst
  [.addBin 0 1, .addItem 0 0 0 0 0 .xyz, .addBin 1 3, .addItem 1 0 0 0 0 .yzx])

example : Ordered SolEx.inst.objective ∧ Reachable SolEx.inst SolEx.sol
    ∧ Reachable SolEx.inst worse ∧ worse.feasible = true ∧ SolEx.sol.feasible = true
    ∧ 0 ≤ worse.itemProfit ∧ 0 ≤ SolEx.sol.itemProfit 
    ∧ HeightTracked SolEx.inst worse ∧ HeightTracked SolEx.inst SolEx.sol
    ∧ lastItems (packingOf worse) ≠ [] ∧ lastItems (packingOf SolEx.sol) ≠ []
    ∧ Solution.ltB SolEx.inst worse SolEx.sol = true
    ∧ Solution.ltB SolEx.inst (Solution.init SolEx.inst) worse = true :=
  ⟨trivial, SolEx.sol_reachable, .built [.addBin 0 1, .addItem 0 0 0 0 0 .xyz, .addBin 1 3,
    .addItem 1 0 0 0 0 .yzx] _ (by decide +kernel), by decide +kernel, by decide +kernel,
    by decide +kernel, by decide +kernel,
    .inl ⟨[.addBin 0 1, .addItem 0 0 0 0 0 .xyz, .addBin 1 3, .addItem 1 0 0 0 0 .yzx],
      by decide +kernel⟩, .inl ⟨SolEx.ops, by decide +kernel⟩, by decide +kernel,
    by decide +kernel, by decide +kernel, by decide +kernel⟩

/-- **C04** for box solutions: whatever the sequence of solutions offered to the output, its
best solution is one of them (or the empty one) and none is strictly better. -/
theorem best_solution_correct (ho : Ordered inst.objective) (l : List Solution)
    (hl : ∀ s ∈ l, NonnegValues s) :
    PackingSolver.Spec.IsBest (Solution.ltB inst) (Solution.init inst :: l)
      ((Pool.new (Solution.ops inst) 1).addAll (Solution.ops inst) l).best :=
  pool_best_size_one (o := Solution.ops inst) NonnegValues (lt_asymm ho) (lt_trans ho)
    (le_refl _) l hl

example : Ordered SolEx.inst.objective ∧ NonnegValues SolEx.sol ∧ NonnegValues worse
    ∧ ((Pool.new (Solution.ops SolEx.inst) 1).addAll (Solution.ops SolEx.inst)
        [worse, SolEx.sol, worse]).best = SolEx.sol :=
  ⟨trivial, by unfold NonnegValues; decide +kernel, by unfold NonnegValues; decide +kernel,
    by decide +kernel⟩

/-! ### Negations -/

/-- **C86**, negation: variable-sized bin packing is an objective of the library, but box solutions
cannot be compared under it: as soon as two solutions are feasible the comparison throws. -/
theorem variableSized_comparison_throws (hi : inst.objective = .variableSizedBinPacking)
    (a b : Solution) (ha : a.feasible = true) (hb : b.feasible = true) :
    Solution.lt inst a b = .error .logicError := by
  unfold Solution.lt
  simp [ha, hb, hi]

/-- An instance with two bin types. -/
def vsInst : Instance := {
  objective := .variableSizedBinPacking
  itemTypes := [{ box := ⟨2, 2, 2⟩, rotations := [.xyz], copies := 1, copiesMin := 1 }]
  binTypes := [{ box := ⟨2, 2, 2⟩, cost := 3 }, { box := ⟨3, 3, 3⟩, cost := 5 }] }

example : vsInst.objective = .variableSizedBinPacking
    ∧ (okD {} (SolutionBuilder.runOps vsInst [.addBin 0 1, .addItem 0 0 0 0 0 .xyz])).feasible = true
    ∧ (okD {} (SolutionBuilder.runOps vsInst [.addBin 1 1, .addItem 0 0 0 0 0 .xyz])).feasible
      = true := by decide +kernel

/-- **C86**, negation: the leftovers of a solution obtained by `append_bins` are computed with the
height of an earlier bin: it is considered worse than a solution that leaves less. -/
theorem appended_solution_misjudged : ∃ (inst : Instance) (a b : Solution),
    inst.objective = .binPackingWithLeftovers ∧ Reachable inst a ∧ Reachable inst b
    ∧ a.feasible = true ∧ b.feasible = true
    ∧ lastItems (packingOf a) ≠ [] ∧ lastItems (packingOf b) ≠ []
    ∧ Better inst (packingOf b) (packingOf a) ∧ Solution.ltB inst a b = true := by
  let i : Instance := {
    objective := .binPackingWithLeftovers
    itemTypes := [
      { box := ⟨2, 2, 9⟩, rotations := [.xyz] },
      { box := ⟨2, 2, 1⟩, rotations := [.xyz, .zyx] }]
    binTypes := [{ box := ⟨2, 2, 9⟩, copies := 2 }] }
  let o1 : List BuilderOp := [.addBin 0 1, .addItem 0 0 0 0 0 .xyz]
  let o2 : List BuilderOp := [.addBin 0 1, .addItem 0 1 0 0 0 .xyz]
  let o3 : List BuilderOp := o1 ++ [.addBin 0 1, .addItem 1 1 0 0 1 .xyz]
  let s1 := okD {} (SolutionBuilder.runOps i o1)
  let s2 := okD {} (SolutionBuilder.runOps i o2)
  exact ⟨i, okD {} (s1.appendBins i s2 [] []), okD {} (SolutionBuilder.runOps i o3), rfl,
    .appendBins s1 _ s2 [] [] (.built o1 s1 (by decide +kernel)) (by decide +kernel),
    .built o3 _ (by decide +kernel), by decide +kernel, by decide +kernel, by decide +kernel,
    by decide +kernel, Or.inr ⟨by decide +kernel, by decide +kernel⟩, by decide +kernel⟩

/-- One bin with an item of length 3, 2 or 1 and profit 10⁶, 10⁶ + 0.6 or 10⁶ + 1.2, and a second
bin with a small item. -/
def cycleInst : Instance := {
  objective := .default
  itemTypes := [
    { box := ⟨3, 1, 1⟩, rotations := [.xyz], profit := 1000000, copiesMin := 0 },
    { box := ⟨2, 1, 1⟩, rotations := [.xyz], profit := 1000000 + 3/5, copiesMin := 0 },
    { box := ⟨1, 1, 1⟩, rotations := [.xyz], profit := 1000000 + 6/5, copiesMin := 0 },
    { box := ⟨1, 1, 1⟩, rotations := [.xyz], copiesMin := 0 }]
  binTypes := [{ box := ⟨10, 1, 1⟩, cost := 1, copies := 2 }] }

def cycleOps (i : Nat) : List BuilderOp :=
  [.addBin 0 1, .addItem 0 i 0 0 0 .xyz, .addBin 0 1, .addItem 1 3 0 0 0 .xyz]

def cycleSol (i : Nat) : Solution := okD {} (SolutionBuilder.runOps cycleInst (cycleOps i))

/-- **C86**, negation: under the Default objective three feasible solutions beat each other in a
cycle. -/
theorem default_objective_cycles : ∃ (inst : Instance) (a b c : Solution),
    inst.objective = .default ∧ Reachable inst a ∧ Reachable inst b ∧ Reachable inst c
    ∧ a.feasible = true ∧ b.feasible = true ∧ c.feasible = true
    ∧ Solution.ltB inst a b = true ∧ Solution.ltB inst b c = true
    ∧ Solution.ltB inst c a = true :=
  ⟨cycleInst, cycleSol 2, cycleSol 1, cycleSol 0, rfl, .built (cycleOps 2) _ (by decide +kernel),
    .built (cycleOps 1) _ (by decide +kernel), .built (cycleOps 0) _ (by decide +kernel),
    by decide +kernel, by decide +kernel, by decide +kernel, by decide +kernel,
    by decide +kernel, by decide +kernel⟩

/-- **C86**, negation: with an empty last bin the comparison under BinPackingWithLeftovers prefers
the solution that leaves less: the empty bin's leftover is not computed. -/
theorem empty_bin_leftover_ignored : ∃ (inst : Instance) (a b : Solution),
    inst.objective = .binPackingWithLeftovers ∧ Reachable inst a ∧ Reachable inst b
    ∧ a.feasible = true ∧ b.feasible = true
    ∧ Better inst (packingOf b) (packingOf a) ∧ Solution.ltB inst a b = true := by
  let i : Instance := {
    objective := .binPackingWithLeftovers
    itemTypes := [{ box := ⟨3, 3, 3⟩, rotations := [.xyz], copies := 2 }]
    binTypes := [{ box := ⟨10, 10, 10⟩, copies := 2 }] }
  let oa : List BuilderOp := [.addBin 0 1, .addItem 0 0 0 0 0 .xyz, .addItem 0 0 3 0 0 .xyz,
    .addBin 0 1]
  let ob : List BuilderOp := [.addBin 0 1, .addItem 0 0 0 0 0 .xyz, .addBin 0 1,
    .addItem 1 0 0 0 0 .xyz]
  exact ⟨i, okD {} (SolutionBuilder.runOps i oa), okD {} (SolutionBuilder.runOps i ob), rfl,
    .built oa _ (by decide +kernel), .built ob _ (by decide +kernel), by decide +kernel,
    by decide +kernel, Or.inr ⟨by decide +kernel, by decide +kernel⟩, by decide +kernel⟩

end PackingSolver.Box
