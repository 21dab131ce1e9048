import Verif.Model.Rect.Compare
import Verif.Props.Rect.Solution
import Verif.Props.Pool
import Verif.Props.Num
import Verif.Spec.RectCompare

/-!
# C54: comparing rectangle solutions
-/

namespace PackingSolver.Rect

open Rect.Spec
open PackingSolver.OneDim.Examples (okD)

variable {inst : Instance}

/-- Solutions with non-negative profit and cost. -/
def NonnegValues (s : Solution) : Prop := 0 ≤ s.itemProfit ∧ 0 ≤ s.binCost

/-- The comparison of two solutions, objective by objective. -/
theorem ltB_true_iff (ho : Ordered inst.objective) (a b : Solution) :
    Solution.ltB inst a b = true ↔ b.feasible = true ∧ (a.feasible = false ∨
      match inst.objective with
      | .binPacking => b.numberOfBins < a.numberOfBins
      | .binPackingWithLeftovers => b.numberOfBins < a.numberOfBins
          ∨ (b.numberOfBins = a.numberOfBins ∧ a.leftoverValue + 1 / 1000000 < b.leftoverValue)
      | .openDimensionX => b.xMax < a.xMax
      | .openDimensionY => b.yMax < a.yMax
      | .knapsack | .feasibility => strictlyGreaterProfit b.itemProfit a.itemProfit = true
      | .variableSizedBinPacking => strictlyLesserCost b.binCost a.binCost = true
      | _ => False) := by
  unfold Solution.ltB Solution.lt
  cases hb : b.feasible <;> cases ha : a.feasible <;> simp
  generalize inst.objective = obj at ho ⊢
  cases obj <;> simp [Ordered] at ho ⊢
  by_cases he : b.numberOfBins = a.numberOfBins
  · simp only [he, if_true, lt_irrefl, false_or, true_and, strictlyGreater, tol,
      one_div]
    rw [decide_eq_true_iff]
    constructor <;> intro h <;> linarith
  · simp [he]

/-- **C54** (asymmetry). -/
theorem lt_asymm (ho : Ordered inst.objective) :
    PackingSolver.Spec.Asymmetric NonnegValues (Solution.ltB inst) := by
  intro a b va vb h
  by_contra hc
  rw [Bool.not_eq_false] at hc
  rw [ltB_true_iff ho] at h hc
  rcases h with ⟨hb, h⟩
  rcases hc with ⟨ha, hc⟩
  rw [ha] at h
  rw [hb] at hc
  simp only [Bool.true_eq_false, false_or] at h hc
  generalize inst.objective = obj at ho h hc
  cases obj <;> simp only [Ordered] at ho h hc
  · omega
  · rcases h with h | ⟨h, h'⟩ <;> rcases hc with hc | ⟨hc, hc'⟩
    · omega
    · omega
    · omega
    · linarith
  · omega
  · omega
  · rw [profit_greater_asymm vb.1 va.1 h] at hc; exact absurd hc (by decide)
  · rw [strictlyLesserCost_nonneg vb.2 va.2] at h
    rw [strictlyLesserCost_nonneg va.2 vb.2] at hc
    have := va.2
    have := vb.2
    rcases h with ⟨h1, h2⟩ | ⟨h1, h2⟩ <;> rcases hc with ⟨h3, h4⟩ | ⟨h3, h4⟩ <;> linarith
  · rw [profit_greater_asymm vb.1 va.1 h] at hc; exact absurd hc (by decide)

/-- **C54** (transitivity). -/
theorem lt_trans (ho : Ordered inst.objective) :
    PackingSolver.Spec.Transitive NonnegValues (Solution.ltB inst) := by
  intro a b c va vb vc h1 h2
  rw [ltB_true_iff ho] at h1 h2 ⊢
  obtain ⟨hb, h1⟩ := h1
  obtain ⟨hc, h2⟩ := h2
  refine ⟨hc, ?_⟩
  rw [hb] at h2
  simp only [Bool.true_eq_false, false_or] at h2
  rcases h1 with h1 | h1
  · exact .inl h1
  · right
    generalize inst.objective = obj at ho h1 h2 ⊢
    cases obj <;> simp only [Ordered] at ho h1 h2 ⊢
    · omega
    · rcases h1 with h1 | ⟨h1, h1'⟩ <;> rcases h2 with h2 | ⟨h2, h2'⟩
      · left; omega
      · left; omega
      · left; omega
      · right; exact ⟨by omega, by linarith⟩
    · omega
    · omega
    · exact profit_greater_trans vc.1 vb.1 va.1 h2 h1
    · rw [strictlyLesserCost_nonneg vb.2 va.2] at h1
      rw [strictlyLesserCost_nonneg vc.2 vb.2] at h2
      rw [strictlyLesserCost_nonneg vc.2 va.2]
      have := va.2
      have := vb.2
      rcases h1 with ⟨h1, h3⟩ | ⟨h1, h3⟩ <;> rcases h2 with ⟨h2, h4⟩ | ⟨h2, h4⟩
      · left; constructor <;> linarith
      · right; constructor <;> linarith
      · linarith
      · linarith
    · exact profit_greater_trans vc.1 vb.1 va.1 h2 h1

/-- **C54** (feasible solutions are preferred): for every objective, a feasible solution is better
than any infeasible one, and an infeasible solution is never better. -/
theorem lt_prefers_feasible (a b : Solution) :
    (b.feasible = true → a.feasible = false → Solution.lt inst a b = .ok true)
    ∧ (b.feasible = false → Solution.lt inst a b = .ok false) := by
  unfold Solution.lt
  constructor
  · intro hb ha; simp [hb, ha]
  · intro hb; simp [hb]

/-- **C54** (totality): the comparison answers for every supported objective; for every other one
it throws as soon as two feasible solutions are compared. -/
theorem lt_answers_iff (a b : Solution) (ha : a.feasible = true) (hb : b.feasible = true) :
    (∃ r, Solution.lt inst a b = .ok r) ↔ Supported inst.objective := by
  unfold Solution.lt
  simp only [ha, hb, Bool.not_true, Bool.false_eq_true, if_false]
  generalize inst.objective = obj
  have hite : ∀ (c : Prop) [Decidable c] (x y : Except Err Bool), (∃ r, x = .ok r) →
      (∃ r, y = .ok r) → ∃ r, (if c then x else y) = .ok r := by
    intro c _ x y hx hy
    by_cases hc : c
    · rw [if_pos hc]; exact hx
    · rw [if_neg hc]; exact hy
  cases obj
  case default =>
    exact ⟨fun _ => .inr (.inl rfl), fun _ => hite _ _ _ ⟨_, rfl⟩ (hite _ _ _ ⟨_, rfl⟩ ⟨_, rfl⟩)⟩
  case binPackingWithLeftovers =>
    exact ⟨fun _ => .inl trivial, fun _ => hite _ _ _ ⟨_, rfl⟩ ⟨_, rfl⟩⟩
  case sequentialOneDimensionalRectangleSubproblem =>
    exact ⟨fun _ => .inr (.inr rfl), fun _ => hite _ _ _ ⟨_, rfl⟩ (hite _ _ _ ⟨_, rfl⟩ ⟨_, rfl⟩)⟩
  all_goals simp [Supported, Ordered]

/-! ### Exactness -/

theorem isMaxWithZero_unique {l : List Int} {m n : Int} (h : OneDim.Spec.IsMaxWithZero l m)
    (h' : OneDim.Spec.IsMaxWithZero l n) : m = n := by
  obtain ⟨h1, h2, h3⟩ := h
  obtain ⟨h4, h5, h6⟩ := h'
  apply le_antisymm
  · rcases h3 with rfl | h3
    · exact h5
    · exact h4 _ h3
  · rcases h6 with rfl | h6
    · exact h2
    · exact h1 _ h6

theorem isMaxWithZero_foldl (l : List Int) : OneDim.Spec.IsMaxWithZero l (l.foldl max 0) := by
  have key : ∀ (l : List Int) (a : Int), (∀ x ∈ l, x ≤ l.foldl max a) ∧ a ≤ l.foldl max a
      ∧ (l.foldl max a = a ∨ l.foldl max a ∈ l) := by
    intro l
    induction l with
    | nil => intro a; simp
    | cons x l ih =>
      intro a
      obtain ⟨h1, h2, h3⟩ := ih (max a x)
      simp only [List.foldl_cons]
      have := le_max_left a x
      have := le_max_right a x
      refine ⟨?_, by omega, ?_⟩
      · intro y hy
        rcases List.mem_cons.mp hy with rfl | hy
        · omega
        · exact h1 y hy
      · rcases h3 with h3 | h3
        · rw [h3]
          rcases max_choice a x with h | h <;> rw [h]
          · exact .inl rfl
          · exact .inr (by simp)
        · exact .inr (by simp [h3])
  exact key l 0

/-- **C54** (extents): `x_max()` and `y_max()` are the used width and height of the last bin. -/
theorem used_exact {s : Solution} (h : Reachable inst s) :
    s.xMax = usedX inst (packingOf s) ∧ s.yMax = usedY inst (packingOf s) :=
  ⟨isMaxWithZero_unique (extents_exact_partial h).1 (isMaxWithZero_foldl _),
    isMaxWithZero_unique (extents_exact_partial h).2.1 (isMaxWithZero_foldl _)⟩

/-- **C54** (leftover): if the last bin is not empty, `leftover_value()` is what remains of it. -/
theorem leftover_exact_partial {s : Solution} (h : Reachable inst s)
    (hl : lastItems (packingOf s) ≠ []) :
    s.leftoverValue = ((remaining inst (packingOf s) : Int) : ℚ) := by
  obtain ⟨hx, hy⟩ := used_exact h
  cases hp : (packingOf s).getLast? with
  | none => rw [lastItems, hp] at hl; exact absurd rfl hl
  | some b =>
    rw [lastItems, hp] at hl
    obtain ⟨q, hq⟩ : ∃ q, packingOf s = q ++ [b] := by
      rw [List.getLast?_eq_some_iff] at hp; exact hp
    obtain ⟨ha, hle⟩ := h.good.extents.area q b hq hl
    have hb : Spec.binArea inst (binsView s.bins) - s.area
        = (inst.binType b.binTypeId).x * (inst.binType b.binTypeId).y
          - usedX inst (packingOf s) * usedY inst (packingOf s) := by
      rw [ha, hx, hy, BinType.area]; ring
    rw [hle, leftover, remaining, hp]
    dsimp only
    cases inst.parameters.leftoverMode
    · simp only [hb]
    · simp only [hx]
    · simp only [hy]

/-- **C54** (exactness): among feasible solutions, the preferred one is the one whose packing is
better by more than the tolerance. -/
theorem lt_iff_clearlyBetter_partial (ho : Ordered inst.objective) {a b : Solution}
    (ha : Reachable inst a) (hb : Reachable inst b) (fa : a.feasible = true)
    (fb : b.feasible = true) (hR : ResourceIdsOk inst) (hcap : CapacitiesNonneg inst)
    (hnn : ConsumptionsNonneg inst) (pa : 0 ≤ a.itemProfit) (pb : 0 ≤ b.itemProfit)
    (ca : 0 < a.binCost) (cb : 0 < b.binCost) (la : lastItems (packingOf a) ≠ [])
    (lb : lastItems (packingOf b) ≠ []) :
    Solution.ltB inst a b = true ↔ ClearlyBetter inst (packingOf a) (packingOf b) := by
  rw [ltB_true_iff ho, fa, fb]
  simp only [Bool.true_eq_false, false_or, true_and]
  have e := used_exact ha
  have e' := used_exact hb
  have l := leftover_exact_partial ha la
  have l' := leftover_exact_partial hb lb
  obtain ⟨n, -, -, -, -, c, -⟩ := indicators_exact ha
  obtain ⟨n', -, -, -, -, c', -⟩ := indicators_exact hb
  have p := profit_exact ha hR hcap hnn
  have p' := profit_exact hb hR hcap hnn
  unfold ClearlyBetter Better
  generalize inst.objective = obj at ho ⊢
  cases obj <;> simp only [Ordered] at ho ⊢
  · rw [n, n']
  · rw [n, n', l, l']
    apply or_congr_right
    apply and_congr_right
    intro _
    constructor
    · intro h
      have : ((remaining inst (packingOf a) : Int) : ℚ) < (remaining inst (packingOf b) : Int) := by
        linarith
      exact_mod_cast this
    · intro h
      have : ((remaining inst (packingOf a) : Int) : ℚ) + 1 ≤ (remaining inst (packingOf b) : Int) := by
        exact_mod_cast h
      linarith
  · rw [e.1, e'.1]
  · rw [e.2, e'.2]
  · rw [strictlyGreaterProfit_iff pb pa, p, p']
  · unfold strictlyLesserCost
    rw [strictlyGreaterCost_iff ca cb, c, c']
  · rw [strictlyGreaterProfit_iff pb pa, p, p']

/-- A worse solution than `SolEx.sol`: it uses four bins. -/
def worse : Solution := okD {} (SolutionBuilder.runOps SolEx.inst
  [.addBin 0 1, .addItem 0 0 0 0 false, .addBin 1 3, .addItem 1 0 0 0 true])

example : Ordered SolEx.inst.objective ∧ Reachable SolEx.inst SolEx.sol
    ∧ Reachable SolEx.inst worse ∧ worse.feasible = true ∧ SolEx.sol.feasible = true
    ∧ 0 ≤ worse.itemProfit ∧ 0 ≤ SolEx.sol.itemProfit ∧ 0 < worse.binCost ∧ 0 < SolEx.sol.binCost
    ∧ lastItems (packingOf worse) ≠ [] ∧ lastItems (packingOf SolEx.sol) ≠ []
    ∧ Solution.ltB SolEx.inst worse SolEx.sol = true
    ∧ Solution.ltB SolEx.inst (Solution.init SolEx.inst) worse = true :=
  ⟨trivial, SolEx.sol_reachable, .built [.addBin 0 1, .addItem 0 0 0 0 false, .addBin 1 3,
    .addItem 1 0 0 0 true] _ (by decide +kernel), by decide +kernel, by decide +kernel,
    by decide +kernel, by decide +kernel, by decide +kernel, by decide +kernel, by decide +kernel,
    by decide +kernel, by decide +kernel, by decide +kernel⟩

/-- **C04** for rectangle solutions: whatever the sequence of solutions offered to the output, its
best solution is one of them (or the empty one) and none is strictly better. -/
theorem best_solution_correct (ho : Ordered inst.objective) (l : List Solution)
    (hl : ∀ s ∈ l, NonnegValues s) :
    PackingSolver.Spec.IsBest (Solution.ltB inst) (Solution.init inst :: l)
      ((Pool.new (Solution.ops inst) 1).addAll (Solution.ops inst) l).best :=
  pool_best_size_one (o := Solution.ops inst) NonnegValues (lt_asymm ho) (lt_trans ho)
    ⟨le_refl _, le_refl _⟩ l hl

example : Ordered SolEx.inst.objective ∧ NonnegValues SolEx.sol ∧ NonnegValues worse
    ∧ ((Pool.new (Solution.ops SolEx.inst) 1).addAll (Solution.ops SolEx.inst)
        [worse, SolEx.sol, worse]).best = SolEx.sol :=
  ⟨trivial, by constructor <;> decide +kernel, by constructor <;> decide +kernel,
    by decide +kernel⟩

/-! ### Negations -/

/-- One bin with an item of length 3, 2 or 1 and profit 10⁶, 10⁶ + 0.6 or 10⁶ + 1.2, and a second
bin with a small item. -/
def cycleInst : Instance := {
  objective := .default
  itemTypes := [
    { x := 3, y := 1, profit := 1000000, copiesMin := 0 },
    { x := 2, y := 1, profit := 1000000 + 3/5, copiesMin := 0 },
    { x := 1, y := 1, profit := 1000000 + 6/5, copiesMin := 0 },
    { x := 1, y := 1, copiesMin := 0 }]
  binTypes := [{ x := 10, y := 1, cost := 1, copies := 2 }] }

def cycleOps (i : Nat) : List BuilderOp :=
  [.addBin 0 1, .addItem 0 i 0 0 false, .addBin 0 1, .addItem 1 3 0 0 false]

def cycleSol (i : Nat) : Solution := okD {} (SolutionBuilder.runOps cycleInst (cycleOps i))

/-- **C54**, negation: under the Default objective three feasible solutions beat each other in a
cycle. -/
theorem default_objective_cycles : ∃ (inst : Instance) (a b c : Solution),
    inst.objective = .default ∧ Reachable inst a ∧ Reachable inst b ∧ Reachable inst c
    ∧ a.feasible = true ∧ b.feasible = true ∧ c.feasible = true
    ∧ Solution.ltB inst a b = true ∧ Solution.ltB inst b c = true
    ∧ Solution.ltB inst c a = true :=
  ⟨cycleInst, cycleSol 2, cycleSol 1, cycleSol 0, rfl, .built (cycleOps 2) _ (by decide +kernel),
    .built (cycleOps 1) _ (by decide +kernel), .built (cycleOps 0) _ (by decide +kernel),
    by decide +kernel, by decide +kernel, by decide +kernel, by decide +kernel,
    by decide +kernel, by decide +kernel⟩

/-- **C54**, negation: with an empty last bin the comparison under BinPackingWithLeftovers prefers
the solution that leaves less: the empty bin's leftover is not computed. -/
theorem empty_bin_leftover_ignored : ∃ (inst : Instance) (a b : Solution),
    inst.objective = .binPackingWithLeftovers ∧ Reachable inst a ∧ Reachable inst b
    ∧ a.feasible = true ∧ b.feasible = true
    ∧ Better inst (packingOf b) (packingOf a) ∧ Solution.ltB inst a b = true := by
  let i : Instance := {
    objective := .binPackingWithLeftovers
    itemTypes := [{ x := 3, y := 3, copies := 2 }]
    binTypes := [{ x := 10, y := 10, copies := 2 }] }
  let oa : List BuilderOp := [.addBin 0 1, .addItem 0 0 0 0 false, .addItem 0 0 3 0 false,
    .addBin 0 1]
  let ob : List BuilderOp := [.addBin 0 1, .addItem 0 0 0 0 false, .addBin 0 1,
    .addItem 1 0 0 0 false]
  exact ⟨i, okD {} (SolutionBuilder.runOps i oa), okD {} (SolutionBuilder.runOps i ob), rfl,
    .built oa _ (by decide +kernel), .built ob _ (by decide +kernel), by decide +kernel,
    by decide +kernel, Or.inr ⟨by decide +kernel, by decide +kernel⟩, by decide +kernel⟩

end PackingSolver.Rect
