import Verif.Model.Guil.Compare
import Verif.Props.Guil.Solution
import Verif.Props.Pool
import Verif.Props.Num
import Verif.Spec.GuillotineCompare

/-!
# C72: comparing guillotine solutions
-/

namespace PackingSolver.Guil

open Guil.Spec

section
variable {inst : Instance}

/-- Solutions with non-negative profit and cost. -/
def NonnegValues (s : Solution) : Prop := 0 ≤ s.profit ∧ 0 ≤ s.cost

/-- The comparison of two solutions, objective by objective. -/
theorem ltB_true_iff (ho : Ordered inst.objective) (a b : Solution) :
    Solution.ltB inst a b = true ↔ b.feasible = true ∧ (a.feasible = false ∨
      match inst.objective with
      | .binPacking => b.numberOfBins < a.numberOfBins
      | .binPackingWithLeftovers => b.waste < a.waste
          ∨ (b.waste = a.waste ∧ a.secondLeftoverValue < b.secondLeftoverValue)
      | .openDimensionX => b.width < a.width
      | .openDimensionY => b.height < a.height
      | .binPackingCuttingCost => b.cuttingCost < a.cuttingCost
      | .knapsack | .feasibility => strictlyGreaterProfit b.profit a.profit = true
      | .variableSizedBinPacking => strictlyLesserCost b.cost a.cost = true
      | _ => False) := by
  unfold Solution.ltB Solution.lt
  cases hb : b.feasible <;> cases ha : a.feasible <;> simp
  generalize inst.objective = obj at ho ⊢
  cases obj <;> simp [Ordered] at ho ⊢
  by_cases he : b.waste = a.waste
  · simp [he]
  · simp [he]

/-- **C72** (asymmetry). -/
theorem lt_asymm (ho : Ordered inst.objective) :
    PackingSolver.Spec.Asymmetric NonnegValues (Solution.ltB inst) := by
  intro a b va vb h
  by_contra hc
  rw [Bool.not_eq_false] at hc
  rw [ltB_true_iff ho] at h hc
  rcases h with ⟨hb, h⟩
  rcases hc with ⟨ha, hc⟩
  rw [ha] at h
  rw [hb] at hc
  simp only [Bool.true_eq_false, false_or] at h hc
  generalize inst.objective = obj at ho h hc
  have hp : strictlyGreaterProfit b.profit a.profit = true →
      strictlyGreaterProfit a.profit b.profit = true → False := by
    intro h hc
    rw [profit_greater_asymm vb.1 va.1 h] at hc
    exact absurd hc (by decide)
  have hcost : strictlyLesserCost b.cost a.cost = true →
      strictlyLesserCost a.cost b.cost = true → False := by
    intro h hc
    rw [strictlyLesserCost_nonneg vb.2 va.2] at h
    rw [strictlyLesserCost_nonneg va.2 vb.2] at hc
    have := va.2
    have := vb.2
    rcases h with ⟨h1, h2⟩ | ⟨h1, h2⟩ <;> rcases hc with ⟨h3, h4⟩ | ⟨h3, h4⟩ <;> linarith
  cases obj <;> simp only [Ordered] at ho h hc <;> first
    | omega
    | exact hp h hc
    | exact hcost h hc

/-- **C72** (transitivity). -/
theorem lt_trans (ho : Ordered inst.objective) :
    PackingSolver.Spec.Transitive NonnegValues (Solution.ltB inst) := by
  intro a b c va vb vc h1 h2
  rw [ltB_true_iff ho] at h1 h2 ⊢
  obtain ⟨hb, h1⟩ := h1
  obtain ⟨hc, h2⟩ := h2
  refine ⟨hc, ?_⟩
  rw [hb] at h2
  simp only [Bool.true_eq_false, false_or] at h2
  rcases h1 with h1 | h1
  · exact .inl h1
  · right
    have hcost : strictlyLesserCost b.cost a.cost = true →
        strictlyLesserCost c.cost b.cost = true → strictlyLesserCost c.cost a.cost = true := by
      intro h1 h2
      rw [strictlyLesserCost_nonneg vb.2 va.2] at h1
      rw [strictlyLesserCost_nonneg vc.2 vb.2] at h2
      rw [strictlyLesserCost_nonneg vc.2 va.2]
      have := va.2
      have := vb.2
      rcases h1 with ⟨h1, h3⟩ | ⟨h1, h3⟩ <;> rcases h2 with ⟨h2, h4⟩ | ⟨h2, h4⟩
      · left; constructor <;> linarith
      · right; constructor <;> linarith
      · linarith
      · linarith
    generalize inst.objective = obj at ho h1 h2 ⊢
    cases obj <;> simp only [Ordered] at ho h1 h2 ⊢ <;> first
      | omega
      | exact profit_greater_trans vc.1 vb.1 va.1 h2 h1
      | exact hcost h1 h2

/-- **C72** (strict weak order): under the objectives with integral values, being at least as good is
transitive, so that the better of two solutions does not depend on the order in which solutions are
met. -/
theorem lt_negTrans (ho : inst.objective = .binPacking ∨ inst.objective = .binPackingWithLeftovers
      ∨ inst.objective = .openDimensionX ∨ inst.objective = .openDimensionY
      ∨ inst.objective = .binPackingCuttingCost) :
    PackingSolver.Spec.NegTransitive (fun _ => True) (Solution.ltB inst) := by
  intro a b c _ _ _ h1 h2
  have hO : Ordered inst.objective := by
    rcases ho with h | h | h | h | h <;> rw [h] <;> exact trivial
  rw [← Bool.not_eq_true, ltB_true_iff hO] at h1 h2 ⊢
  rintro ⟨hc, h3⟩
  rcases hb : b.feasible with _ | _
  · exact h2 ⟨hc, .inl hb⟩
  · rcases h3 with h3 | h3
    · exact h1 ⟨hb, .inl h3⟩
    · rw [hb] at h1 h2
      rw [hc] at h2
      simp only [true_and, not_or, Bool.true_eq_false, not_false_eq_true] at h1 h2
      obtain ⟨_, g1⟩ := h1
      rcases ho with h | h | h | h | h <;> rw [h] at h3 g1 h2 <;> dsimp only at h3 g1 h2 <;> omega

/-- **C72** (feasible solutions are preferred): for every objective, a feasible solution is better
than any infeasible one, and an infeasible solution is never better. -/
theorem lt_prefers_feasible (a b : Solution) :
    (b.feasible = true → a.feasible = false → Solution.lt inst a b = .ok true)
    ∧ (b.feasible = false → Solution.lt inst a b = .ok false) := by
  unfold Solution.lt
  constructor
  · intro hb ha; simp [hb, ha]
  · intro hb; simp [hb]

/-- **C72** (totality): the comparison answers for every supported objective; for every other one
it throws as soon as two feasible solutions are compared. -/
theorem lt_answers_iff (a b : Solution) (ha : a.feasible = true) (hb : b.feasible = true) :
    (∃ r, Solution.lt inst a b = .ok r) ↔ Supported inst.objective := by
  unfold Solution.lt
  simp only [ha, hb, Bool.not_true, Bool.false_eq_true, if_false]
  generalize inst.objective = obj
  have hite : ∀ (c : Prop) [Decidable c] (x y : Except Err Bool), (∃ r, x = .ok r) →
      (∃ r, y = .ok r) → ∃ r, (if c then x else y) = .ok r := by
    intro c _ x y hx hy
    by_cases hc : c
    · rw [if_pos hc]; exact hx
    · rw [if_neg hc]; exact hy
  cases obj
  case default =>
    exact ⟨fun _ => .inr rfl, fun _ => hite _ _ _ ⟨_, rfl⟩ (hite _ _ _ ⟨_, rfl⟩ ⟨_, rfl⟩)⟩
  case binPackingWithLeftovers =>
    exact ⟨fun _ => .inl trivial, fun _ => hite _ _ _ ⟨_, rfl⟩ ⟨_, rfl⟩⟩
  all_goals simp [Supported, Ordered]

theorem isMaxWithZero_unique {l : List Int} {m n : Int} (h : IsMaxWithZero l m)
    (h' : IsMaxWithZero l n) : m = n := by
  obtain ⟨h1, h2, h3⟩ := h
  obtain ⟨h4, h5, h6⟩ := h'
  apply le_antisymm
  · rcases h3 with rfl | h3
    · exact h4
    · exact h5 _ h3
  · rcases h6 with rfl | h6
    · exact h1
    · exact h2 _ h6

theorem isMaxWithZero_foldl (l : List Int) : IsMaxWithZero l (l.foldl max 0) := by
  have key : ∀ (l : List Int) (a : Int), (∀ x ∈ l, x ≤ l.foldl max a) ∧ a ≤ l.foldl max a
      ∧ (l.foldl max a = a ∨ l.foldl max a ∈ l) := by
    intro l
    induction l with
    | nil => intro a; simp
    | cons x l ih =>
      intro a
      obtain ⟨h1, h2, h3⟩ := ih (max a x)
      simp only [List.foldl_cons]
      have := le_max_left a x
      have := le_max_right a x
      refine ⟨?_, by omega, ?_⟩
      · intro y hy
        rcases List.mem_cons.mp hy with rfl | hy
        · omega
        · exact h1 y hy
      · rcases h3 with h3 | h3
        · rw [h3]
          rcases max_choice a x with h | h <;> rw [h]
          · exact .inl rfl
          · exact .inr (by simp)
        · exact .inr (by simp [h3])
  obtain ⟨h1, h2, h3⟩ := key l 0
  exact ⟨h2, h1, h3⟩

/-- **C72** (exactness): among feasible built solutions, the preferred one is the one whose bins and
pieces are better; for profit and cost, by more than the tolerance. -/
theorem lt_iff_clearlyBetter (ho : Ordered inst.objective) {opsA opsB : List Op} {a b : Solution}
    (ha : (SolutionBuilder.run inst opsA).build inst = .ok a)
    (hb : (SolutionBuilder.run inst opsB).build inst = .ok b)
    (fa : a.feasible = true) (fb : b.feasible = true)
    (oa : ∀ p ∈ plates a, p.orientation ≠ .any) (ob : ∀ p ∈ plates b, p.orientation ≠ .any)
    (hR : ResourceIdsOk inst) (hcap : CapacitiesNonneg inst) (hnn : ConsumptionsNonneg inst)
    (pa : 0 ≤ a.profit) (pb : 0 ≤ b.profit) (ca : 0 < a.cost) (cb : 0 < b.cost) :
    Solution.ltB inst a b = true ↔ ClearlyBetter inst (plates a) (plates b) := by
  rw [ltB_true_iff ho, fa, fb]
  simp only [Bool.true_eq_false, false_or, true_and]
  obtain ⟨n, -, c, -⟩ := totals ha
  obtain ⟨n', -, c', -⟩ := totals hb
  have w : a.waste = wasteOf inst (plates a) := (waste_total ha).1
  have w' : b.waste = wasteOf inst (plates b) := (waste_total hb).1
  have k := cutting_cost_total ha oa
  have k' := cutting_cost_total hb ob
  obtain ⟨x, y, l⟩ := extent_total ha
  obtain ⟨x', y', l'⟩ := extent_total hb
  have x := isMaxWithZero_unique x (isMaxWithZero_foldl _)
  have y := isMaxWithZero_unique y (isMaxWithZero_foldl _)
  have x' := isMaxWithZero_unique x' (isMaxWithZero_foldl _)
  have y' := isMaxWithZero_unique y' (isMaxWithZero_foldl _)
  have p := profit_total ha hR hcap hnn
  have p' := profit_total hb hR hcap hnn
  unfold ClearlyBetter
  generalize inst.objective = obj at ho ⊢
  cases obj <;> simp only [Ordered] at ho ⊢
  case binPacking => rw [n, n']
  case binPackingWithLeftovers => rw [w, w', l, l']
  case openDimensionX => rw [x, x']; rfl
  case openDimensionY => rw [y, y']; rfl
  case binPackingCuttingCost => rw [k, k', w, w']
  case knapsack => rw [strictlyGreaterProfit_iff pb pa, p, p']
  case feasibility => rw [strictlyGreaterProfit_iff pb pa, p, p']
  case variableSizedBinPacking =>
    unfold strictlyLesserCost
    rw [strictlyGreaterCost_iff ca cb, c, c']

end

namespace TotalsEx

/-- The same items with every bin listed separately and one more, empty, bin. -/
def opsWorse : List Op := ops.take 6 ++ [.addBin 0 1 .vertical] ++ ops.drop 6

/-- A worse solution. -/
def worse : Solution := match (SolutionBuilder.run inst opsWorse).build inst with
  | .ok s => s
  | .error _ => {}

theorem builtWorse : (SolutionBuilder.run inst opsWorse).build inst = .ok worse := by
  decide +kernel

end TotalsEx

open TotalsEx in
/-- The hypotheses of the exactness are met by two solutions of which one is better. -/
example : (Ordered inst.objective ∧ worse.feasible = true ∧ sol.feasible = true)
    ∧ ((∀ p ∈ plates worse, p.orientation ≠ .any) ∧ ∀ p ∈ plates sol, p.orientation ≠ .any)
    ∧ (0 ≤ worse.profit ∧ 0 ≤ sol.profit ∧ 0 < worse.cost ∧ 0 < sol.cost)
    ∧ (ResourceIdsOk inst ∧ CapacitiesNonneg inst ∧ ConsumptionsNonneg inst)
    ∧ Solution.ltB inst worse sol = true ∧ Solution.ltB inst sol worse = false :=
  ⟨⟨trivial, by decide +kernel, by decide +kernel⟩, ⟨by decide +kernel, by decide +kernel⟩,
    ⟨by decide +kernel, by decide +kernel, by decide +kernel, by decide +kernel⟩,
    ⟨resourceIdsOk, capacitiesNonneg, consumptionsNonneg⟩, by decide +kernel, by decide +kernel⟩

end PackingSolver.Guil
