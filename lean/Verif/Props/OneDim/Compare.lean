import Verif.Model.OneDim.Compare
import Verif.Props.OneDim.Solution
import Verif.Props.Pool
import Verif.Props.Num
import Verif.Spec.OneDimCompare

/-!
# C18, C04, C05: comparing one-dimensional solutions
-/

namespace PackingSolver.OneDim

open OneDim.Spec

variable {inst : Instance}

/-- Solutions with non-negative profit and cost. -/
def NonnegValues (s : Solution) : Prop := 0 ≤ s.itemProfit ∧ 0 ≤ s.binCost

/-- The comparison of two solutions, objective by objective. -/
theorem ltB_true_iff (ho : SingleValue inst.objective) (a b : Solution) :
    Solution.ltB inst a b = true ↔ b.feasible = true ∧ (a.feasible = false ∨
      match inst.objective with
      | .binPacking => b.numberOfBins < a.numberOfBins
      | .binPackingWithLeftovers => b.waste < a.waste
      | .knapsack | .feasibility => strictlyGreaterProfit b.itemProfit a.itemProfit = true
      | .variableSizedBinPacking => strictlyLesserCost b.binCost a.binCost = true
      | _ => False) := by
  unfold Solution.ltB Solution.lt
  cases hb : b.feasible <;> cases ha : a.feasible <;> simp
  generalize inst.objective = obj at ho ⊢
  cases obj <;> simp [SingleValue] at ho ⊢

/-- **C18** (asymmetry; irreflexivity is the case of equal solutions). -/
theorem lt_asymm (ho : SingleValue inst.objective) :
    PackingSolver.Spec.Asymmetric NonnegValues (Solution.ltB inst) := by
  intro a b va vb h
  by_contra hc
  rw [Bool.not_eq_false] at hc
  rw [ltB_true_iff ho] at h hc
  rcases h with ⟨hb, h⟩
  rcases hc with ⟨ha, hc⟩
  rw [ha] at h
  rw [hb] at hc
  simp only [Bool.true_eq_false, false_or] at h hc
  generalize inst.objective = obj at ho h hc
  cases obj <;> simp only [SingleValue] at ho h hc
  · omega
  · omega
  · rw [profit_greater_asymm vb.1 va.1 h] at hc; exact absurd hc (by decide)
  · rw [strictlyLesserCost_nonneg vb.2 va.2] at h
    rw [strictlyLesserCost_nonneg va.2 vb.2] at hc
    have := va.2
    have := vb.2
    rcases h with ⟨h1, h2⟩ | ⟨h1, h2⟩ <;> rcases hc with ⟨h3, h4⟩ | ⟨h3, h4⟩ <;> linarith
  · rw [profit_greater_asymm vb.1 va.1 h] at hc; exact absurd hc (by decide)

theorem lt_irrefl (ho : SingleValue inst.objective) (a : Solution) (va : NonnegValues a) :
    Solution.ltB inst a a = false := by
  by_contra hc
  rw [Bool.not_eq_false] at hc
  rw [lt_asymm ho a a va va hc] at hc
  exact absurd hc (by decide)

/-- **C18** (transitivity). -/
theorem lt_trans (ho : SingleValue inst.objective) :
    PackingSolver.Spec.Transitive NonnegValues (Solution.ltB inst) := by
  intro a b c va vb vc h1 h2
  rw [ltB_true_iff ho] at h1 h2 ⊢
  obtain ⟨hb, h1⟩ := h1
  obtain ⟨hc, h2⟩ := h2
  refine ⟨hc, ?_⟩
  rw [hb] at h2
  simp only [Bool.true_eq_false, false_or] at h2
  rcases h1 with h1 | h1
  · exact .inl h1
  · right
    generalize inst.objective = obj at ho h1 h2 ⊢
    cases obj <;> simp only [SingleValue] at ho h1 h2 ⊢
    · omega
    · omega
    · exact profit_greater_trans vc.1 vb.1 va.1 h2 h1
    · rw [strictlyLesserCost_nonneg vb.2 va.2] at h1
      rw [strictlyLesserCost_nonneg vc.2 vb.2] at h2
      rw [strictlyLesserCost_nonneg vc.2 va.2]
      have := va.2
      have := vb.2
      rcases h1 with ⟨h1, h3⟩ | ⟨h1, h3⟩ <;> rcases h2 with ⟨h2, h4⟩ | ⟨h2, h4⟩
      · left; constructor <;> linarith
      · right; constructor <;> linarith
      · linarith
      · linarith
    · exact profit_greater_trans vc.1 vb.1 va.1 h2 h1

/-- **C18** (feasible solutions are preferred): a feasible solution is better than any
infeasible one, and an infeasible solution is never better. -/
theorem lt_prefers_feasible (ho : SingleValue inst.objective) (a b : Solution) :
    (b.feasible = true → a.feasible = false → Solution.ltB inst a b = true)
    ∧ (b.feasible = false → Solution.ltB inst a b = false) := by
  constructor
  · intro hb ha
    rw [ltB_true_iff ho]
    exact ⟨hb, .inl ha⟩
  · intro hb
    by_contra hc
    rw [Bool.not_eq_false, ltB_true_iff ho, hb] at hc
    exact absurd hc.1 (by decide)

/-- The waste of a solution is the waste of its packing. -/
theorem waste_exact {s : Solution} (h : Reachable inst s) :
    s.waste = Spec.waste inst (packingOf s) := by
  obtain ⟨-, -, -, h1, h2, -⟩ := indicators_exact h
  unfold Solution.waste Spec.waste
  rw [h1, h2]

/-- **C18** (exactness): among feasible solutions, the preferred one is the one whose
packing is better by more than the tolerance. -/
theorem lt_iff_clearlyBetter (ho : SingleValue inst.objective) {a b : Solution}
    (ha : Reachable inst a) (hb : Reachable inst b) (fa : a.feasible = true)
    (fb : b.feasible = true) (hR : ResourceIdsOk inst) (hcap : CapacitiesNonneg inst)
    (hnn : ConsumptionsNonneg inst) (pa : 0 ≤ a.itemProfit) (pb : 0 ≤ b.itemProfit)
    (ca : 0 < a.binCost) (cb : 0 < b.binCost) :
    Solution.ltB inst a b = true ↔ ClearlyBetter inst (packingOf a) (packingOf b) := by
  rw [ltB_true_iff ho, fa, fb]
  simp only [Bool.true_eq_false, false_or, true_and]
  have w := waste_exact ha
  have w' := waste_exact hb
  obtain ⟨n, -, -, -, -, c, -⟩ := indicators_exact ha
  obtain ⟨n', -, -, -, -, c', -⟩ := indicators_exact hb
  have p := profit_exact ha hR hcap hnn
  have p' := profit_exact hb hR hcap hnn
  unfold ClearlyBetter
  generalize inst.objective = obj at ho ⊢
  cases obj <;> simp only [SingleValue] at ho ⊢
  · rw [n, n']
  · rw [w, w']
  · rw [strictlyGreaterProfit_iff pb pa, p, p']
  · unfold strictlyLesserCost
    rw [strictlyGreaterCost_iff ca cb, c, c']
  · rw [strictlyGreaterProfit_iff pb pa, p, p']

/-- **C18** (never prefers a worse value). -/
theorem lt_never_worse (ho : SingleValue inst.objective) {a b : Solution}
    (ha : Reachable inst a) (hb : Reachable inst b) (fa : a.feasible = true)
    (hR : ResourceIdsOk inst) (hcap : CapacitiesNonneg inst)
    (hnn : ConsumptionsNonneg inst) (va : NonnegValues a) (vb : NonnegValues b)
    (h : Solution.ltB inst a b = true) : Better inst (packingOf a) (packingOf b) := by
  rw [ltB_true_iff ho, fa] at h
  simp only [Bool.true_eq_false, false_or] at h
  replace h := h.2
  have w := waste_exact ha
  have w' := waste_exact hb
  obtain ⟨n, -, -, -, -, c, -⟩ := indicators_exact ha
  obtain ⟨n', -, -, -, -, c', -⟩ := indicators_exact hb
  have p := profit_exact ha hR hcap hnn
  have p' := profit_exact hb hR hcap hnn
  unfold Better
  generalize inst.objective = obj at ho h ⊢
  cases obj <;> simp only [SingleValue] at ho h ⊢
  · rw [← n, ← n']; exact h
  · rw [← w, ← w']; exact h
  · rw [← p, ← p']; exact profit_greater_imp_gt vb.1 va.1 h
  · rw [← c, ← c']
    rw [strictlyLesserCost_nonneg vb.2 va.2] at h
    have := vb.2
    rcases h with h | h <;> linarith [h.1, h.2]
  · rw [← p, ← p']; exact profit_greater_imp_gt vb.1 va.1 h

example : SingleValue Examples.ex.objective ∧ Reachable Examples.ex Examples.exSol
    ∧ NonnegValues Examples.exSol ∧ NonnegValues (Solution.init Examples.ex)
    ∧ 0 < Examples.exSol.binCost
    ∧ Examples.exSol.feasible = true ∧ (Solution.init Examples.ex).feasible = false
    ∧ Solution.ltB Examples.ex (Solution.init Examples.ex) Examples.exSol = true :=
  ⟨trivial, Examples.exSol_reachable, by constructor <;> decide +kernel,
    by constructor <;> decide +kernel, by decide +kernel, by decide +kernel, by decide +kernel,
    by decide +kernel⟩

/-! ## C04 for one-dimensional solutions -/

/-- **C04**: whatever the sequence of solutions offered to the output of a
one-dimensional solver, its best solution is one of them (or the empty one) and none
is strictly better. -/
theorem best_solution_correct (ho : SingleValue inst.objective) (l : List Solution)
    (hl : ∀ s ∈ l, NonnegValues s) :
    PackingSolver.Spec.IsBest (Solution.ltB inst) (Solution.init inst :: l)
      ((Pool.new (Solution.ops inst) 1).addAll (Solution.ops inst) l).best :=
  pool_best_size_one (o := Solution.ops inst) NonnegValues (lt_asymm ho) (lt_trans ho)
    ⟨le_refl _, le_refl _⟩ l hl

/-- For the objectives compared exactly the result holds for pools of any size. -/
theorem best_solution_any_size
    (ho : inst.objective = .binPacking ∨ inst.objective = .binPackingWithLeftovers)
    (n : Nat) (hn : 1 ≤ n) (l : List Solution) (hl : ∀ s ∈ l, Reachable inst s) :
    PackingSolver.Spec.IsBest (Solution.ltB inst) (Solution.init inst :: l)
      ((Pool.new (Solution.ops inst) n).addAll (Solution.ops inst) l).best := by
  have hs : SingleValue inst.objective := by
    rcases ho with h | h <;> rw [h] <;> exact trivial
  have key : ∀ a b : Solution, Solution.ltB inst a b = true ↔ b.feasible = true ∧
      (a.feasible = false ∨ (if inst.objective = .binPacking then b.numberOfBins < a.numberOfBins
        else b.waste < a.waste)) := by
    intro a b
    rw [ltB_true_iff hs]
    rcases ho with h | h <;> simp [h]
  refine (pool_best_any_size (o := Solution.ops inst) (fun s => Reachable inst s) ?_ ?_ ?_ ?_
    .init n hn l hl).1
  · intro a b _ _ h
    by_contra hc
    rw [Bool.not_eq_false] at hc
    have h := (key a b).mp h
    have hc := (key b a).mp hc
    rw [hc.1] at h
    rw [h.1] at hc
    simp only [Bool.true_eq_false, false_or] at h hc
    split_ifs at h hc <;> omega
  · intro a b c _ _ _ h1 h2
    have h1 := (key a b).mp h1
    have h2 := (key b c).mp h2
    refine (key a c).mpr ⟨h2.1, ?_⟩
    rw [h1.1] at h2
    simp only [Bool.true_eq_false, false_or] at h2
    rcases h1.2 with h | h
    · exact .inl h
    · right
      have h2 := h2.2
      split_ifs at h h2 ⊢ <;> omega
  · intro a b c _ _ _ h1 h2
    by_contra hc
    rw [Bool.not_eq_false] at hc
    have hc := (key a c).mp hc
    have h1 : Solution.ltB inst a b = false := h1
    have h2 : Solution.ltB inst b c = false := h2
    have n1 : ¬ _ := fun h => (by rw [(key a b).mpr h] at h1; exact absurd h1 (by decide) : False)
    have n2 : ¬ _ := fun h => (by rw [(key b c).mpr h] at h2; exact absurd h2 (by decide) : False)
    rcases hc with ⟨fc, hc⟩
    cases fb : b.feasible
    · exact n2 ⟨fc, .inl fb⟩
    · rcases hc with hc | hc
      · exact n1 ⟨fb, .inl hc⟩
      · by_cases hn1 : (if inst.objective = .binPacking then b.numberOfBins < a.numberOfBins
            else b.waste < a.waste)
        · exact n1 ⟨fb, .inr hn1⟩
        · refine n2 ⟨fc, .inr ?_⟩
          split_ifs at hc hn1 ⊢ <;> omega
  · intro a b ha hb
    show a.itemCopies.length = b.itemCopies.length
    rw [ha.good.indic.itemCopiesLen, hb.good.indic.itemCopiesLen]

example : SingleValue Examples.ex.objective
    ∧ (Examples.ex.objective = .binPacking ∨ Examples.ex.objective = .binPackingWithLeftovers)
    ∧ ((Pool.new (Solution.ops Examples.ex) 1).addAll (Solution.ops Examples.ex)
        [Examples.exSol]).best = Examples.exSol :=
  ⟨trivial, .inl rfl, by decide +kernel⟩

/-! ## C05 -/

/-- One bin holding an item of length 3, 2 or 1 and profit 10⁶, 10⁶ + 0.6 or
10⁶ + 1.2, followed by a bin with a small item. -/
def cycleInst : Instance := {
  objective := .default
  itemTypes := [
    { length := 3, profit := 1000000, copies := 1, copiesMin := 0, resourceIds := [[]] },
    { length := 2, profit := 1000000 + 3/5, copies := 1, copiesMin := 0, resourceIds := [[]] },
    { length := 1, profit := 1000000 + 6/5, copies := 1, copiesMin := 0, resourceIds := [[]] },
    { length := 1, profit := 0, copies := 1, copiesMin := 0, resourceIds := [[]] }]
  binTypes := [{ length := 10, cost := 1, copies := 2, copiesMin := 0 }] }

def cycleOps (i : Nat) : List BuilderOp :=
  [.addBin 0 1, .addItem 0 i, .addBin 0 1, .addItem 1 3]

def cycleSol (i : Nat) : Solution := Examples.okD {} (SolutionBuilder.runOps cycleInst (cycleOps i))

theorem cycleSol_reachable (i : Nat) (hi : i < 3) : Reachable cycleInst (cycleSol i) := by
  refine .built (cycleOps i) (cycleSol i) (by intro t c h; simp [cycleOps] at h; omega) ?_
  have : i = 0 ∨ i = 1 ∨ i = 2 := by omega
  rcases this with rfl | rfl | rfl <;> decide +kernel

/-- **C05** fails: under the Default objective three feasible solutions beat each other
in a cycle. -/
theorem default_objective_cycles : ∃ (inst : Instance) (a b c : Solution),
    inst.objective = .default ∧ Reachable inst a ∧ Reachable inst b ∧ Reachable inst c
    ∧ a.feasible = true ∧ b.feasible = true ∧ c.feasible = true
    ∧ Solution.ltB inst a b = true ∧ Solution.ltB inst b c = true
    ∧ Solution.ltB inst c a = true :=
  ⟨cycleInst, cycleSol 2, cycleSol 1, cycleSol 0, rfl, cycleSol_reachable 2 (by decide),
    cycleSol_reachable 1 (by decide), cycleSol_reachable 0 (by decide), by decide +kernel,
    by decide +kernel, by decide +kernel, by decide +kernel, by decide +kernel,
    by decide +kernel⟩

/-- **C05** fails: the pool replaces its best solution by successive "improvements" and
ends with a solution that is worse than one it has dropped. -/
theorem default_objective_regresses : ∃ (inst : Instance) (l : List Solution),
    inst.objective = .default ∧ (∀ s ∈ l, Reachable inst s ∧ s.feasible = true)
    ∧ ∃ x ∈ l, Solution.ltB inst
      ((Pool.new (Solution.ops inst) 1).addAll (Solution.ops inst) l).best x = true := by
  refine ⟨cycleInst, [cycleSol 2, cycleSol 1, cycleSol 0], rfl, ?_, cycleSol 2, by simp,
    by decide +kernel⟩
  intro s hs
  simp only [List.mem_cons, List.not_mem_nil, or_false] at hs
  rcases hs with rfl | rfl | rfl
  · exact ⟨cycleSol_reachable 2 (by decide), by decide +kernel⟩
  · exact ⟨cycleSol_reachable 1 (by decide), by decide +kernel⟩
  · exact ⟨cycleSol_reachable 0 (by decide), by decide +kernel⟩

/-- What holds under the Default objective. -/
theorem ltB_default_iff (ho : inst.objective = .default) (a b : Solution)
    (va : 0 ≤ a.itemProfit) (vb : 0 ≤ b.itemProfit) :
    Solution.ltB inst a b = true ↔ b.feasible = true ∧ (a.feasible = false ∨
      strictlyGreaterProfit b.itemProfit a.itemProfit = true ∨
        (equalProfit a.itemProfit b.itemProfit = true ∧ b.waste < a.waste)) := by
  unfold Solution.ltB Solution.lt strictlyLesserProfit equalProfit
  rw [ho]
  cases hb : b.feasible <;> cases ha : a.feasible <;> simp
  cases h1 : strictlyGreaterProfit a.itemProfit b.itemProfit
  · cases h2 : strictlyGreaterProfit b.itemProfit a.itemProfit <;> simp
  · simp [profit_greater_asymm va vb h1]

/-- **C05**, the part that holds: under the Default objective no two solutions are
preferred to each other, and the comparison is transitive between solutions whose
profits are equal or differ by more than the tolerance.
Missing: transitivity in general, which is false (`default_objective_cycles`). -/
theorem default_objective_partial (ho : inst.objective = .default) (D : Solution → Prop)
    (hD : ∀ a b, D a → D b → a.itemProfit = b.itemProfit
      ∨ strictlyGreaterProfit a.itemProfit b.itemProfit = true
      ∨ strictlyGreaterProfit b.itemProfit a.itemProfit = true)
    (hn : ∀ a, D a → 0 ≤ a.itemProfit) :
    (∀ a b, 0 ≤ a.itemProfit → 0 ≤ b.itemProfit → Solution.ltB inst a b = true →
      Solution.ltB inst b a = false)
    ∧ PackingSolver.Spec.Transitive D (Solution.ltB inst) := by
  constructor
  · intro a b va vb h
    by_contra hc
    rw [Bool.not_eq_false] at hc
    rw [ltB_default_iff ho a b va vb] at h
    rw [ltB_default_iff ho b a vb va] at hc
    obtain ⟨fb, h⟩ := h
    obtain ⟨fa, hc⟩ := hc
    rw [fa] at h
    rw [fb] at hc
    simp only [Bool.true_eq_false, false_or, equalProfit, Bool.and_eq_true,
      Bool.not_eq_true'] at h hc
    rcases h with h | h <;> rcases hc with hc | hc
    · rw [profit_greater_asymm vb va h] at hc; exact absurd hc (by decide)
    · rw [h] at hc; exact absurd hc.1.1 (by decide)
    · rw [hc] at h; exact absurd h.1.1 (by decide)
    · omega
  · intro a b c da db dc h1 h2
    have va := hn a da
    have vb := hn b db
    have vc := hn c dc
    rw [ltB_default_iff ho a b va vb] at h1
    rw [ltB_default_iff ho b c vb vc] at h2
    rw [ltB_default_iff ho a c va vc]
    obtain ⟨fb, h1⟩ := h1
    obtain ⟨fc, h2⟩ := h2
    refine ⟨fc, ?_⟩
    rw [fb] at h2
    simp only [Bool.true_eq_false, false_or] at h2
    have heq : ∀ x y : Solution, D x → D y → equalProfit x.itemProfit y.itemProfit = true →
        x.itemProfit = y.itemProfit := by
      intro x y dx dy h
      simp only [equalProfit, Bool.and_eq_true, Bool.not_eq_true'] at h
      rcases hD x y dx dy with h' | h' | h'
      · exact h'
      · rw [h.1] at h'; exact absurd h' (by decide)
      · rw [h.2] at h'; exact absurd h' (by decide)
    rcases h1 with h1 | h1 | h1
    · exact .inl h1
    · right; left
      rcases h2 with h2 | h2
      · exact profit_greater_trans vc vb va h2 h1
      · rw [← heq b c db dc h2.1]; exact h1
    · rcases h2 with h2 | h2
      · right; left
        rw [heq a b da db h1.1]; exact h2
      · right; right
        refine ⟨?_, by omega⟩
        rw [heq a b da db h1.1]; exact h2.1

example : cycleInst.objective = .default
    ∧ (∀ a b, (a = cycleSol 0 ∨ a = cycleSol 2) → (b = cycleSol 0 ∨ b = cycleSol 2) →
      a.itemProfit = b.itemProfit
      ∨ strictlyGreaterProfit a.itemProfit b.itemProfit = true
      ∨ strictlyGreaterProfit b.itemProfit a.itemProfit = true)
    ∧ (∀ a, (a = cycleSol 0 ∨ a = cycleSol 2) → 0 ≤ a.itemProfit) := by
  refine ⟨rfl, ?_, ?_⟩
  · rintro a b (rfl | rfl) (rfl | rfl)
    · exact .inl rfl
    · exact .inr (.inr (by decide +kernel))
    · exact .inr (.inl (by decide +kernel))
    · exact .inl rfl
  · rintro a (rfl | rfl) <;> decide +kernel

end PackingSolver.OneDim
