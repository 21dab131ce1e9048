import Verif.Model.Num
import Mathlib.Tactic.Linarith
import Mathlib.Tactic.NormNum
import Mathlib.Tactic.Ring
import Mathlib.Tactic.FieldSimp
import Mathlib.Algebra.Order.Archimedean.Basic
import Mathlib.Data.Rat.Floor

/-!
# C01, C02, C43 — tolerant comparisons and power-of-two helpers
-/

namespace PackingSolver

/-! ## C01 -/

/-- On non-negative profits the code's test is "`v2` is below `v1` by more than
`1e-6 · v1`". -/
theorem strictlyGreaterProfit_iff {v1 v2 : ℚ} (h1 : 0 ≤ v1) (h2 : 0 ≤ v2) :
    strictlyGreaterProfit v1 v2 = true ↔ v2 < (1 - 1 / 1000000) * v1 := by
  unfold strictlyGreaterProfit tol
  by_cases he : v1 = v2
  · subst he
    simp only [if_true]
    constructor
    · intro h; exact absurd h (by simp)
    · intro h; exfalso; linarith
  · simp only [he, if_false]
    rcases lt_or_gt_of_ne he with hlt | hgt
    · have hm : max v1 v2 = v2 := max_eq_right hlt.le
      have hpos : 0 < v2 := lt_of_le_of_lt h1 hlt
      simp only [hm, ne_eq, hpos.ne', not_false_eq_true, if_true, decide_eq_true_eq, gt_iff_lt]
      rw [lt_div_iff₀ hpos]
      constructor <;> intro h <;> exfalso <;> linarith
    · have hm : max v1 v2 = v1 := max_eq_left hgt.le
      have hpos : 0 < v1 := lt_of_le_of_lt h2 hgt
      simp only [hm, ne_eq, hpos.ne', not_false_eq_true, if_true, decide_eq_true_eq, gt_iff_lt]
      rw [lt_div_iff₀ hpos]
      constructor <;> intro h <;> linarith

/-- C01: a strictly greater profit is numerically greater (non-negative
profits). -/
theorem profit_greater_imp_gt {v1 v2 : ℚ} (h1 : 0 ≤ v1) (h2 : 0 ≤ v2)
    (h : strictlyGreaterProfit v1 v2 = true) : v2 < v1 := by
  rw [strictlyGreaterProfit_iff h1 h2] at h; linarith

/-- C01: irreflexivity (all profits). -/
theorem profit_greater_irrefl (v : ℚ) : strictlyGreaterProfit v v = false := by
  simp [strictlyGreaterProfit]

/-- C01: asymmetry (non-negative profits). -/
theorem profit_greater_asymm {v1 v2 : ℚ} (h1 : 0 ≤ v1) (h2 : 0 ≤ v2)
    (h : strictlyGreaterProfit v1 v2 = true) : strictlyGreaterProfit v2 v1 = false := by
  by_contra hc
  rw [Bool.not_eq_false] at hc
  have := profit_greater_imp_gt h1 h2 h
  have := profit_greater_imp_gt h2 h1 hc
  linarith

/-- C01: transitivity (non-negative profits). -/
theorem profit_greater_trans {a b c : ℚ} (ha : 0 ≤ a) (hb : 0 ≤ b) (hc : 0 ≤ c)
    (h1 : strictlyGreaterProfit a b = true) (h2 : strictlyGreaterProfit b c = true) :
    strictlyGreaterProfit a c = true := by
  rw [strictlyGreaterProfit_iff ha hb] at h1
  rw [strictlyGreaterProfit_iff hb hc] at h2
  rw [strictlyGreaterProfit_iff ha hc]
  linarith

/-- C01: `strictly_lesser_profit` is the mirror image. -/
theorem profit_lesser_iff {v1 v2 : ℚ} (h1 : 0 ≤ v1) (h2 : 0 ≤ v2) :
    strictlyLesserProfit v1 v2 = true ↔ v1 < (1 - 1 / 1000000) * v2 :=
  strictlyGreaterProfit_iff h2 h1

/-- C01: two non-negative profits are "equal" exactly when they differ by at
most one millionth of the larger one. -/
theorem profit_equal_iff {v1 v2 : ℚ} (h1 : 0 ≤ v1) (h2 : 0 ≤ v2) :
    equalProfit v1 v2 = true ↔ |v1 - v2| ≤ (1 / 1000000) * max v1 v2 := by
  unfold equalProfit
  simp only [Bool.and_eq_true, Bool.not_eq_true', ← Bool.not_eq_true]
  rw [strictlyGreaterProfit_iff h1 h2, strictlyGreaterProfit_iff h2 h1, not_lt, not_lt]
  rcases le_total v1 v2 with h | h
  · rw [max_eq_right h, abs_sub_comm, abs_of_nonneg (by linarith)]
    constructor
    · rintro ⟨_, _⟩; linarith
    · intro _; constructor <;> linarith
  · rw [max_eq_left h, abs_of_nonneg (by linarith)]
    constructor
    · rintro ⟨_, _⟩; linarith
    · intro _; constructor <;> linarith

example : strictlyGreaterProfit 10 9 = true ∧ strictlyGreaterProfit 9 8 = true := by
  constructor <;> (rw [strictlyGreaterProfit_iff] <;> norm_num)
example : equalProfit 10000000 9999999 = true := by
  rw [profit_equal_iff (by norm_num) (by norm_num)]; norm_num [abs_of_pos]

/-- C01 is false for negative profits: the code says that `-2` is strictly
greater than `-1` (and so prefers the worse solution) … -/
theorem profit_greater_negative_inverted :
    ∃ v1 v2 : ℚ, v1 < v2 ∧ strictlyGreaterProfit v1 v2 = true ∧
      strictlyGreaterProfit v2 v1 = false := by
  refine ⟨-2, -1, by norm_num, ?_, ?_⟩ <;>
    norm_num [strictlyGreaterProfit, tol]

/-- … and in fact for *every* pair of negative profits that differ by more
than a millionth of the larger one's magnitude the answer is inverted. -/
theorem profit_greater_negative_always_inverted {v1 v2 : ℚ} (h2 : v2 < 0)
    (h : v1 < (1 + 1 / 1000000) * v2) :
    strictlyGreaterProfit v1 v2 = true := by
  have hlt : v1 < v2 := by linarith
  unfold strictlyGreaterProfit tol
  simp only [hlt.ne, if_false, max_eq_right hlt.le, ne_eq, h2.ne, not_false_eq_true, if_true,
    decide_eq_true_eq, gt_iff_lt]
  rw [lt_div_iff_of_neg h2]
  linarith

/-! ### Possibly infinite bounds -/

/-- C01: an unset (`+∞`) knapsack bound is never considered equal to a finite
profit. -/
theorem equalProfitExt_inf_fin (q : ℚ) :
    equalProfitExt .inf (.fin q) = false ∧ equalProfitExt (.fin q) .inf = false := by
  simp [equalProfitExt, strictlyGreaterProfitExt]

/-! ## C02 -/

/-- On positive costs the test is "`v1` exceeds `v2` by more than
`1e-6 · v2`". -/
theorem strictlyGreaterCost_iff {v1 v2 : ℚ} (h1 : 0 < v1) (h2 : 0 < v2) :
    strictlyGreaterCost v1 v2 = true ↔ (1 + 1 / 1000000) * v2 < v1 := by
  unfold strictlyGreaterCost tol
  by_cases he : v1 = v2
  · subst he
    simp only [if_true]
    constructor
    · intro h; exact absurd h (by simp)
    · intro h; exfalso; linarith
  · simp only [he, if_false]
    rcases lt_or_gt_of_ne he with hlt | hgt
    · have hm : min v1 v2 = v1 := min_eq_left hlt.le
      simp only [hm, ne_eq, h1.ne', not_false_eq_true, if_true, decide_eq_true_eq, gt_iff_lt]
      rw [lt_div_iff₀ h1]
      constructor <;> intro h <;> exfalso <;> linarith
    · have hm : min v1 v2 = v2 := min_eq_right hgt.le
      simp only [hm, ne_eq, h2.ne', not_false_eq_true, if_true, decide_eq_true_eq, gt_iff_lt]
      rw [lt_div_iff₀ h2]
      constructor <;> intro h <;> linarith

/-- C02: a strictly lesser cost is numerically smaller (positive costs). -/
theorem cost_lesser_imp_lt {v1 v2 : ℚ} (h1 : 0 < v1) (h2 : 0 < v2)
    (h : strictlyLesserCost v1 v2 = true) : v1 < v2 := by
  unfold strictlyLesserCost at h
  rw [strictlyGreaterCost_iff h2 h1] at h; linarith

/-- C02: irreflexivity. -/
theorem cost_lesser_irrefl (v : ℚ) : strictlyLesserCost v v = false := by
  simp [strictlyLesserCost, strictlyGreaterCost]

/-- C02: asymmetry. -/
theorem cost_lesser_asymm {v1 v2 : ℚ} (h1 : 0 < v1) (h2 : 0 < v2)
    (h : strictlyLesserCost v1 v2 = true) : strictlyLesserCost v2 v1 = false := by
  by_contra hc
  rw [Bool.not_eq_false] at hc
  have := cost_lesser_imp_lt h1 h2 h
  have := cost_lesser_imp_lt h2 h1 hc
  linarith

/-- C02: transitivity. -/
theorem cost_lesser_trans {a b c : ℚ} (ha : 0 < a) (hb : 0 < b) (hc : 0 < c)
    (h1 : strictlyLesserCost a b = true) (h2 : strictlyLesserCost b c = true) :
    strictlyLesserCost a c = true := by
  unfold strictlyLesserCost at *
  rw [strictlyGreaterCost_iff hb ha] at h1
  rw [strictlyGreaterCost_iff hc hb] at h2
  rw [strictlyGreaterCost_iff hc ha]
  linarith

/-- C02: two positive costs are "equal" exactly when they differ by at most one
millionth of the smaller one. -/
theorem cost_equal_iff {v1 v2 : ℚ} (h1 : 0 < v1) (h2 : 0 < v2) :
    equalCost v1 v2 = true ↔ |v1 - v2| ≤ (1 / 1000000) * min v1 v2 := by
  unfold equalCost
  simp only [Bool.and_eq_true, Bool.not_eq_true', ← Bool.not_eq_true]
  rw [strictlyGreaterCost_iff h1 h2, strictlyGreaterCost_iff h2 h1, not_lt, not_lt]
  rcases le_total v1 v2 with h | h
  · rw [min_eq_left h, abs_sub_comm, abs_of_nonneg (by linarith)]
    constructor
    · rintro ⟨_, _⟩; linarith
    · intro _; constructor <;> linarith
  · rw [min_eq_right h, abs_of_nonneg (by linarith)]
    constructor
    · rintro ⟨_, _⟩; linarith
    · intro _; constructor <;> linarith

example : strictlyLesserCost 8 9 = true ∧ strictlyLesserCost 9 10 = true := by
  constructor <;> norm_num [strictlyLesserCost, strictlyGreaterCost, tol]

/-- Outside the guard of C02: with a negative cost on one side the code no
longer recognises the cheaper one. -/
theorem cost_lesser_negative_wrong :
    ∃ v1 v2 : ℚ, v1 < v2 ∧ strictlyLesserCost v1 v2 = false ∧ strictlyLesserCost v2 v1 = true := by
  refine ⟨-2, -1, by norm_num, ?_, ?_⟩ <;>
    norm_num [strictlyLesserCost, strictlyGreaterCost, tol]

/-- Cost comparison on non-negative costs. -/
theorem strictlyLesserCost_nonneg {v1 v2 : ℚ} (h1 : 0 ≤ v1) (h2 : 0 ≤ v2) :
    strictlyLesserCost v1 v2 = true
      ↔ (0 < v1 ∧ (1 + 1 / 1000000) * v1 < v2) ∨ (v1 = 0 ∧ 1 / 1000000 < v2) := by
  rcases h1.lt_or_eq with h1 | h1
  · rcases h2.lt_or_eq with h2 | h2
    · unfold strictlyLesserCost
      rw [strictlyGreaterCost_iff h2 h1]
      constructor
      · exact fun h => .inl ⟨h1, h⟩
      · rintro (h | h)
        · exact h.2
        · exact absurd h.1 h1.ne'
    · subst h2
      unfold strictlyLesserCost strictlyGreaterCost tol
      constructor
      · intro h
        rw [if_neg h1.ne] at h
        simp only [min_eq_left h1.le, ne_eq, not_true_eq_false, if_false, decide_eq_true_eq] at h
        linarith
      · rintro (h | h)
        · linarith [h.2]
        · linarith [h.2]
  · subst h1
    unfold strictlyLesserCost strictlyGreaterCost tol
    constructor
    · intro h
      by_cases he : v2 = 0
      · rw [if_pos he] at h; exact absurd h (by decide)
      · rw [if_neg he] at h
        simp only [min_eq_right h2, ne_eq, not_true_eq_false, if_false, decide_eq_true_eq] at h
        exact .inr ⟨rfl, by linarith⟩
    · rintro (h | h)
      · exact absurd h.1 (lt_irrefl _)
      · rw [if_neg (by intro he; rw [he] at h; linarith [h.2])]
        simp only [min_eq_right h2, ne_eq, not_true_eq_false, if_false, decide_eq_true_eq]
        linarith [h.2]

/-! ## C43 -/

/-- `x` is a (possibly negative-exponent) power of two. -/
def IsPowerOfTwo (x : ℚ) : Prop := ∃ z : ℤ, x = (2 : ℚ) ^ z

theorem IsPowerOfTwo.half {x : ℚ} (h : IsPowerOfTwo x) : IsPowerOfTwo (x / 2) := by
  obtain ⟨z, rfl⟩ := h
  exact ⟨z - 1, by rw [zpow_sub₀ (by norm_num)]; simp⟩

theorem IsPowerOfTwo.double {x : ℚ} (h : IsPowerOfTwo x) : IsPowerOfTwo (x * 2) := by
  obtain ⟨z, rfl⟩ := h
  exact ⟨z + 1, by rw [zpow_add₀ (by norm_num)]; simp⟩

theorem IsPowerOfTwo.one : IsPowerOfTwo 1 := ⟨0, by simp⟩

theorem halveWhileGreater_spec (n : Nat) (value res r : ℚ) (hp : IsPowerOfTwo res)
    (hv : value < 2 * res) (h : halveWhileGreater n value res = some r) :
    IsPowerOfTwo r ∧ r ≤ value ∧ value < 2 * r := by
  induction n generalizing res with
  | zero => simp [halveWhileGreater] at h
  | succ n ih =>
    unfold halveWhileGreater at h
    split at h
    · rename_i hgt
      exact ih (res / 2) hp.half (by linarith) h
    · rename_i hgt
      cases h
      exact ⟨hp, not_lt.mp hgt, hv⟩

theorem doubleWhileTwiceLess_spec (n : Nat) (value res r : ℚ) (hp : IsPowerOfTwo res)
    (hv : res ≤ value) (h : doubleWhileTwiceLess n value res = some r) :
    IsPowerOfTwo r ∧ r ≤ value ∧ value ≤ 2 * r := by
  induction n generalizing res with
  | zero => simp [doubleWhileTwiceLess] at h
  | succ n ih =>
    unfold doubleWhileTwiceLess at h
    split at h
    · rename_i hlt
      exact ih (res * 2) hp.double hlt.le h
    · rename_i hlt
      cases h
      exact ⟨hp, hv, by rw [not_lt] at hlt; linarith⟩

theorem doubleWhileLess_spec (n : Nat) (value res r : ℚ) (hp : IsPowerOfTwo res)
    (hv : res < 2 * value) (h : doubleWhileLess n value res = some r) :
    IsPowerOfTwo r ∧ value ≤ r ∧ r < 2 * value := by
  induction n generalizing res with
  | zero => simp [doubleWhileLess] at h
  | succ n ih =>
    unfold doubleWhileLess at h
    split at h
    · exact ih (res * 2) hp.double (by linarith) h
    · rename_i hlt
      cases h
      exact ⟨hp, not_lt.mp hlt, hv⟩

theorem halveWhileHalfGreater_spec (n : Nat) (value res r : ℚ) (hp : IsPowerOfTwo res)
    (hv : value ≤ res) (h : halveWhileHalfGreater n value res = some r) :
    IsPowerOfTwo r ∧ value ≤ r ∧ r ≤ 2 * value := by
  induction n generalizing res with
  | zero => simp [halveWhileHalfGreater] at h
  | succ n ih =>
    unfold halveWhileHalfGreater at h
    split at h
    · rename_i hgt
      exact ih (res / 2) hp.half hgt.le h
    · rename_i hgt
      cases h
      exact ⟨hp, hv, by rw [gt_iff_lt, not_lt] at hgt; linarith⟩

/-- The halving loop terminates for every positive value. -/
theorem halveWhileGreater_terminates {value : ℚ} (hv : 0 < value) (res : ℚ) :
    ∃ n r, halveWhileGreater n value res = some r := by
  obtain ⟨m, hm⟩ := pow_unbounded_of_one_lt (res / value) (by norm_num : (1 : ℚ) < 2)
  rw [div_lt_iff₀ hv] at hm
  have key : ∀ m : Nat, ∀ res : ℚ, res < 2 ^ m * value →
      ∃ n r, halveWhileGreater n value res = some r := by
    intro m
    induction m with
    | zero =>
      intro res h
      refine ⟨1, res, ?_⟩
      simp only [halveWhileGreater]
      rw [if_neg]; linarith
    | succ m ih =>
      intro res h
      obtain ⟨n, r, hr⟩ := ih (res / 2) (by rw [pow_succ] at h; linarith)
      by_cases hg : res > value
      · exact ⟨n + 1, r, by simp only [halveWhileGreater, if_pos hg, hr]⟩
      · exact ⟨1, res, by simp only [halveWhileGreater, if_neg hg]⟩
  exact key m res hm

/-- The doubling loop terminates for every value. -/
theorem doubleWhileTwiceLess_terminates (value : ℚ) {res : ℚ} (hres : 0 < res) :
    ∃ n r, doubleWhileTwiceLess n value res = some r := by
  obtain ⟨m, hm⟩ := pow_unbounded_of_one_lt (value / res) (by norm_num : (1 : ℚ) < 2)
  rw [div_lt_iff₀ hres] at hm
  have key : ∀ m : Nat, ∀ res : ℚ, 0 < res → value < 2 ^ m * res →
      ∃ n r, doubleWhileTwiceLess n value res = some r := by
    intro m
    induction m with
    | zero =>
      intro res h0 h
      refine ⟨1, res, ?_⟩
      simp only [doubleWhileTwiceLess]
      rw [if_neg]; linarith
    | succ m ih =>
      intro res h0 h
      obtain ⟨n, r, hr⟩ := ih (res * 2) (by linarith) (by rw [pow_succ] at h; linarith)
      by_cases hg : res * 2 < value
      · exact ⟨n + 1, r, by simp only [doubleWhileTwiceLess, if_pos hg, hr]⟩
      · exact ⟨1, res, by simp only [doubleWhileTwiceLess, if_neg hg]⟩
  exact key m res hres hm

theorem doubleWhileLess_terminates (value : ℚ) {res : ℚ} (hres : 0 < res) :
    ∃ n r, doubleWhileLess n value res = some r := by
  obtain ⟨m, hm⟩ := pow_unbounded_of_one_lt (value / res) (by norm_num : (1 : ℚ) < 2)
  rw [div_lt_iff₀ hres] at hm
  have key : ∀ m : Nat, ∀ res : ℚ, value < 2 ^ m * res →
      ∃ n r, doubleWhileLess n value res = some r := by
    intro m
    induction m with
    | zero =>
      intro res h
      refine ⟨1, res, ?_⟩
      simp only [doubleWhileLess]
      rw [if_neg]; linarith
    | succ m ih =>
      intro res h
      obtain ⟨n, r, hr⟩ := ih (res * 2) (by rw [pow_succ] at h; linarith)
      by_cases hg : res < value
      · exact ⟨n + 1, r, by simp only [doubleWhileLess, if_pos hg, hr]⟩
      · exact ⟨1, res, by simp only [doubleWhileLess, if_neg hg]⟩
  exact key m res hm

theorem halveWhileHalfGreater_terminates {value : ℚ} (hv : 0 < value) (res : ℚ) :
    ∃ n r, halveWhileHalfGreater n value res = some r := by
  obtain ⟨m, hm⟩ := pow_unbounded_of_one_lt (res / value) (by norm_num : (1 : ℚ) < 2)
  rw [div_lt_iff₀ hv] at hm
  have key : ∀ m : Nat, ∀ res : ℚ, res < 2 ^ m * value →
      ∃ n r, halveWhileHalfGreater n value res = some r := by
    intro m
    induction m with
    | zero =>
      intro res h
      refine ⟨1, res, ?_⟩
      simp only [halveWhileHalfGreater]
      rw [if_neg]; linarith
    | succ m ih =>
      intro res h
      obtain ⟨n, r, hr⟩ := ih (res / 2) (by rw [pow_succ] at h; linarith)
      by_cases hg : res / 2 > value
      · exact ⟨n + 1, r, by simp only [halveWhileHalfGreater, if_pos hg, hr]⟩
      · exact ⟨1, res, by simp only [halveWhileHalfGreater, if_neg hg]⟩
  exact key m res hm

/-- C43 (partial): for every positive value the first helper terminates; its
result is a power of two with `r ≤ value ≤ 2 r`.  Missing from the full
property: `value < 2 r` fails when `value` is an exact power of two above 1
(`largestPowerOfTwo_not_largest`). -/
theorem largestPowerOfTwo_partial {value : ℚ} (hv : 0 < value) :
    (∃ fuel r, largestPowerOfTwoLesserOrEqual fuel value = some r) ∧
    ∀ fuel r, largestPowerOfTwoLesserOrEqual fuel value = some r →
      IsPowerOfTwo r ∧ r ≤ value ∧ value ≤ 2 * r := by
  unfold largestPowerOfTwoLesserOrEqual
  split
  · rename_i h1
    refine ⟨halveWhileGreater_terminates hv 1, fun fuel r h => ?_⟩
    obtain ⟨a, b, c⟩ := halveWhileGreater_spec fuel value 1 r .one (by linarith) h
    exact ⟨a, b, c.le⟩
  · rename_i h1
    refine ⟨doubleWhileTwiceLess_terminates value one_pos, fun fuel r h => ?_⟩
    exact doubleWhileTwiceLess_spec fuel value 1 r .one (by linarith [not_lt.mp h1]) h

/-- C43 (partial): for every positive value the second helper terminates; its
result is a power of two with `value ≤ r ≤ 2 value`. -/
theorem smallestPowerOfTwo_partial {value : ℚ} (hv : 0 < value) :
    (∃ fuel r, smallestPowerOfTwoGreaterOrEqual fuel value = some r) ∧
    ∀ fuel r, smallestPowerOfTwoGreaterOrEqual fuel value = some r →
      IsPowerOfTwo r ∧ value ≤ r ∧ r ≤ 2 * value := by
  unfold smallestPowerOfTwoGreaterOrEqual
  split
  · rename_i h1
    refine ⟨doubleWhileLess_terminates value one_pos, fun fuel r h => ?_⟩
    obtain ⟨a, b, c⟩ := doubleWhileLess_spec fuel value 1 r .one (by linarith) h
    exact ⟨a, b, c.le⟩
  · rename_i h1
    refine ⟨halveWhileHalfGreater_terminates hv 1, fun fuel r h => ?_⟩
    exact halveWhileHalfGreater_spec fuel value 1 r .one (by linarith [not_lt.mp h1]) h

/-- C43 is false as stated: for `value = 2` the "largest power of two lesser or
equal" helper returns 1 … -/
theorem largestPowerOfTwo_not_largest :
    largestPowerOfTwoLesserOrEqual 5 2 = some 1 := by
  norm_num [largestPowerOfTwoLesserOrEqual, doubleWhileTwiceLess]

/-- … and for `value = 1/2` the "smallest power of two greater or equal" helper
returns 1. -/
theorem smallestPowerOfTwo_not_smallest :
    smallestPowerOfTwoGreaterOrEqual 5 (1 / 2) = some 1 := by
  norm_num [smallestPowerOfTwoGreaterOrEqual, halveWhileHalfGreater]

/-- Outside the guard `0 < value` the first loop never stops (in exact
arithmetic; in C++ it stops when `res` underflows to 0). -/
theorem largestPowerOfTwo_zero_diverges (fuel : Nat) :
    largestPowerOfTwoLesserOrEqual fuel 0 = none := by
  have : ∀ fuel : Nat, ∀ res : ℚ, 0 < res → halveWhileGreater fuel 0 res = none := by
    intro fuel
    induction fuel with
    | zero => intros; rfl
    | succ n ih =>
      intro res h
      simp only [halveWhileGreater, gt_iff_lt, h, if_true]
      exact ih _ (by linarith)
  simp [largestPowerOfTwoLesserOrEqual, this fuel 1 one_pos]

example : largestPowerOfTwoLesserOrEqual 10 5 = some 4 := by
  norm_num [largestPowerOfTwoLesserOrEqual, doubleWhileTwiceLess]

end PackingSolver
