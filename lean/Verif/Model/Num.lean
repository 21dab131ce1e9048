import Mathlib.Data.Rat.Defs
import Mathlib.Algebra.Order.Field.Rat

/-!
# Numeric comparisons

Models `include/packingsolver/algorithms/common.hpp` lines 20 and 52–156.
`double` is modelled by `ℚ` (no rounding, no NaN).  The only infinite value the
code feeds to these functions is `+∞` (the default knapsack bound), which is
modelled by `ExtQ` below.
-/

namespace PackingSolver

/-- The `1e-6` of `common.hpp:54,59,64,96,97,116,117`. -/
def tol : ℚ := 1 / 1000000

/-- `PSTOL`, `common.hpp:20` (`1 + 1e-9`). -/
def pstol : ℚ := 1 + 1 / 1000000000

/-- `strictly_lesser`, `common.hpp:52–55`. -/
def strictlyLesser (v1 v2 : ℚ) : Bool := decide (v2 - v1 > tol)

/-- `strictly_greater`, `common.hpp:57–60`. -/
def strictlyGreater (v1 v2 : ℚ) : Bool := decide (v1 - v2 > tol)

/-- `equal`, `common.hpp:62–65`. -/
def equalAbs (v1 v2 : ℚ) : Bool := decide (|v1 - v2| ≤ tol)

/-- `strictly_greater_profit`, `common.hpp:90–98` (finite arguments). -/
def strictlyGreaterProfit (v1 v2 : ℚ) : Bool :=
  if v1 = v2 then false
  else
    let denominator := max v1 v2
    if denominator ≠ 0 then decide ((v1 - v2) / denominator > tol)
    else decide (v1 - v2 > tol)

/-- `strictly_lesser_profit`, `common.hpp:100–103`. -/
def strictlyLesserProfit (v1 v2 : ℚ) : Bool := strictlyGreaterProfit v2 v1

/-- `equal_profit`, `common.hpp:105–108`. -/
def equalProfit (v1 v2 : ℚ) : Bool :=
  !strictlyGreaterProfit v1 v2 && !strictlyGreaterProfit v2 v1

/-- `strictly_greater_cost`, `common.hpp:110–118` (finite arguments). -/
def strictlyGreaterCost (v1 v2 : ℚ) : Bool :=
  if v1 = v2 then false
  else
    let denominator := min v1 v2
    if denominator ≠ 0 then decide ((v1 - v2) / denominator > tol)
    else decide (v1 - v2 > tol)

/-- `strictly_lesser_cost`, `common.hpp:120–123`. -/
def strictlyLesserCost (v1 v2 : ℚ) : Bool := strictlyGreaterCost v2 v1

/-- `equal_cost`, `common.hpp:125–128`. -/
def equalCost (v1 v2 : ℚ) : Bool :=
  !strictlyGreaterCost v1 v2 && !strictlyGreaterCost v2 v1

/-- A `double` that is either finite or `+∞` (`common.hpp:84–88`: "an unset
bound, which defaults to +infinity"). -/
inductive ExtQ where
  | fin (q : ℚ)
  | inf
deriving DecidableEq, Repr

/-- `strictly_greater_profit` on possibly infinite arguments: the denominator
is then not finite and the code falls back to `v1 - v2 > 1e-6`
(`common.hpp:92–97`): `inf - x > 1e-6` is true and `x - inf > 1e-6` is
false. -/
def strictlyGreaterProfitExt : ExtQ → ExtQ → Bool
  | .fin a, .fin b => strictlyGreaterProfit a b
  | .inf, .inf => false
  | .inf, .fin _ => true
  | .fin _, .inf => false

/-- `equal_profit` on possibly infinite arguments, `common.hpp:105–108`. -/
def equalProfitExt (v1 v2 : ExtQ) : Bool :=
  !strictlyGreaterProfitExt v1 v2 && !strictlyGreaterProfitExt v2 v1

/-! ## Powers of two (`common.hpp:130–156`)

The loops are modelled with a fuel argument; the property theorems show that
enough fuel always exists for positive arguments (termination). -/

/-- Inner loop `while (res > value) res /= 2;`, `common.hpp:135–136`. -/
def halveWhileGreater : Nat → ℚ → ℚ → Option ℚ
  | 0, _, _ => none
  | n + 1, value, res => if res > value then halveWhileGreater n value (res / 2) else some res

/-- Inner loop `while (res * 2 < value) res *= 2;`, `common.hpp:138–139`. -/
def doubleWhileTwiceLess : Nat → ℚ → ℚ → Option ℚ
  | 0, _, _ => none
  | n + 1, value, res =>
    if res * 2 < value then doubleWhileTwiceLess n value (res * 2) else some res

/-- `largest_power_of_two_lesser_or_equal`, `common.hpp:130–142`; `none` = the
loop did not finish within the fuel. -/
def largestPowerOfTwoLesserOrEqual (fuel : Nat) (value : ℚ) : Option ℚ :=
  if (1 : ℚ) > value then halveWhileGreater fuel value 1
  else doubleWhileTwiceLess fuel value 1

/-- Inner loop `while (res < value) res *= 2;`, `common.hpp:149–150`. -/
def doubleWhileLess : Nat → ℚ → ℚ → Option ℚ
  | 0, _, _ => none
  | n + 1, value, res => if res < value then doubleWhileLess n value (res * 2) else some res

/-- Inner loop `while (res / 2 > value) res /= 2;`, `common.hpp:152–153`. -/
def halveWhileHalfGreater : Nat → ℚ → ℚ → Option ℚ
  | 0, _, _ => none
  | n + 1, value, res =>
    if res / 2 > value then halveWhileHalfGreater n value (res / 2) else some res

/-- `smallest_power_of_two_greater_or_equal`, `common.hpp:144–156`. -/
def smallestPowerOfTwoGreaterOrEqual (fuel : Nat) (value : ℚ) : Option ℚ :=
  if (1 : ℚ) < value then doubleWhileLess fuel value 1
  else halveWhileHalfGreater fuel value 1

end PackingSolver
