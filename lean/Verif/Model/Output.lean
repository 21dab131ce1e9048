import Verif.Model.Pool

/-!
# Output and algorithm formatter

Models `struct Output` and `class AlgorithmFormatter` of the one-dimensional solver
(`include/packingsolver/onedimensional/optimize.hpp:12–82`,
`include/packingsolver/onedimensional/algorithm_formatter.hpp:17–29`,
`src/onedimensional/algorithm_formatter.cpp:195–301`).  Every update function takes
the mutex for its whole duration, so concurrent callers execute as some sequence of
updates.  Printing, timing, JSON output and the callbacks are left out.
-/

namespace PackingSolver

/-- What the output uses of the instance: `objective()` and `number_of_bins()`. -/
structure OutputParams (σ : Type) where
  ops : SolutionOps σ
  objective : Objective
  numberOfBins : Int

/-- `struct Output`, `optimize.hpp:12–28` and `common.hpp:483–497`. -/
structure Output (σ : Type) where
  pool : Pool σ
  knapsackBound : ExtQ := .inf
  binPackingBound : Int := 0
  variableSizedBinPackingBound : ℚ := 0
  isProvenInfeasible : Bool := false

/-- A fresh output: pool of size 1, `common.hpp:485–486`. -/
def Output.new {σ : Type} (P : OutputParams σ) : Output σ := { pool := .new P.ops 1 }

/-- `Output::is_proven_optimal`, `optimize.hpp:30–52`. -/
def Output.isProvenOptimal {σ : Type} (P : OutputParams σ) (out : Output σ) : Bool :=
  if out.isProvenInfeasible then true
  else match P.objective with
    | .knapsack => equalProfitExt out.knapsackBound (.fin (P.ops.profit out.pool.best))
    | .binPacking => P.ops.full out.pool.best
        && decide (out.binPackingBound = P.ops.numberOfBins out.pool.best)
    | .variableSizedBinPacking => P.ops.full out.pool.best
        && equalCost out.variableSizedBinPackingBound (P.ops.cost out.pool.best)
    | .feasibility => P.ops.full out.pool.best && P.ops.feasible out.pool.best
    | _ => false

/-- `a < b` on possibly infinite doubles. -/
def ExtQ.ltB : ExtQ → ExtQ → Bool
  | .fin a, .fin b => decide (a < b)
  | .fin _, .inf => true
  | .inf, _ => false

/-- `Output::update_bounds`, `optimize.hpp:63–83`. -/
def Output.updateBounds {σ : Type} (P : OutputParams σ) (out other : Output σ) : Output σ :=
  let out := if other.isProvenInfeasible then { out with isProvenInfeasible := true } else out
  match P.objective with
  | .knapsack => if other.knapsackBound.ltB out.knapsackBound then
      { out with knapsackBound := other.knapsackBound } else out
  | .binPacking => if other.binPackingBound > out.binPackingBound then
      { out with binPackingBound := other.binPackingBound } else out
  | .variableSizedBinPacking =>
    if other.variableSizedBinPackingBound > out.variableSizedBinPackingBound then
      { out with variableSizedBinPackingBound := other.variableSizedBinPackingBound } else out
  | _ => out

/-- State of an `AlgorithmFormatter`: the output it refers to and `end_`. -/
structure Formatter (σ : Type) where
  output : Output σ
  end_ : Bool

/-- `AlgorithmFormatter::AlgorithmFormatter`, `algorithm_formatter.hpp:17–29`. -/
def Formatter.new {σ : Type} (P : OutputParams σ) (out : Output σ) : Formatter σ :=
  ⟨out, out.isProvenOptimal P⟩

/-- `if (output_.is_proven_optimal()) end_ = true;` after a change of the output. -/
def Formatter.changed {σ : Type} (P : OutputParams σ) (f : Formatter σ) (out : Output σ) :
    Formatter σ :=
  ⟨out, f.end_ || out.isProvenOptimal P⟩

/-- `update_solution`, `algorithm_formatter.cpp:195–213`. -/
def Formatter.updateSolution {σ : Type} (P : OutputParams σ) (f : Formatter σ) (s : σ) :
    Formatter σ :=
  let r := f.output.pool.add P.ops s
  let out := { f.output with pool := r.2 }
  if r.1 = 1 then f.changed P out else { f with output := out }

/-- `update_is_proven_infeasible`, `algorithm_formatter.cpp:215–226`. -/
def Formatter.updateIsProvenInfeasible {σ : Type} (f : Formatter σ) : Formatter σ :=
  if !f.output.isProvenInfeasible then
    ⟨{ f.output with isProvenInfeasible := true }, true⟩
  else f

/-- `update_knapsack_bound`, `algorithm_formatter.cpp:228–242`. -/
def Formatter.updateKnapsackBound {σ : Type} (P : OutputParams σ) (f : Formatter σ)
    (profit : ExtQ) : Formatter σ :=
  if profit.ltB f.output.knapsackBound then
    f.changed P { f.output with knapsackBound := profit }
  else f

/-- `update_bin_packing_bound`, `algorithm_formatter.cpp:244–264`. -/
def Formatter.updateBinPackingBound {σ : Type} (P : OutputParams σ) (f : Formatter σ)
    (numberOfBins : Int) : Formatter σ :=
  if numberOfBins > f.output.binPackingBound then
    f.changed P { f.output with
      binPackingBound := numberOfBins
      isProvenInfeasible := f.output.isProvenInfeasible || decide (numberOfBins > P.numberOfBins) }
  else f

/-- `update_variable_sized_bin_packing_bound`, `algorithm_formatter.cpp:266–280`. -/
def Formatter.updateVariableSizedBinPackingBound {σ : Type} (P : OutputParams σ)
    (f : Formatter σ) (cost : ℚ) : Formatter σ :=
  if cost > f.output.variableSizedBinPackingBound then
    f.changed P { f.output with variableSizedBinPackingBound := cost }
  else f

/-- `update_bounds`, `algorithm_formatter.cpp:282–301`. -/
def Formatter.updateBounds {σ : Type} (P : OutputParams σ) (f : Formatter σ) (out : Output σ) :
    Formatter σ :=
  let f := if out.isProvenInfeasible then f.updateIsProvenInfeasible else f
  match P.objective with
  | .knapsack => f.updateKnapsackBound P out.knapsackBound
  | .binPacking => f.updateBinPackingBound P out.binPackingBound
  | .variableSizedBinPacking =>
    f.updateVariableSizedBinPackingBound P out.variableSizedBinPackingBound
  | _ => f

/-- The updates a client of the formatter can perform. -/
inductive Update (σ : Type) where
  | solution (s : σ)
  | infeasible
  | knapsack (b : ExtQ)
  | binPacking (b : Int)
  | variableSized (b : ℚ)
  | bounds (out : Output σ)

/-- One update. -/
def Formatter.step {σ : Type} (P : OutputParams σ) (f : Formatter σ) : Update σ → Formatter σ
  | .solution s => f.updateSolution P s
  | .infeasible => f.updateIsProvenInfeasible
  | .knapsack b => f.updateKnapsackBound P b
  | .binPacking b => f.updateBinPackingBound P b
  | .variableSized b => f.updateVariableSizedBinPackingBound P b
  | .bounds out => f.updateBounds P out

/-- A sequence of updates. -/
def Formatter.run {σ : Type} (P : OutputParams σ) (f : Formatter σ) (l : List (Update σ)) :
    Formatter σ :=
  l.foldl (fun f u => f.step P u) f

end PackingSolver
