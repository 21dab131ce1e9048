import Verif.Model.Basic

/-!
# Printing and parsing of enumerations

Models `src/algorithms/common.cpp:5–217`.
-/

namespace PackingSolver

/-- `enum class OptimizationMode`, `common.hpp:161–167`. -/
inductive OptimizationMode where
  | anytime
  | notAnytime
  | notAnytimeDeterministic
  | notAnytimeSequential
deriving DecidableEq, Repr

/-- `enum class ProblemType`, `common.hpp:177–185`. -/
inductive ProblemType where
  | rectangleGuillotine
  | rectangle
  | oneDimensional
  | box
  | boxStacks
  | irregular
deriving DecidableEq, Repr

/-- `std::isspace` in the "C" locale. -/
def isSpace (c : Char) : Bool :=
  c == ' ' || c == '\t' || c == '\n' || c == '\x0b' || c == '\x0c' || c == '\r'

/-- `std::string token; in >> token;` : skip white space, then read up to the next
white space.  A stream is the list of its remaining characters. -/
def readToken (stream : List Char) : String :=
  String.ofList ((stream.dropWhile isSpace).takeWhile fun c => !isSpace c)

/-- The `if`/`else if` chain of the parser below on the token. -/
def optimizationModeOfToken (token : String) : Option OptimizationMode :=
  if token = "anytime" ∨ token = "Anytime" then some .anytime
  else if token = "not-anytime" ∨ token = "NotAnytime" then some .notAnytime
  else if token = "not-anytime-deterministic" ∨ token = "NotAnytimeDeterministic" then
    some .notAnytimeDeterministic
  else if token = "not-anytime-sequential" ∨ token = "NotAnytimeSequential" then
    some .notAnytimeSequential
  else none

/-- `operator>>(std::istream&, OptimizationMode&)`, `common.cpp:5–27`; `none` is
the stream's failbit. -/
def parseOptimizationMode (stream : List Char) : Option OptimizationMode :=
  optimizationModeOfToken (readToken stream)

/-- `operator<<(std::ostream&, OptimizationMode)`, `common.cpp:29–49`. -/
def showOptimizationMode : OptimizationMode → String
  | .anytime => "Anytime"
  | .notAnytime => "Not anytime"
  | .notAnytimeDeterministic => "Not anytime, deterministic"
  | .notAnytimeSequential => "Not anytime, sequential"

/-- The `if`/`else if` chain of the parser below on the token. -/
def problemTypeOfToken (token : String) : Option ProblemType :=
  if token = "rectangleguillotine" ∨ token = "RectangleGuillotine" ∨ token = "RG" then
    some .rectangleGuillotine
  else if token = "rectangle" ∨ token = "Rectangle" ∨ token = "R" then some .rectangle
  else if token = "onedimensional" ∨ token = "OneDimensional" ∨ token = "1" then
    some .oneDimensional
  else if token = "box" ∨ token = "Box" ∨ token = "B" then some .box
  else if token = "boxstacks" ∨ token = "BoxStacks" ∨ token = "BS" then some .boxStacks
  else if token = "irregular" ∨ token = "Irregular" ∨ token = "I" then some .irregular
  else none

/-- `operator>>(std::istream&, ProblemType&)`, `common.cpp:51–85`. -/
def parseProblemType (stream : List Char) : Option ProblemType :=
  problemTypeOfToken (readToken stream)

/-- `operator<<(std::ostream&, ProblemType)`, `common.cpp:87–113`. -/
def showProblemType : ProblemType → String
  | .rectangleGuillotine => "RectangleGuillotine"
  | .rectangle => "Rectangle"
  | .oneDimensional => "OneDimensional"
  | .box => "Box"
  | .boxStacks => "BoxStacks"
  | .irregular => "Irregular"

/-- The `if`/`else if` chain of the parser below on the token. -/
def objectiveOfToken (token : String) : Option Objective :=
  if token = "default" ∨ token = "Default" then some .default
  else if token = "feasibility" ∨ token = "Feasibility" ∨ token = "F" then some .feasibility
  else if token = "bin-packing" ∨ token = "BinPacking" ∨ token = "BPP" then some .binPacking
  else if token = "bin-packing-with-leftovers" ∨ token = "BinPackingWithLeftovers"
      ∨ token = "BPPL" then some .binPackingWithLeftovers
  else if token = "open-dimension-x" ∨ token = "OpenDimensionX" ∨ token = "ODX" then
    some .openDimensionX
  else if token = "open-dimension-y" ∨ token = "OpenDimensionY" ∨ token = "ODY" then
    some .openDimensionY
  else if token = "open-dimension-z" ∨ token = "OpenDimensionZ" ∨ token = "ODZ" then
    some .openDimensionZ
  else if token = "open-dimension-xy" ∨ token = "OpenDimensionXY" ∨ token = "ODXY" then
    some .openDimensionXY
  else if token = "knapsack" ∨ token = "Knapsack" ∨ token = "KP" then some .knapsack
  else if token = "variable-sized-bin-packing" ∨ token = "VariableSizedBinPacking"
      ∨ token = "VBPP" then some .variableSizedBinPacking
  else if token = "sequential-onedimensional-rectangle-subproblem"
      ∨ token = "SequentialOneDimensionalRectangleSubproblem" ∨ token = "BDRS" then
    some .sequentialOneDimensionalRectangleSubproblem
  else if token = "bin-packing-cutting-cost" ∨ token = "BinPackingCuttingCost"
      ∨ token = "BPPCC" then some .binPackingCuttingCost
  else none

/-- `operator>>(std::istream&, Objective&)`, `common.cpp:115–172`. -/
def parseObjective (stream : List Char) : Option Objective :=
  objectiveOfToken (readToken stream)

/-- `operator<<(std::ostream&, Objective)`, `common.cpp:174–217`. -/
def showObjective : Objective → String
  | .default => "Default"
  | .feasibility => "Feasibility"
  | .binPacking => "BinPacking"
  | .binPackingWithLeftovers => "BinPackingWithLeftovers"
  | .openDimensionX => "OpenDimensionX"
  | .openDimensionY => "OpenDimensionY"
  | .openDimensionZ => "OpenDimensionZ"
  | .openDimensionXY => "OpenDimensionXY"
  | .knapsack => "Knapsack"
  | .variableSizedBinPacking => "VariableSizedBinPacking"
  | .sequentialOneDimensionalRectangleSubproblem =>
    "SequentialOneDimensionalRectangleSubproblem"
  | .binPackingCuttingCost => "BinPackingCuttingCost"

end PackingSolver
