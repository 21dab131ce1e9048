import Verif.Model.Guil.Builder

/-!
# Specification: parameters of guillotine instances
-/

namespace PackingSolver.Guil.Spec

open InstanceBuilder

/-- Number of rows of the table of cutting costs: one per depth of cuts, from 0 (cuts of the bin
itself) to the number of stages, and one more if the last stage is not counted. -/
def requiredCosts (p : Parameters) : Int :=
  1 + p.numberOfStages + (if p.cutType = .nonExact ∨ p.cutType = .roadef2018 then 1 else 0)

/-- Calls that set the number of stages or the type of cuts. -/
def SetsStages : BuilderOp → Prop
  | .setNumberOfStages _ | .setNumberOfStagesUnlimited | .setCutType _ | .setRoadef2018
  | .setPredefined _ => True
  | _ => False

/-- Calls that replace all parameters. -/
def ReplacesParameters : BuilderOp → Prop
  | .setParameters _ => True
  | _ => False

/-- What calls write: the value a call gives to a parameter, if it gives one. -/
abbrev Writes (α : Type) := BuilderOp → Option α

/-- The value given last. -/
def lastWritten {α : Type} (f : Writes α) (initial : α) (ops : List BuilderOp) : α :=
  (ops.filterMap f).getLast?.getD initial

/-- The calls that choose the parameters of the ROADEF/EURO challenge 2018. -/
def Roadef : BuilderOp → Bool
  | .setRoadef2018 => true
  | .setPredefined str => str = "roadef2018".toList
  | _ => false

/-- Calls that give `minimumDistance1Cuts`. -/
def minimumDistance1CutsOf : Writes Int
  | .setMinimumDistance1Cuts v => some v
  | .setParameters p => some p.minimumDistance1Cuts
  | op => if Roadef op then some 100 else none

/-- Calls that give `maximumDistance1Cuts`. -/
def maximumDistance1CutsOf : Writes Int
  | .setMaximumDistance1Cuts v => some v
  | .setParameters p => some p.maximumDistance1Cuts
  | op => if Roadef op then some 3500 else none

/-- Calls that give `minimumDistance2Cuts`. -/
def minimumDistance2CutsOf : Writes Int
  | .setMinimumDistance2Cuts v => some v
  | .setParameters p => some p.minimumDistance2Cuts
  | op => if Roadef op then some 100 else none

/-- Calls that give `maximumDistance2Cuts`. -/
def maximumDistance2CutsOf : Writes Int
  | .setMaximumDistance2Cuts v => some v
  | .setParameters p => some p.maximumDistance2Cuts
  | _ => none

/-- Calls that give `minimumWasteLength`. -/
def minimumWasteLengthOf : Writes Int
  | .setMinimumWasteLength v => some v
  | .setParameters p => some p.minimumWasteLength
  | op => if Roadef op then some 20 else none

/-- Calls that give `maximumNumber1Cuts`. -/
def maximumNumber1CutsOf : Writes Int
  | .setMaximumNumber1Cuts v => some v
  | .setParameters p => some p.maximumNumber1Cuts
  | _ => none

/-- Calls that give `maximumNumber2Cuts`. -/
def maximumNumber2CutsOf : Writes Int
  | .setMaximumNumber2Cuts v => some v
  | .setParameters p => some p.maximumNumber2Cuts
  | _ => none

/-- Calls that give `cutThroughDefects`. -/
def cutThroughDefectsOf : Writes Bool
  | .setCutThroughDefects v => some v
  | .setParameters p => some p.cutThroughDefects
  | op => if Roadef op then some false else none

/-- Calls that give `cutThickness`. -/
def cutThicknessOf : Writes Int
  | .setCutThickness v => some v
  | .setParameters p => some p.cutThickness
  | _ => none

/-- Calls that give `wasteCost`. -/
def wasteCostOf : Writes Int
  | .setWasteCost v => some v
  | .setParameters p => some p.wasteCost
  | _ => none

/-- Calls that change the sides of existing bins. -/
def ResizesBins : BuilderOp → Prop
  | .setBinTypesInfiniteX | .setBinTypesInfiniteY => True
  | _ => False

/-- The name of a predefined set of parameters: a number of stages, a type of cuts, an orientation
of the first cuts, and whether items may be rotated. -/
structure Predefined where
  stages : Int
  cutType : CutType
  orientation : CutOrientation
  oriented : Bool

/-- The meaning of the four characters of a name. -/
inductive Names : List Char → Predefined → Prop
  | mk {c0 c1 c2 c3 : Char} {ct : CutType} {o : CutOrientation} {r : Bool}
      (h0 : 50 ≤ c0.toNat)
      (h1 : (c1, ct) ∈ [('R', CutType.roadef2018), ('N', .nonExact), ('E', .exact),
        ('H', .homogenous)])
      (h2 : (c2, o) ∈ [('V', CutOrientation.vertical), ('H', .horizontal), ('A', .any)])
      (h3 : (c3, r) ∈ [('R', false), ('O', true)])
      (hU : c0 ≠ 'U') :
      Names [c0, c1, c2, c3] ⟨(c0.toNat : Int) - 48, ct, o, r⟩

end PackingSolver.Guil.Spec
