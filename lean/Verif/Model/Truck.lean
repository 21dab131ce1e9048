import Verif.Model.Basic

/-!
# Semi-trailer trucks

Models `include/packingsolver/algorithms/truck.hpp`.
-/

namespace PackingSolver

/-- `struct SemiTrailerTruckData`, `truck.hpp:11–49`.  The default of the maximum weights is the
largest `double`, here infinity. -/
structure TruckData where
  is : Bool := false
  tractorWeight : ℚ := 0
  frontAxleMiddleAxleDistance : Int := 0
  frontAxleTractorGravityCenterDistance : Int := 0
  frontAxleHarnessDistance : Int := 0
  emptyTrailerWeight : ℚ := 0
  harnessRearAxleDistance : Int := 0
  trailerGravityCenterRearAxleDistance : Int := 0
  trailerStartHarnessDistance : Int := 0
  rearAxleMaximumWeight : ExtQ := .inf
  middleAxleMaximumWeight : ExtQ := .inf
deriving DecidableEq, Repr

/-- `harness_weight` in `compute_axle_weights`, `truck.hpp:59–79`. -/
def TruckData.harnessWeight (d : TruckData) (weightWeightedSum weight : ℚ) : ℚ :=
  let gravityCenter := weightWeightedSum / weight
  let rearDistance := (d.trailerStartHarnessDistance : ℚ) + d.harnessRearAxleDistance
    - gravityCenter
  (weight * rearDistance + d.emptyTrailerWeight * d.trailerGravityCenterRearAxleDistance)
    / d.harnessRearAxleDistance

/-- `compute_axle_weights`, `truck.hpp:51–92`: weights on the middle and on the rear axle.
(Simplification: the quotients are those of ℚ, where `x / 0 = 0`; in the code a quotient by zero
is an infinity or not a number, which then compares false or exceeds every maximum weight.) -/
def TruckData.computeAxleWeights (d : TruckData) (weightWeightedSum weight : ℚ) : ℚ × ℚ :=
  if !d.is then (0, 0)
  else
    let harness := d.harnessWeight weightWeightedSum weight
    ((d.tractorWeight * d.frontAxleTractorGravityCenterDistance
        + harness * d.frontAxleHarnessDistance) / d.frontAxleMiddleAxleDistance,
      weight + d.emptyTrailerWeight - harness)

end PackingSolver
