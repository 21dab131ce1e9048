import Verif.Spec.BoxGeometry
import Verif.Spec.OneDimBuild
import Verif.Model.Stacks.Solution

/-!
# Specification of boxstacks solutions

Totals, heights and weights of a list of bins whose items are piled up in stacks, and the histories
of calls by which a user obtains a solution.
-/

namespace PackingSolver.Stacks.Spec

open PackingSolver.Stacks
open PackingSolver.Box (Rotation Dims)
open PackingSolver.Box.Spec (rotated)

/-- A packing: a list of bins, each with a type, a number of copies and stacks. -/
abbrev Packing := List PackedBin

variable (inst : Instance)

/-- The items of a bin. -/
def binItems (b : PackedBin) : List (Nat × Rotation) := b.piles.flatMap (·.items)

/-- Number of items of type `i` in a list. -/
def count (items : List (Nat × Rotation)) (i : Nat) : Int := (items.countP fun p => p.1 = i : Nat)

/-- Number of packed copies of an item type. -/
def itemCopies (p : Packing) (i : Nat) : Int := (p.map fun b => b.copies * count (binItems b) i).sum

/-- Number of used copies of a bin type. -/
def binCopies (p : Packing) (t : Nat) : Int :=
  (p.map fun b => if b.binTypeId = t then b.copies else 0).sum

/-- Number of bins. -/
def numberOfBins (p : Packing) : Int := (p.map fun b => b.copies).sum

/-- Number of stacks. -/
def numberOfStacks (p : Packing) : Int := (p.map fun b => b.copies * (b.piles.length : Int)).sum

/-- Number of packed items. -/
def numberOfItems (p : Packing) : Int :=
  (p.map fun b => b.copies * ((binItems b).length : Int)).sum

/-- Total cost of the bins. -/
def cost (p : Packing) : ℚ :=
  (p.map fun b => (b.copies : ℚ) * (inst.binType b.binTypeId).cost).sum

/-- The volume of a box. -/
def volumeOf (d : Dims) : Int := d.x * d.y * d.z

/-- Total volume of the bins. -/
def binVolume (p : Packing) : Int :=
  (p.map fun b => b.copies * volumeOf (inst.binType b.binTypeId).box).sum

/-- Total floor area of the bins. -/
def binArea (p : Packing) : Int :=
  (p.map fun b => b.copies
    * ((inst.binType b.binTypeId).box.x * (inst.binType b.binTypeId).box.y)).sum

/-- The floor area of a stack. -/
def floorArea (s : PackedStack) : Int := (s.xEnd - s.xStart) * (s.yEnd - s.yStart)

/-- Total floor area of the stacks. -/
def stackArea (p : Packing) : Int := (p.map fun b => b.copies * (b.piles.map floorArea).sum).sum

/-- Total volume of the packed items. -/
def itemVolume (p : Packing) : Int :=
  (p.map fun b => b.copies * ((binItems b).map fun i => volumeOf (inst.itemType i.1).box).sum).sum

/-- Total weight of the packed items. -/
def itemWeight (p : Packing) : ℚ :=
  (p.map fun b => (b.copies : ℚ) * ((binItems b).map fun i => (inst.itemType i.1).weight).sum).sum

/-- Profit of a list of items. -/
def itemsProfit (l : List (Nat × Rotation)) : ℚ := (l.map fun i => (inst.itemType i.1).profit).sum

/-- Total profit of the packed items. -/
def itemProfit (p : Packing) : ℚ :=
  (p.map fun b => (b.copies : ℚ) * itemsProfit inst (binItems b)).sum

/-- Number of item types packed fewer times than required. -/
def missing (p : Packing) : Int :=
  ((List.range inst.numberOfItemTypes).countP
    fun i => decide (itemCopies p i < (inst.itemType i).copiesMin) : Nat)

/-- The constraints on the number of copies of each item type. -/
def CopiesOk (p : Packing) : Prop :=
  ∀ i, i < inst.numberOfItemTypes →
    (inst.itemType i).copiesMin ≤ itemCopies p i ∧ itemCopies p i ≤ (inst.itemType i).copies

/-- A packing that refers only to existing types. -/
def WellTyped (p : Packing) : Prop :=
  ∀ b ∈ p, b.binTypeId < inst.numberOfBinTypes
    ∧ ∀ i ∈ binItems b, i.1 < inst.numberOfItemTypes

/-- The items have the size of the stack they lie in. -/
def Fitting (p : Packing) : Prop :=
  ∀ b ∈ p, ∀ s ∈ b.piles, ∀ i ∈ s.items,
    (rotated (inst.itemType i.1).box i.2).x = s.xEnd - s.xStart
    ∧ (rotated (inst.itemType i.1).box i.2).y = s.yEnd - s.yStart

/-! ## Heights -/

/-- The height of an item as it lies in a stack. -/
def itemHeight (i : Nat × Rotation) : Int := (rotated (inst.itemType i.1).box i.2).z

/-- The height of a pile of items: every item but the lowest sinks into the one below it by its
nesting height. -/
def pileHeight (l : List (Nat × Rotation)) : Int :=
  (l.map (itemHeight inst)).sum - (l.tail.map fun i => (inst.itemType i.1).nestingHeight).sum

/-! ## Weights -/

/-- Weight of the items of a list that belong to group `g` or a later one. -/
def weightFrom (g : Nat) (l : List (Nat × Rotation)) : ℚ :=
  (l.map fun i => if g ≤ (inst.itemType i.1).groupId then (inst.itemType i.1).weight else 0).sum

/-- Sum over the items of group `g` or a later one of the weight times the x-coordinate of the
center. -/
def momentFrom (g : Nat) (b : PackedBin) : ℚ :=
  (b.piles.map fun s => ((s.xStart + s.xEnd : Int) : ℚ) / 2 * weightFrom inst g s.items).sum

/-- A weight is within a maximum, up to the relative tolerance `1e-9` of the solver. -/
def Within (q : ℚ) : ExtQ → Prop
  | .fin m => q ≤ m * (1 + 1 / 1000000000)
  | .inf => True

/-- The weight of the items of a bin is within the maximum weight of the bin type. -/
def WeightOk (b : PackedBin) : Prop :=
  Within (weightFrom inst 0 (binItems b)) (inst.binType b.binTypeId).maximumWeight

/-- The weights on the axles of a truck whose items of some groups weigh `w` in total, with center of
gravity at `c`: the moments about the rear axle and about the front axle are balanced. -/
structure AxleBalance (d : TruckData) (w c harness middle rear : ℚ) : Prop where
  aboutRear : harness * d.harnessRearAxleDistance
    = w * (d.trailerStartHarnessDistance + d.harnessRearAxleDistance - c)
      + d.emptyTrailerWeight * d.trailerGravityCenterRearAxleDistance
  vertical : harness + rear = w + d.emptyTrailerWeight
  aboutFront : middle * d.frontAxleMiddleAxleDistance
    = d.tractorWeight * d.frontAxleTractorGravityCenterDistance
      + harness * d.frontAxleHarnessDistance

/-- The distances by which the truck is described are not 0. -/
def TruckOk (d : TruckData) : Prop :=
  d.harnessRearAxleDistance ≠ 0 ∧ d.frontAxleMiddleAxleDistance ≠ 0

/-- The distances of the trucks are not 0, and bin types that are not trucks have no negative maximum
axle weight. -/
def TrucksOk : Prop :=
  ∀ t, t < inst.numberOfBinTypes →
    ((inst.binType t).truck.is = true → TruckOk (inst.binType t).truck)
    ∧ ((inst.binType t).truck.is = false → Within 0 (inst.binType t).truck.middleAxleMaximumWeight
      ∧ Within 0 (inst.binType t).truck.rearAxleMaximumWeight)

/-- The axle constraints: for every group whose constraints are checked, with the items of this group
and of the later ones, each axle carries at most its maximum weight. -/
def AxlesOk (b : PackedBin) : Prop :=
  (inst.binType b.binTypeId).truck.is = true →
  ∀ g, g < inst.numberOfGroups → inst.checkWeightConstraints g = true →
    weightFrom inst g (binItems b) ≠ 0 →
    ∀ harness middle rear,
      AxleBalance (inst.binType b.binTypeId).truck (weightFrom inst g (binItems b))
        (momentFrom inst g b / weightFrom inst g (binItems b)) harness middle rear →
      Within middle (inst.binType b.binTypeId).truck.middleAxleMaximumWeight
      ∧ Within rear (inst.binType b.binTypeId).truck.rearAxleMaximumWeight

/-! ## Extents -/

/-- The stacks of the last bin. -/
def lastPiles (p : Packing) : List PackedStack := (p.getLast?.map (·.piles)).getD []

/-- The volume of the largest slab of a bin beyond the used length `x` or the used width `y`. -/
def largestSlab (b : BinType) (x y : Int) : Int :=
  b.box.z * max ((b.box.x - x) * b.box.y) ((b.box.y - y) * b.box.x)

/-! ## Histories -/

/-- Effect of one builder call on the packing it describes. -/
def opStep (p : Packing) : BuilderOp → Packing
  | .addBin t c => p ++ [⟨t, c, []⟩]
  | .addStack k x xe y ye => p.modify k (fun b => { b with piles := b.piles ++ [⟨x, xe, y, ye, []⟩] })
  | .addItem k j i r => p.modify k (fun b => { b with
      piles := b.piles.modify j (fun s => { s with items := s.items ++ [(i, r)] }) })

/-- The packing described by a sequence of builder calls. -/
def opsPacking (ops : List BuilderOp) : Packing := ops.foldl opStep []

/-- The packing listed by a solution object. -/
def packingOf (s : Solution) : Packing :=
  s.bins.map fun b => ⟨b.binTypeId, b.copies, b.piles.map fun p =>
    ⟨p.xStart, p.xEnd, p.yStart, p.yEnd, p.items.map fun i => (i.itemTypeId, i.rotation)⟩⟩

/-- Apply an id map; an empty map means that ids are unchanged. -/
def mapId (m : List Nat) (i : Nat) : Nat := if m.isEmpty then i else m.getD i 0

/-- A bin relabelled by the id maps: places and rotations are kept. -/
def relabelBin (binTypeIds itemTypeIds : List Nat) (b : PackedBin) : PackedBin :=
  ⟨mapId binTypeIds b.binTypeId, b.copies,
    b.piles.map fun s => { s with items := s.items.map fun i => (mapId itemTypeIds i.1, i.2) }⟩

/-- Solutions a user can obtain: start from an empty solution or from a `SolutionBuilder` and apply
any sequence of `append_bin`, `append_bins` and `append_empty_bin` calls. -/
inductive Reachable (inst : Instance) : Solution → Prop
  | init : Reachable inst (Solution.init inst)
  | built (ops : List BuilderOp) (s : Solution)
      (h : SolutionBuilder.runOps inst ops = .ok s) : Reachable inst s
  | appendBin (s s' other : Solution) (pos : Nat) (copies : Int) (mb mi : List Nat)
      (hs : Reachable inst s)
      (h : s.appendBin inst other pos copies mb mi = .ok s') : Reachable inst s'
  | appendBins (s s' other : Solution) (mb mi : List Nat)
      (hs : Reachable inst s)
      (h : s.appendBins inst other mb mi = .ok s') : Reachable inst s'
  | appendEmptyBin (s s' : Solution) (t : Nat) (copies : Int)
      (hs : Reachable inst s)
      (h : s.appendEmptyBin inst t copies = .ok s') : Reachable inst s'

end PackingSolver.Stacks.Spec
