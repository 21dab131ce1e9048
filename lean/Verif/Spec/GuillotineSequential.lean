import Verif.Model.Guil.BlockRebuild
import Verif.Spec.GuillotineTotals

/-!
# Specification: packing all items within smaller and smaller bounds
-/

namespace PackingSolver.Guil.Spec

/-- What is asked of the solver of the feasibility problems: its answer comes from calls of the solution
builder that throw nothing, lists every bin separately, says how every bin is cut first, and uses no more
bins than there are. -/
structure Answer (inst : Instance) (s : Solution) : Prop where
  built : ∃ ops sb, (SolutionBuilder.new inst).runOrThrow inst ops = .ok sb ∧ sb.build inst = .ok s
  single : ∀ b ∈ s.bins, b.copies = 1
  oriented : ∀ b ∈ s.bins, b.firstCutOrientation ≠ .any
  available : s.numberOfBins ≤ inst.numberOfBins

/-- The whole of a bin, trims included. -/
def whole (bt : BinType) : Region := ⟨0, bt.w, 0, bt.h⟩

/-- The items of a bin lie in it, have the sides of their types, and a cut fits between any two of
them. -/
structure ItemsFit (inst : Instance) (bin : SolutionBin) : Prop where
  exists_type : bin.binTypeId < inst.numberOfBinTypes
  inside : ∀ n ∈ itemNodes bin, (region n).Inside (whole (inst.binType bin.binTypeId))
  sides : ∀ n ∈ itemNodes bin, ∃ i < inst.numberOfItemTypes, n.itemTypeId = (i : Int)
    ∧ ((n.r - n.l = (inst.itemType i).w ∧ n.t - n.b = (inst.itemType i).h)
      ∨ (n.r - n.l = (inst.itemType i).h ∧ n.t - n.b = (inst.itemType i).w))
  apart : ((itemNodes bin).map region).Pairwise (Region.Apart inst.parameters.cutThickness)

/-- The first solution is better than the second in what is minimized: the number of bins, or the used
width or height. -/
def Better (o : Objective) (s s' : Solution) : Prop :=
  match o with
  | .binPacking => s.numberOfBins < s'.numberOfBins
  | .openDimensionX => s.width < s'.width
  | .openDimensionY => s.height < s'.height
  | _ => False

end PackingSolver.Guil.Spec
