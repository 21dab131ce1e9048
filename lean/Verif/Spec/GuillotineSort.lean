import Verif.Model.Guil.SortSubplates
import Verif.Spec.GuillotineComposed
import Verif.Spec.GuillotineTotals
import Mathlib.Algebra.Order.Field.Rat

/-!
# Specification: subplates in the order of given criteria
-/

namespace PackingSolver.Guil.Spec

open SortSubplates

/-- The items of a bin: their types, widths and heights, wherever they are. -/
def sizes (nodes : List Node) : List (Nat × Int × Int) :=
  (nodes.filter fun n => n.f.isSome && decide (0 ≤ n.itemTypeId)).map fun n =>
    (n.itemTypeId.toNat, n.r - n.l, n.t - n.b)

/-- The item of a node, if it is one. -/
def itemAt (nodes : List Node) (k : Nat) : List (Nat × Int × Int) :=
  let n := nodes.getD k default
  if 0 ≤ n.itemTypeId then [(n.itemTypeId.toNat, n.r - n.l, n.t - n.b)] else []

/-- The items of the parts of a node, of their parts, and so on to a given depth, in the order in
which they are cut if `parts` lists the parts of a node in that order. -/
def cutInOrder (nodes : List Node) (parts : Nat → List Nat) : Nat → Nat → List (Nat × Int × Int)
  | 0, _ => []
  | depth + 1, a => (parts a).flatMap fun k => itemAt nodes k ++ cutInOrder nodes parts depth k

/-- No item lies directly on the part of the bin inside its hard trims, uncut. -/
def ItemsCutOut (bin : SolutionBin) : Prop :=
  ∀ n ∈ bin.nodes, n.f.isSome = true → n.d = 0 → n.itemTypeId < 0

/-- What the lengths of a subplate are.  The first length of an item is its extent in the direction in
which the cut for it advances, the second one that along the cut.  The items of a subplate that is cut
again reach along the cut as far as the first lengths of its parts together, and in the other direction as
far as the largest second length of its parts.  Waste is the area of the parts that are neither items nor
cut. -/
structure IsLengths (o : CutOrientation) (nodes : List Node) (L : Nat → NodeLengths) (i : Nat) (n : Node) :
    Prop where
  area : (L i).area = (n.r - n.l) * (n.t - n.b)
  upright : 0 ≤ n.itemTypeId → (o = .vertical ↔ n.d % 2 = 1) →
    (L i).length1 = n.r - n.l ∧ (L i).length2 = n.t - n.b ∧ (L i).waste = 0
  flat : 0 ≤ n.itemTypeId → ¬ (o = .vertical ↔ n.d % 2 = 1) →
    (L i).length1 = n.t - n.b ∧ (L i).length2 = n.r - n.l ∧ (L i).waste = 0
  cut : n.itemTypeId = -2 → ∀ parts, parts = (List.range nodes.length).filter (fun j =>
      (nodes.getD j default).f == some i) →
    IsMaxWithZero (parts.map fun j => (L j).length2) (L i).length1
    ∧ (L i).length2 = (parts.map fun j => (L j).length1).sum
    ∧ (L i).waste = (parts.map fun j => (L j).waste).sum
  none : n.itemTypeId < 0 → n.itemTypeId ≠ -2 →
    (L i).length1 = 0 ∧ (L i).length2 = 0 ∧ (L i).waste = (L i).area

/-- What a criterion prefers to be large: the lengths, little waste, and the part of the area that
is not waste. -/
def worth (a : NodeLengths) : Criterion → ℚ
  | .length1 => a.length1
  | .length2 => a.length2
  | .waste => -a.waste
  | .density => (a.area - a.waste) / a.area

/-- `a` is worth more than `b` by the first criterion by which they differ. -/
def WorthMore (criteria : List Criterion) (a b : NodeLengths) : Prop :=
  criteria.map (worth b) < criteria.map (worth a)

/-- The waste and the area are those of a rectangle and are 64-bit numbers. -/
structure Measured (a : NodeLengths) : Prop where
  waste : 0 ≤ a.waste ∧ a.waste < 2 ^ 63
  area : 0 < a.area ∧ a.area < 2 ^ 63

end PackingSolver.Guil.Spec
