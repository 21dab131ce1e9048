import Verif.Spec.BoxTree
import Verif.Spec.BoxBlock
import Verif.Model.Box.MaximalSpaces

/-!
# Specification: nodes of the search over maximal spaces
-/

namespace PackingSolver.Box.MaximalSpaces.Spec

open PackingSolver.Box
open PackingSolver.Box.Spec (Placed Inside Separated)

/-- The nodes any search can reach: the root, and the children of reached nodes by the insertions
offered in them.  The fitness of insertions is arbitrary, and may be another one for every child. -/
inductive Reached (s : Scheme) : Node → Prop
  | root : Reached s (MaximalSpaces.root s)
  | child {guide : Node → Nat → ℚ} {n n' : Node} {i : Insertion} (h : Reached s n)
      (hi : i ∈ insertions s n) (hc : MaximalSpaces.child s guide n i = .ok n') : Reached s n'

/-- The nodes a search can reach from a node. -/
inductive Descends (s : Scheme) (n : Node) : Node → Prop
  | self : Descends s n n
  | child {guide : Node → Nat → ℚ} {m m' : Node} {i : Insertion} (h : Descends s n m)
      (hi : i ∈ insertions s m) (hc : MaximalSpaces.child s guide m i = .ok m') : Descends s n m'

/-- The fitness of the insertions in a node does not depend on the value given to the node. -/
def IgnoresValue (guide : Node → Nat → ℚ) : Prop :=
  ∀ (m : Node) (v : ℚ), guide { m with greedyValue := v } = guide m

/-- The items of a packing with a single bin. -/
def itemsOf (p : Box.Spec.Packing) : List PlacedItem := p.flatMap fun b => b.items

end PackingSolver.Box.MaximalSpaces.Spec
