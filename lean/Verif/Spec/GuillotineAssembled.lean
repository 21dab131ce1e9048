import Verif.Spec.GuillotineTotals
import Verif.Model.Guil.SolutionBuilder

/-!
# Specification: guillotine solutions assembled from others
-/

namespace PackingSolver.Guil.Spec

/-- The solutions a caller can obtain: the empty solution, those of the solution builder, and those
obtained by appending bins of a solution of the same or of another instance, with any renaming of the
bin types and item types. -/
inductive Assembled : Instance → Solution → Prop
  | empty (inst : Instance) : Assembled inst (Solution.init inst)
  | built {inst : Instance} {ops : List Op} {s : Solution} :
      (SolutionBuilder.run inst ops).build inst = .ok s → Assembled inst s
  | append {inst inst' : Instance} {s other s' : Solution} {pos : Nat} {copies : Int}
      {binTypeIds itemTypeIds : List Nat} :
      Assembled inst s → Assembled inst' other →
      s.appendBin inst other pos copies binTypeIds itemTypeIds = .ok s' → Assembled inst s'

/-- A renaming of ids; an empty list renames nothing. -/
def renamed (ids : List Nat) (i : Nat) : Nat := if ids = [] then i else ids.getD i 0

/-- The bin of another solution as it is listed after it is appended: the type and the item types
are renamed, the root has the size of the new bin type. -/
def importedNode (bt : BinType) (binTypeId : Nat) (itemTypeIds : List Nat) (n : Node) : Node :=
  if n.f = none then { n with itemTypeId := binTypeId, r := bt.w, t := bt.h }
  else if n.itemTypeId < 0 then n
  else { n with itemTypeId := renamed itemTypeIds n.itemTypeId.toNat }

/-- The last bin with its residual, if its last node is one, turned into waste. -/
def withoutResidual (ps : List Plate) : List Plate :=
  match ps.reverse with
  | [] => []
  | p :: rest => rest.reverse ++ [{ p with
      nodes := match p.nodes.reverse with
        | [] => []
        | n :: l => l.reverse ++ [if n.itemTypeId = -3 then { n with itemTypeId := -1 } else n] }]

end PackingSolver.Guil.Spec
