import Verif.Spec.GuillotineTotals

/-!
# Specification: lists of plates as the guillotine solver keeps them
-/

namespace PackingSolver.Guil.Spec

variable (inst : Instance)

/-- The root of every plate names the type of the plate and has its size, and no plate but the last
one ends with a residual. -/
structure Regular (ps : List Plate) : Prop where
  roots : ∀ p ∈ ps, ∀ n ∈ p.nodes, n.f = none →
    n.itemTypeId = p.binTypeId ∧ n.r = (inst.binType p.binTypeId).w
      ∧ n.t = (inst.binType p.binTypeId).h
  marks : ∀ p ∈ ps.dropLast, ∀ n, p.nodes.getLast? = some n → n.itemTypeId ≠ -3

end PackingSolver.Guil.Spec
