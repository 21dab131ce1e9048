import Verif.Spec.OneDim

/-! # Contents of the bins of a packing -/

namespace PackingSolver.OneDim.Spec

open PackingSolver.OneDim

/-- Number of bins of type `t` whose content is exactly the sequence `l`. -/
def contentCopies (p : Packing) (t : Nat) (l : List Nat) : Int :=
  (p.map fun b => if b.binTypeId = t ∧ b.items = l then b.copies else 0).sum

/-- The contents (bin type and items) listed by a packing, copies left aside. -/
def contents (p : Packing) : List (Nat × List Nat) := p.map fun b => (b.binTypeId, b.items)

end PackingSolver.OneDim.Spec
