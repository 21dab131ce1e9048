import Verif.Spec.OneDim

/-! # Positions of the items in a bin -/

namespace PackingSolver.OneDim.Spec

open PackingSolver.OneDim

/-- Where the `k`-th item of the sequence `l` starts: the first item starts at 0, each
following item starts where the previous items end, minus its nesting length. -/
def itemStart (inst : Instance) (l : List Nat) (k : Nat) : Int :=
  binEnd inst (l.take k) - if k = 0 then 0 else (inst.itemType (l.getD k 0)).nestingLength

end PackingSolver.OneDim.Spec
