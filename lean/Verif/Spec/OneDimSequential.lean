import Verif.Spec.OneDimOutput
import Verif.Spec.OneDimHistory
import Verif.Model.OneDim.Sequential

/-!
# Specification of the sequential feasibility scheme
-/

namespace PackingSolver.OneDim.Spec

open PackingSolver.OneDim

/-- Number of bins of the types before `t`. -/
def binsBefore (inst : Instance) (t : Nat) : Int :=
  ((List.range t).map fun u => (inst.binType u).copies).sum

/-- Number of bins of type `t` among the first `k` bins, in the order of the types. -/
def firstBins (inst : Instance) (k : Int) (t : Nat) : Int :=
  max 0 (min (inst.binType t).copies (k - binsBefore inst t))

/-- A complete feasible packing that uses only the first `k` bins of the instance, in
any order. -/
structure FitsInFirst (inst : Instance) (k : Int) (p : Packing) : Prop where
  typed : WellTyped inst p
  bins : ∀ b ∈ p, BinOk inst b.binTypeId b.items
  complete : AllPacked inst p
  limits : ∀ t, t < inst.numberOfBinTypes → binCopies p t ≤ firstBins inst k t

/-- What the scheme relies on from the recursive calls: a solution reported as
feasible is a solution of the sub-instance that respects its bin limits, and a
sub-instance reported as infeasible has no admissible packing. -/
structure TrustedSub (sub : Instance) (a : SubAnswer) : Prop where
  reachable : Reachable sub a.best
  limits : a.best.feasible = true → BinLimitsOk sub (packingOf a.best)
  infeasible : a.isProvenInfeasible = true → ¬ ∃ p, Admissible sub p

end PackingSolver.OneDim.Spec
