import Verif.Model.Num

/-!
# Specification of resource consumption schedules

Written from the documentation of `add_resource_consumption`: a history is the
list of calls, and the consumption of a copy is defined from that list only.
-/

namespace PackingSolver.Spec

/-- One call `add_resource_consumption(..., item_type_id, item_copy, consumption)`
on a fixed resource. -/
structure ConsumptionWrite where
  itemTypeId : Nat
  itemCopy : Nat
  consumption : ℚ
deriving DecidableEq, Repr

/-- The value of the last call at `(i, k)`, if any. -/
def lastWrite (calls : List ConsumptionWrite) (i k : Nat) : Option ℚ :=
  ((calls.filter fun w => w.itemTypeId = i ∧ w.itemCopy = k).getLast?).map (·.consumption)

/-- The largest copy number written for item type `i`, if any. -/
def lastCopy (calls : List ConsumptionWrite) (i : Nat) : Option Nat :=
  ((calls.filter fun w => w.itemTypeId = i).map (·.itemCopy)).max?

/-- The consumption of copy `k` of item type `i` after the calls: 0 if nothing
was written for the item type; copies past the last written one consume as much
as the last written one; copies before it that were not written consume 0. -/
def scheduledConsumption (calls : List ConsumptionWrite) (i k : Nat) : ℚ :=
  match lastCopy calls i with
  | none => 0
  | some m => (lastWrite calls i (min k m)).getD 0

end PackingSolver.Spec
