import Verif.Spec.OneDimCopy

/-!
# Specification of instance files

When two instances are the same for a user, and which instances the reader accepts.
-/

namespace PackingSolver.OneDim.Spec

open PackingSolver.OneDim

/-- The same instance, precedences and feasibility callback excepted. -/
structure SameInstance (inst inst' : Instance) : Prop where
  objective : inst'.objective = inst.objective
  numberOfBinTypes : inst'.numberOfBinTypes = inst.numberOfBinTypes
  numberOfItemTypes : inst'.numberOfItemTypes = inst.numberOfItemTypes
  bins : ∀ t, t < inst.numberOfBinTypes → SameBinData (inst.binType t) (inst'.binType t)
  items : ∀ i, i < inst.numberOfItemTypes → SameItemData (inst.itemType i) (inst'.itemType i)
    ∧ (inst'.itemType i).copiesMin = (inst.itemType i).copiesMin
  /-- Same resources; the penalty of a resource that is not penalized is
  meaningless. -/
  resources : ∀ t, t < inst.numberOfBinTypes →
    (inst'.binType t).resources.map
        (fun r => (r.capacity, r.penalize, if r.penalize then r.penalty else 0))
      = (inst.binType t).resources.map
          (fun r => (r.capacity, r.penalize, if r.penalize then r.penalty else 0))
  consumptions : ∀ t, t < inst.numberOfBinTypes → ∀ r i c,
    ((inst'.binType t).resources.getD r {}).itemConsumption i c
      = ((inst.binType t).resources.getD r {}).itemConsumption i c

/-- Bin types have at least one copy and their minimum is at most it.  The setters
used by the reader reject anything else. -/
def ReadableBins (inst : Instance) : Prop :=
  ∀ t ∈ inst.binTypes, 0 < t.copies ∧ t.copiesMin ≤ t.copies

/-- Item types have at least one copy, or -1. -/
def ReadableItems (inst : Instance) : Prop :=
  ∀ t ∈ inst.itemTypes, 0 < t.copies ∨ t.copies = -1

end PackingSolver.OneDim.Spec
