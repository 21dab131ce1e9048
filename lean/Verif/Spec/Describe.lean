import Mathlib.Data.List.Basic
import Mathlib.Data.Rat.Defs

/-!
# What a history of calls describes

For a history (a list of calls), the last value given for something, and all the values given.
-/

namespace PackingSolver.Spec

/-- The value given by the last call that gives one. -/
def lastGiven {O α : Type} (g : O → Option α) (ops : List O) : Option α := (ops.filterMap g).getLast?

/-- All the values given, in order. -/
def allGiven {O α : Type} (g : O → Option α) (ops : List O) : List α := ops.filterMap g

/-- The largest copy mentioned in a list of consumptions (copy, amount). -/
def maxCopy (l : List (Nat × ℚ)) : Nat := (l.map (·.1)).foldr max 0

/-- The consumption of a copy of an item type, for consumptions (copy, amount) given in turn: the amount
given last for this copy, 0 if none was given; copies after the last one mentioned consume as much as that
one. -/
def consumptionOf (l : List (Nat × ℚ)) (c : Nat) : ℚ :=
  if l = [] then 0
  else ((l.filter (fun p => decide (p.1 = min c (maxCopy l)))).getLast?.map (·.2)).getD 0

end PackingSolver.Spec
