import Verif.Model.OneDim.Solution

/-!
# Grouping identical bins and enforcing the bin type order

Models `group_identical_bins` and `enforce_bin_type_order`
(`include/packingsolver/algorithms/common.hpp:550–657`), instantiated for
one-dimensional solutions.
-/

namespace PackingSolver.OneDim

/-- `operator==(SolutionBin, SolutionBin)`, `src/onedimensional/solution.cpp:440–446`. -/
def sameBin (a b : SolutionBin) : Bool :=
  decide (a.binTypeId = b.binTypeId) && decide (a.items = b.items)

/-- Look for the group of a bin and add the copies to the first match,
`common.hpp:572–578`; `none` if no group matches. -/
def addToGroup (s : Solution) (bin : SolutionBin) :
    List (Nat × Int) → Option (List (Nat × Int))
  | [] => none
  | g :: gs =>
    if sameBin (s.bins.getD g.1 default) bin then some ((g.1, g.2 + bin.copies) :: gs)
    else (addToGroup s bin gs).map (g :: ·)

/-- One iteration of the loop of `common.hpp:567–581`. -/
def groupStep (s : Solution) (groups : List (Nat × Int)) (pos : Nat) : List (Nat × Int) :=
  let bin := s.bins.getD pos default
  (addToGroup s bin groups).getD (groups ++ [(pos, bin.copies)])

/-- The groups `(original_bin_pos, total_copies)`, `common.hpp:561–581`. -/
def binGroups (s : Solution) : List (Nat × Int) :=
  (List.range s.bins.length).foldl (groupStep s) []

/-- `group_identical_bins`, `common.hpp:558–587`. -/
def groupIdenticalBins (inst : Instance) (s : Solution) : Except Err Solution :=
  (binGroups s).foldlM (fun n g => n.appendBin inst s g.1 g.2 [] []) (Solution.init inst)

/-- `last_used_bin_type_id`, `common.hpp:617–625`. -/
def lastUsedBinType (s : Solution) : Int :=
  s.bins.foldl (fun m b => max m (b.binTypeId : Int)) (-1)

/-- `solution_bin_positions[bin_type_id]`, `common.hpp:630–639`. -/
def binPositions (s : Solution) (t : Nat) : List Nat :=
  (List.range s.bins.length).flatMap fun pos =>
    if (s.bins.getD pos default).binTypeId = t then
      List.replicate (s.bins.getD pos default).copies.toNat pos
    else []

/-- The bins of one type, `common.hpp:645–654`. -/
def enforceStep (inst : Instance) (s : Solution) (last : Nat) (new : Solution) (t : Nat) :
    Except Err Solution := do
  let positions := binPositions s t
  let target : Int := if t < last then (inst.binType t).copies else positions.length
  let new ← (positions.take target.toNat).foldlM
    (fun n pos => n.appendBin inst s pos 1 [] []) new
  if target > positions.length then new.appendEmptyBin inst t (target - positions.length)
  else .ok new

/-- `enforce_bin_type_order`, `common.hpp:612–657`.  (Simplification: the bin types of
the solution are assumed to exist when the positions are collected; the appends check
them.) -/
def enforceBinTypeOrder (inst : Instance) (s : Solution) : Except Err Solution :=
  if lastUsedBinType s = -1 then .ok s
  else (List.range ((lastUsedBinType s).toNat + 1)).foldlM
    (enforceStep inst s (lastUsedBinType s).toNat) (Solution.init inst)

end PackingSolver.OneDim
