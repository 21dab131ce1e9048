import Verif.Model.OneDim.Builder
import Verif.Model.OneDim.PostProcess

/-!
# Sequential feasibility scheme of column generation

Models `build_sequential_feasibility_sub_instance`
(`src/algorithms/column_generation.hpp:1051–1079`) and the sequential branch of
`column_generation` (lines 1124–1198), instantiated for one-dimensional instances.
-/

namespace PackingSolver.OneDim

open InstanceBuilder

/-- The bin type calls of `build_sequential_feasibility_sub_instance`,
`column_generation.hpp:1059–1072`: bin types in order while bins remain; the id of
the new bin type is the original one. -/
def sequentialBinCalls (inst : Instance) : List Nat → Int → List Op
  | [], _ => []
  | t :: ts, remaining =>
    if remaining > 0 then
      let copies := min (inst.binType t).copies remaining
      .addBinTypeFrom inst t :: .setBinTypeCopiesMin t 0 :: .setBinTypeCopies t copies
        :: sequentialBinCalls inst ts (remaining - copies)
    else []

/-- `build_sequential_feasibility_sub_instance`, `column_generation.hpp:1051–1079`.
(The parameters, `set_parameters`, play no role in the model.) -/
def sequentialSubInstance (inst : Instance) (numberOfBins : Int) : Except Err Instance :=
  runOps .feasibility
    (sequentialBinCalls inst (List.range inst.binTypes.length) numberOfBins
      ++ (List.range inst.itemTypes.length).map (.addItemTypeFrom inst))

/-- What the recursive call returns: its best solution and `is_proven_infeasible`. -/
structure SubAnswer where
  best : Solution
  isProvenInfeasible : Bool

/-- `bin_packing_bound` and the solution handed to `update_solution`, if any. -/
structure SequentialOutput where
  bound : Int
  solution : Option Solution := none

/-- The loop over the candidate numbers of bins, `column_generation.hpp:1142–1194`.
`solve` is the recursive call for each candidate (the column pool it shares with the
previous ones is an internal matter of `solve`), `ends` the timer and end boolean.
`update_bin_packing_bound` only raises the bound. -/
def sequentialLoop (inst : Instance) (solve : Int → Instance → SubAnswer) (ends : Int → Bool) :
    List Int → SequentialOutput → Except Err SequentialOutput
  | [], out => .ok out
  | k :: ks, out =>
    if ends k then .ok out
    else do
      let sub ← sequentialSubInstance inst k
      let a := solve k sub
      if a.best.feasible then do
        let e ← enforceBinTypeOrder sub a.best
        let s ← (Solution.init inst).appendBins inst e [] []
        .ok { out with solution := some s }
      else if a.isProvenInfeasible then
        sequentialLoop inst solve ends ks { out with bound := max out.bound (k + 1) }
      else sequentialLoop inst solve ends ks out

/-- The candidates from `lower` to the number of available bins,
`column_generation.hpp:1134–1144`. -/
def sequentialCandidates (inst : Instance) (lower : Int) : List Int :=
  let available := (inst.binTypes.map fun t => t.copies).sum
  (List.range (available + 1 - lower).toNat).map fun (d : Nat) => lower + (d : Int)

/-- The sequential branch of `column_generation`, `column_generation.hpp:1124–1198`;
`bound` is `output.bin_packing_bound`, `lowerBound` the argument `lower_bound`. -/
def sequentialFeasibility (inst : Instance) (solve : Int → Instance → SubAnswer)
    (ends : Int → Bool) (bound lowerBound : Int) : Except Err SequentialOutput :=
  sequentialLoop inst solve ends (sequentialCandidates inst (max bound lowerBound))
    { bound := bound }

end PackingSolver.OneDim
