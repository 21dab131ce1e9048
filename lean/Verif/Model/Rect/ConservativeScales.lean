import Verif.Model.Rect.Instance
import Mathlib.Data.Rat.Floor

/-!
# Conservative scales

Models `src/rectangle/conservative_scales.cpp`.  The LP solver and the exact knapsack solver
called for separation are parameters of the model.
-/

namespace PackingSolver.Rect.Scales

open PackingSolver.Rect

/-- The tolerance `1e-6` of lines 143 and 192. -/
def scaleTol : ℚ := 1 / 1000000

/-- The linear program of `solve_conservative_scale_lp`, lines 64–75 and 151–160: one variable
between 0 and `capacity` for each of the `eligible` item types; each row lists the coefficients
of all item types, its sum is at most `capacity`. -/
structure ScaleLp where
  eligible : List Nat
  capacity : Int
  weights : List ℚ
  rows : List (List Int)
deriving DecidableEq, Repr

/-- An item type of the separation knapsack, lines 102–120. -/
structure KpItem where
  length : Int
  profit : ℚ
  copies : Int
deriving DecidableEq, Repr, Inhabited

/-- The external solvers: `Highs` (lines 85–89) gives a value for each variable in order, the
one-dimensional knapsack (lines 125–137) a number of copies for each item type in order. -/
structure Oracles where
  lp : ScaleLp → List ℚ
  kp : Int → List KpItem → List Int

/-- `eligible_item_type_ids`, lines 50–56. -/
def eligible (inst : Instance) (dims : List Int) (capacity : Int) : List Nat :=
  (List.range inst.numberOfItemTypes).filter fun i => decide (dims.getD i 0 ≤ capacity)

/-- `solution[variable_pos[item_type_id]]`, 0 for an item type without variable. -/
def value (ids : List Nat) (solution : List ℚ) (i : Nat) : ℚ :=
  if i ∈ ids then solution.getD (ids.idxOf i) 0 else 0

/-- `kp_to_item_type`, lines 105–120. -/
def kpIds (ids : List Nat) (solution : List ℚ) : List Nat :=
  ids.filter fun i => !decide (value ids solution i ≤ 0)

/-- The item types of `kp_instance`, lines 102–120. -/
def kpItems (inst : Instance) (dims : List Int) (ids : List Nat) (solution : List ℚ) :
    List KpItem :=
  (kpIds ids solution).map fun i =>
    ⟨dims.getD i 0, value ids solution i, (inst.itemType i).copies⟩

/-- `selected_copies`, lines 124–138. -/
def selectedCopies (o : Oracles) (inst : Instance) (dims : List Int) (capacity : Int)
    (ids : List Nat) (solution : List ℚ) : List Int :=
  let kids := kpIds ids solution
  if kids = [] then List.replicate inst.numberOfItemTypes 0
  else
    let answer := o.kp capacity (kpItems inst dims ids solution)
    (List.range inst.numberOfItemTypes).map fun i =>
      if i ∈ kids then answer.getD (kids.idxOf i) 0 else 0

/-- `achieved`, lines 139–141. -/
def achieved (ids : List Nat) (solution : List ℚ) (selected : List Int) : ℚ :=
  ids.foldl (fun acc i => acc + (selected.getD i 0 : ℚ) * value ids solution i) 0

/-- The cutting-plane loop of `solve_conservative_scale_lp`, lines 77–167, with the number of
iterations left and the rows added so far. -/
def scaleLoop (o : Oracles) (inst : Instance) (dims : List Int) (capacity : Int)
    (weights : List ℚ) (ids : List Nat) : Nat → List (List Int) → List ℚ
  | 0, _ => (List.range inst.numberOfItemTypes).map fun i =>
      if i ∈ ids then (dims.getD i 0 : ℚ) else 0
  | n + 1, rows =>
    let solution := o.lp ⟨ids, capacity, weights, rows⟩
    let selected := selectedCopies o inst dims capacity ids solution
    if achieved ids solution selected ≤ capacity + scaleTol then
      (List.range inst.numberOfItemTypes).map (value ids solution)
    else scaleLoop o inst dims capacity weights ids n (rows ++ [selected])

/-- `solve_conservative_scale_lp`, lines 41–168. -/
def scaleLp (o : Oracles) (inst : Instance) (dims : List Int) (capacity : Int)
    (weights : List ℚ) : List ℚ :=
  let ids := eligible inst dims capacity
  if ids = [] then List.replicate inst.numberOfItemTypes 0
  else scaleLoop o inst dims capacity weights ids 10000 []

/-- `bound_for_pair`, lines 177–193. -/
def boundForPair (inst : Instance) (lengths1 lengths2 : List ℚ) (binArea : ℚ) : Int :=
  ⌈(List.range inst.numberOfItemTypes).foldl (fun acc i =>
      acc + ((inst.itemType i).copies : ℚ) * lengths1.getD i 0 * lengths2.getD i 0) 0 / binArea
    - scaleTol⌉

/-- The loop of `conservative_scales`, lines 251–297: `stop` tells when the timer ends, `n`
iterations are left, `it` is the number of the next one.  The iterates `w^k`, `h^l` are listed in
order; the result lists the values of `bound_for_pair` in the order in which they are
computed. -/
def scalesLoop (o : Oracles) (inst : Instance) (stop : Nat → Bool) (binArea : ℚ)
    (originalWidths originalHeights : List Int) :
    Nat → Nat → List (List ℚ) → List (List ℚ) → List Int → List Int
  | 0, _, _, _, bounds => bounds
  | n + 1, it, widths, heights, bounds =>
    if stop it then bounds
    else
      let newWidths := scaleLp o inst originalWidths (inst.binType 0).x (heights.getD (it - 1) [])
      let bounds := bounds ++ heights.map fun h => boundForPair inst newWidths h binArea
      let widths := widths ++ [newWidths]
      let newHeights := scaleLp o inst originalHeights (inst.binType 0).y (widths.getD (it - 1) [])
      let bounds := bounds ++ widths.map fun w => boundForPair inst newHeights w binArea
      let heights := heights ++ [newHeights]
      if widths.getD it [] = widths.getD (it - 1) [] ∧ heights.getD it [] = heights.getD (it - 1) []
      then bounds
      else scalesLoop o inst stop binArea originalWidths originalHeights n (it + 1) widths heights
        bounds

/-- `conservative_scales`, lines 197–301: the bounds given to `update_bin_packing_bound`, or
compared to the number of bins. -/
def conservativeScales (o : Oracles) (stop : Nat → Bool) (iterations : Nat) (inst : Instance) :
    Except Err (List Int) :=
  if inst.objective ≠ .binPacking ∧ inst.objective ≠ .feasibility then .error .invalidArgument
  else if inst.numberOfBinTypes ≠ 1 then .error .invalidArgument
  else if !inst.allItemTypesOriented then .error .invalidArgument
  else
    let originalWidths : List Int := inst.itemTypes.map (·.x)
    let originalHeights : List Int := inst.itemTypes.map (·.y)
    let widths : List ℚ := originalWidths.map fun x : Int => (x : ℚ)
    let heights : List ℚ := originalHeights.map fun y : Int => (y : ℚ)
    let binArea : ℚ := ((inst.binType 0).x : ℚ) * ((inst.binType 0).y : ℚ)
    .ok (scalesLoop o inst stop binArea originalWidths originalHeights iterations 1 [widths]
      [heights] [boundForPair inst widths heights binArea])

/-- `update_is_proven_infeasible` is called, lines 246–248, 269–271 and 286–288. -/
def provenInfeasible (inst : Instance) (bounds : List Int) : Bool :=
  inst.objective = .feasibility && bounds.any fun b => decide (b > (inst.numberOfBins : Int))

end PackingSolver.Rect.Scales
