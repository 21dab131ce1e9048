import Verif.Model.Algorithms.SequentialValueCorrection
import Mathlib.Algebra.Order.Floor.Ring
import Mathlib.Data.Rat.Floor

/-!
# Dichotomic search

Models `dichotomic_search`, `src/algorithms/dichotomic_search.hpp:82–273`, a template over the
problem type.  As in the model of sequential value correction only the quantities that the
algorithm reads are modelled.  The knapsack solver and the bin packing solver are external: an
`Oracle` gives their answers.  `double` is `ℚ`, with `ExtQ` for the upper bound.
-/

namespace PackingSolver.Dichotomic

open PackingSolver.Svc (BinTypeData Bin Status)

/-- The parts of the instance that the algorithm reads. -/
structure InstanceData where
  binTypes : List BinTypeData
  /-- Copies and space of each item type. -/
  items : List (Int × ℚ)
deriving Repr

/-- `bin_type(bin_type_id)`, read throughout `dichotomic_search.hpp:106–236`. -/
def InstanceData.binType (inst : InstanceData) (t : Nat) : BinTypeData :=
  inst.binTypes.getD t {}

/-- `instance.number_of_items()`, read at `dichotomic_search.hpp:251`. -/
def InstanceData.numberOfItems (inst : InstanceData) : Int := (inst.items.map fun i => i.1).sum

/-- `instance.number_of_bins()`, read at `dichotomic_search.hpp:266`. -/
def InstanceData.numberOfBins (inst : InstanceData) : Int :=
  (inst.binTypes.map fun t => t.copies).sum

/-- `item_space`, `dichotomic_search.hpp:96–102`. -/
def itemSpace (inst : InstanceData) : ℚ := (inst.items.map fun i => (i.1 : ℚ) * i.2).sum

/-- `bin_min_space`, `dichotomic_search.hpp:103–109`. -/
def binMinSpace (inst : InstanceData) : ℚ :=
  (inst.binTypes.map fun t => (t.copiesMin : ℚ) * t.space).sum

/-- `bin_space`, `dichotomic_search.hpp:111–117`. -/
def binSpace (inst : InstanceData) : ℚ :=
  (inst.binTypes.map fun t => (t.copies : ℚ) * t.space).sum

/-- The capacity before it is converted to an integer, `dichotomic_search.hpp:156–158`. -/
def rawCapacity (inst : InstanceData) (waste : ℚ) : ℚ :=
  binSpace inst - binMinSpace inst - itemSpace inst * (1 + waste)

/-- `kp_capacity`, `dichotomic_search.hpp:156–159`.  The conversion of a `double` to a 64-bit
integer drops the fraction, and is undefined outside the range of the integer type.  (For
nonpositive values the direction of rounding does not matter because of the maximum.) -/
def kpCapacity (inst : InstanceData) (waste : ℚ) : Except Err Int :=
  if rawCapacity inst waste ≤ -(2 ^ 63) - 1 ∨ rawCapacity inst waste ≥ 2 ^ 63 then .error .ub
  else .ok (max ⌊rawCapacity inst waste⌋ 0)

/-- `kp2ps`, `dichotomic_search.hpp:162–173`: the optional bins, one by one; larger ones than
the capacity are skipped. -/
def kp2ps (inst : InstanceData) (capacity : Int) : List Nat :=
  (List.range inst.binTypes.length).flatMap fun t =>
    if (inst.binType t).space > (capacity : ℚ) then []
    else List.replicate ((inst.binType t).copies - (inst.binType t).copiesMin).toNat t

/-- `bin_copies`, `dichotomic_search.hpp:199–211`: the mandatory copies and the optional copies
that the knapsack solution leaves out.  `taken` says for each knapsack item whether the solution
contains it. -/
def binCopies (inst : InstanceData) (capacity : Int) (taken : List Bool) : List Int :=
  (List.range inst.binTypes.length).map fun t =>
    (inst.binType t).copiesMin
      + (((kp2ps inst capacity).zip taken).countP fun p => p.1 = t ∧ p.2 = false : Int)

/-- The bins of the bin packing instance, `dichotomic_search.hpp:213–236`, as pairs of bin type
and copies: first the selected bins, then the remaining ones.  `sorted` is `sorted_bin_types`,
any result of `std::sort` by space.  `set_bin_type_copies` comes before
`set_bin_type_copies_min`, and rejects fewer copies than `copies_min`. -/
def bppBins (inst : InstanceData) (sorted : List Nat) (copies : List Int) :
    Except Err (List (Nat × Int)) :=
  let first := (sorted.filter fun t => copies.getD t 0 > 0).map fun t => (t, copies.getD t 0)
  let second := (sorted.filter fun t => (inst.binType t).copies - copies.getD t 0 > 0).map
    fun t => (t, (inst.binType t).copies - copies.getD t 0)
  if ∃ p ∈ first ++ second, (inst.binType p.1).copiesMin > p.2 then .error .invalidArgument
  else .ok (first ++ second)

/-- Number of selected bins, `number_of_bins` in `dichotomic_search.hpp:215–223`. -/
def selectedBins (sorted : List Nat) (copies : List Int) : Int :=
  ((sorted.filter fun t => copies.getD t 0 > 0).map fun t => copies.getD t 0).sum

/-- The external answers. -/
structure Oracle where
  /-- The knapsack solution for a capacity and the optional bins. -/
  kp : Int → List Nat → List Bool
  /-- The best solution of the bin packing instance with the given bins; the bin type ids are
  positions in the list. -/
  bpp : List (Nat × Int) → List Bin
  /-- `parameters.timer.needs_to_end()` after a number of emitted solutions, for a waste. -/
  ends : Nat → ℚ → Bool

/-- The variables of the search. -/
structure State where
  lower : ℚ := 0
  upper : ExtQ := .inf
  /-- `memory`. -/
  memory : List (List Int × Bool) := []
  /-- Solutions handed to `update_solution`. -/
  emitted : List (List Bin) := []
deriving Repr

/-- Parameters of the search. -/
structure Parameters where
  initialWaste : ℚ := 1 / 10
  initialUpper : ExtQ := .inf

/-- The loop condition, `dichotomic_search.hpp:133`. -/
def continues (st : State) : Bool :=
  match st.upper with
  | .inf => true
  | .fin u => decide (u - st.lower > 1 / 100000)

/-- `waste_percentage`, `dichotomic_search.hpp:134–143`. -/
def nextWaste (p : Parameters) (st : State) : ℚ :=
  match st.upper with
  | .inf => if st.lower = 0 then p.initialWaste else st.lower * 2
  | .fin u => (st.lower + u) / 2

/-- `append_bins` with the bin type ids of the original instance,
`dichotomic_search.hpp:242–244`. -/
def relabel (bins : List (Nat × Int)) (sol : List Bin) : List Bin :=
  sol.map fun b => { b with typeId := (bins.getD b.typeId (0, 0)).1 }

/-- Update of the bounds, `dichotomic_search.hpp:261–268`. -/
def updateBounds (inst : InstanceData) (taken : List Bool) (waste : ℚ) (found : Bool)
    (st : State) : State × Status :=
  if found then ({ st with upper := .fin waste }, .running)
  else if ((taken.countP fun b => b) : Int) = inst.numberOfBins then
    ({ st with lower := waste }, .returned)
  else ({ st with lower := waste }, .running)

/-- One pass of the loop, `dichotomic_search.hpp:134–268`. -/
def step (inst : InstanceData) (sorted : List Nat) (p : Parameters) (o : Oracle) (st : State) :
    State × Status :=
  let waste := nextWaste p st
  if o.ends st.emitted.length waste then (st, .returned)
  else match kpCapacity inst waste with
  | .error e => (st, .threw e)
  | .ok capacity =>
    let taken := o.kp capacity (kp2ps inst capacity)
    let copies := binCopies inst capacity taken
    match st.memory.lookup copies with
    | some found => updateBounds inst taken waste found st
    | none =>
      match bppBins inst sorted copies with
      | .error e => (st, .threw e)
      | .ok bins =>
        let sol := o.bpp bins
        let found : Bool := Svc.numberOfItems sol = inst.numberOfItems
          ∧ Svc.numberOfBins sol ≤ selectedBins sorted copies
        updateBounds inst taken waste found
          { st with
            memory := (copies, found) :: st.memory
            emitted := st.emitted ++ [relabel bins sol] }

/-- At most `fuel` passes of the loop, `dichotomic_search.hpp:133–269`. -/
def loop (inst : InstanceData) (sorted : List Nat) (p : Parameters) (o : Oracle) :
    Nat → State → State × Status
  | 0, st => (st, .running)
  | fuel + 1, st =>
    if continues st then
      match step inst sorted p o st with
      | (st', .running) => loop inst sorted p o fuel st'
      | r => r
    else (st, .returned)

/-- `dichotomic_search`, `dichotomic_search.hpp:82–273`, with at most `fuel` passes of the
loop. -/
def run (inst : InstanceData) (sorted : List Nat) (p : Parameters) (o : Oracle) (fuel : Nat) :
    State × Status :=
  if inst.items.length = 0 then ({}, .returned)
  else loop inst sorted p o fuel { upper := p.initialUpper }

end PackingSolver.Dichotomic
