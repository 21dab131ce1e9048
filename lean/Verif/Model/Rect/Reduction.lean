import Verif.Model.Rect.Builder
import Verif.Model.Rect.Solution
import Mathlib.Data.List.Dedup

/-!
# The reduction of rectangle bin packing instances

Models `src/rectangle/reduction.cpp` and `include/packingsolver/rectangle/reduction.hpp`, which
`optimize` runs by default before it solves a `BinPacking`, `VariableSizedBinPacking` or
`Feasibility` instance (`src/rectangle/optimize.cpp:619–704`).

The feasibility solves of the companion bins (`optimize(check_instance, …)`), the timer and
`std::sort` are parameters (`Env`): the theorems hold for all of their answers.  The external
subset sum solver of `max_achievable_dimension_sum` is modelled by an exact computation.  The
constructor is only modelled for instances to which the reduction applies: `optimize` does not
construct a `Reduction` for the others.
-/

namespace PackingSolver.Rect.Reduction

/-- `struct CompanionItem`, `reduction.hpp:199–232`: an item removed because it always fits beside
a bigger one; `dx`, `dy` are the members of `offset`. -/
inductive Companion where
  | mk (itemTypeId : Nat) (dx dy : Int) (rotate : Bool) (nested : List Companion)

/-- `struct ReductionItemType`, `reduction.hpp:255–299`; `x`, `y` are the members of `rect`. -/
structure WorkItem where
  removed : Bool := false
  x : Int
  y : Int
  copies : Int := 0
  companions : List (List Companion) := []

instance : Inhabited WorkItem := ⟨{ x := 0, y := 0 }⟩

/-- `struct FullBinItem`, `reduction.hpp:773–798`: an item type that fills a bin alone. -/
structure FullBinItem where
  itemTypeId : Nat
  rotate : Bool
  copies : Int
  companions : List (List Companion)

/-- `struct PerfectPair`, `reduction.hpp:867–896`: two item types that tile a bin. -/
structure PerfectPair where
  itemTypeId1 : Nat
  itemTypeId2 : Nat
  offsetX : Int
  offsetY : Int
  copies : Int
  companions1 : List (List Companion)
  companions2 : List (List Companion)

/-- `struct BothGroup::PlacedItem`, `reduction.hpp:630–658`. -/
structure GroupItem where
  itemTypeId : Nat
  x : Int
  y : Int
  rotate : Bool
  companions : List Companion

/-- The working representation and the reservations made so far (`reduction_item_types`,
`full_bin_items_`, `perfect_pairs_`, `both_groups_`); `ticks` counts the solves and the readings
of the timer. -/
structure State where
  items : List WorkItem
  fullBins : List FullBinItem := []
  pairs : List PerfectPair := []
  groups : List (List GroupItem) := []
  ticks : Nat := 0

/-- `enum class EnlargementCase`, `reduction.hpp:187`. -/
inductive Axis where
  | wide | tall
deriving DecidableEq, Repr

/-- What the reduction is run with: the original instance, the (shrunk) bin sizes `bin_w`, `bin_h`,
the parameter `maximum_number_of_rounds`, and the answers of the solver of the companion bins, of
the timer (at a given tick) and of `std::sort`. -/
structure Env where
  inst : Instance
  w : Int
  h : Int
  maxRounds : Nat
  solve : Nat → Instance → List PackedBin
  ends : Nat → Bool
  sort : (Nat → Nat → Bool) → List Nat → List Nat

namespace State

/-- `reduction_item_types[item_type_id]`. -/
def item (st : State) (i : Nat) : WorkItem := st.items.getD i default

/-- Assign `reduction_item_types[item_type_id]`. -/
def setItem (st : State) (i : Nat) (it : WorkItem) : State := { st with items := st.items.set i it }

/-- `number_of_dedicated_bins`, `reduction.cpp:1058–1067`. -/
def dedicated (st : State) : Int :=
  (st.fullBins.foldl (fun n f => n + f.copies) 0)
    + (st.pairs.foldl (fun n p => n + p.copies) 0) + (st.groups.length : Int)

/-- One more solve or reading of the timer. -/
def tick (st : State) : State := { st with ticks := st.ticks + 1 }

end State

/-- `original_instance_->item_type(item_type_id).oriented`. -/
def Env.oriented (env : Env) (i : Nat) : Bool := (env.inst.itemType i).oriented

/-- `extract_companions`, `reduction.cpp:50–67`: taking more entries than there are is undefined
behaviour. -/
def extract (it : WorkItem) (n : Nat) : Except Err (List (List Companion) × WorkItem) :=
  if it.companions.isEmpty then .ok (List.replicate n [], it)
  else if n ≤ it.companions.length then
    .ok (it.companions.take n, { it with companions := it.companions.drop n })
  else .error .ub

/-- `has_validated_companions`, `reduction.cpp:40–48`. -/
def validated (cs : List (List Companion)) : Bool := cs.any fun l => !l.isEmpty

/-- `is_big`, `reduction.cpp:315–331`. -/
def isBig (env : Env) (a : Axis) (i : Nat) (it : WorkItem) : Bool :=
  if !env.oriented i then false
  else match a with
    | .wide => decide (2 * it.x > env.w)
    | .tall => decide (2 * it.y > env.h)

/-- `size_greater`, `reduction.cpp:333–349`. -/
def sizeGreater (a : Axis) (it1 it2 : WorkItem) : Bool :=
  match a with
  | .wide => if it1.x ≠ it2.x then decide (it1.x > it2.x) else decide (it1.y > it2.y)
  | .tall => if it1.y ≠ it2.y then decide (it1.y > it2.y) else decide (it1.x > it2.x)

/-- `could_fit`, `reduction.cpp:351–382`. -/
def couldFit (env : Env) (a : Axis) (big : WorkItem) (i : Nat) (it : WorkItem) : Bool :=
  match a with
  | .wide => decide (it.x ≤ env.w - big.x) || (!env.oriented i && decide (it.y ≤ env.w - big.x))
  | .tall => decide (it.y ≤ env.h - big.y) || (!env.oriented i && decide (it.x ≤ env.h - big.y))

/-- `could_fit_both`, `reduction.cpp:384–435`. -/
def couldFitBoth (env : Env) (bigId : Nat) (big : WorkItem) (i : Nat) (it : WorkItem) : Bool :=
  let fits := decide (it.x ≤ env.w ∧ it.y ≤ env.h)
  let fitsRotated := !env.oriented i && decide (it.y ≤ env.w ∧ it.x ≤ env.h)
  if !fits && !fitsRotated then false
  else
    (if env.oriented bigId then [false] else [false, true]).any fun r =>
      let bw := if r then big.y else big.x
      let bh := if r then big.x else big.y
      if bw > env.w ∨ bh > env.h then false
      else (fits && decide (it.x + bw ≤ env.w ∨ it.y + bh ≤ env.h))
        || (fitsRotated && decide (it.y + bw ≤ env.w ∨ it.x + bh ≤ env.h))

/-- `companion_bin_dimensions`, `reduction.cpp:437–450`. -/
def companionBin (env : Env) (a : Axis) (big : WorkItem) : Int × Int :=
  match a with
  | .wide => (env.w - big.x, big.y)
  | .tall => (big.x, env.h - big.y)

/-- `compute_offset`, `reduction.cpp:452–464`. -/
def offset (a : Axis) (big : WorkItem) (x y : Int) : Int × Int :=
  match a with
  | .wide => (big.x + x, y)
  | .tall => (x, big.y + y)

/-- `gather_sorted_big_items`, `reduction.cpp:466–493`. -/
def gather (env : Env) (a : Axis) (st : State) : List Nat :=
  env.sort (fun i j => sizeGreater a (st.item i) (st.item j))
    ((List.range st.items.length).filter fun i =>
      !(st.item i).removed && isBig env a i (st.item i))

/-- The condition of `gather_sorted_both_big_items`, `reduction.cpp:515–516`. -/
def bothBig (env : Env) (i : Nat) (it : WorkItem) : Bool :=
  decide (2 * it.x > env.w ∧ 2 * it.y > env.h)
    || (!env.oriented i && decide (2 * it.y > env.w ∧ 2 * it.x > env.h))

/-- `gather_sorted_both_big_items`, `reduction.cpp:495–529`. -/
def gatherBoth (env : Env) (st : State) : List Nat :=
  env.sort (fun i j => decide ((st.item i).x * (st.item i).y > (st.item j).x * (st.item j).y))
    ((List.range st.items.length).filter fun i =>
      !(st.item i).removed && bothBig env i (st.item i))

/-! ## The companion bins -/

/-- The calls that add a bin type with `copies` copies to a check instance,
`reduction.cpp:167–170` and `704–706`. -/
def checkBinOps (id : Nat) (w h copies : Int) : List InstanceBuilder.Op :=
  [.addBinType w h, .setBinTypeCopies id copies, .setBinTypeCopiesMin id 0]

/-- The calls that add the item type `i` of the working representation as item type `k` of a check
instance, `reduction.cpp:175–180`, `709–716` and `718–726`. -/
def checkItemOps (env : Env) (st : State) (k i : Nat) : List InstanceBuilder.Op :=
  [.addItemType (st.item i).x (st.item i).y (env.oriented i),
   .setItemTypeCopies k (st.item i).copies]

/-- The item types of a check instance, in the order of `ids`. -/
def checkItemsOps (env : Env) (st : State) (ids : List Nat) : List InstanceBuilder.Op :=
  ids.zipIdx.flatMap fun p => checkItemOps env st p.2 p.1

/-- The check instance of `try_reduce_group`, `reduction.cpp:155–183`: a companion bin type for
every checked big item, and the candidate companions. -/
def checkOps (env : Env) (a : Axis) (st : State) (checked rs : List Nat) :
    List InstanceBuilder.Op :=
  [.setObjective .feasibility, .setParameters env.inst.parameters]
    ++ (checked.zipIdx.flatMap fun p =>
        checkBinOps p.2 (companionBin env a (st.item p.1)).1 (companionBin env a (st.item p.1)).2
          (st.item p.1).copies)
    ++ checkItemsOps env st rs

/-- The check instance of `try_reduce_both_group`, `reduction.cpp:697–728`: bins of the full size,
the big items and the candidate companions. -/
def checkBothOps (env : Env) (st : State) (bigs rs : List Nat) : List InstanceBuilder.Op :=
  [.setObjective .feasibility, .setParameters env.inst.parameters]
    ++ checkBinOps 0 env.w env.h (bigs.foldl (fun n i => n + (st.item i).copies) 0)
    ++ checkItemsOps env st (bigs ++ rs)

/-- `check_solution.full()`, `solution.hpp:154`. -/
def checkFull (check : Instance) (sol : List PackedBin) : Bool :=
  decide (sol.foldl (fun n b => n + b.copies * (b.items.length : Int)) 0 = check.numberOfItems)

/-- The companions read off one bin of the check solution, `reduction.cpp:206–218`.  The ids of the
check instance are positions in `checked` and `rs` (`check_bin_type_ids` and
`check_r_item_type_ids` are `0, 1, …`); others are undefined behaviour. -/
def readCompanions (a : Axis) (big : WorkItem) (rs : List Nat) (items : List PlacedItem) :
    Except Err (List Companion) :=
  items.mapM fun p =>
    if h : p.itemTypeId < rs.length then
      .ok (.mk rs[p.itemTypeId] (offset a big p.x p.y).1 (offset a big p.x p.y).2 p.rotate [])
    else .error .ub

/-- The loop over the bins of the check solution, `reduction.cpp:194–221`. -/
def readCheck (a : Axis) (st : State) (checked rs : List Nat) (sol : List PackedBin) :
    Except Err (List (List (List Companion))) :=
  sol.foldlM
    (fun acc b =>
      if h : b.binTypeId < checked.length then do
        let cs ← readCompanions a (st.item checked[b.binTypeId]) rs b.items
        .ok (acc.modify b.binTypeId (· ++ List.replicate b.copies.toNat cs))
      else .error .ub)
    (List.replicate checked.length [])

/-! ## Applying a reduction -/

/-- The loop state of the application of a reduction, `reduction.cpp:286–288`: the working
representation, `companion_prior_companions` and `companion_next_copy_index`. -/
structure Apply where
  st : State
  prior : List (List (List Companion))
  next : List Nat

/-- Absorb one occurrence of a companion, `reduction.cpp:296–306`. -/
def absorb (ap : Apply) : Companion → Except Err (Apply × Companion)
  | .mk i dx dy r _ => do
    let ap ← (if (ap.st.item i).removed then .ok ap
      else do
        let (e, it) ← extract (ap.st.item i) (ap.st.item i).copies.toNat
        .ok { ap with
          st := ap.st.setItem i { it with copies := 0, removed := true }
          prior := ap.prior.set i e } : Except Err Apply)
    let k := ap.next.getD i 0
    match (ap.prior.getD i [])[k]? with
    | some nested => .ok ({ ap with next := ap.next.set i (k + 1) }, .mk i dx dy r nested)
    | none => .error .ub

/-- The loop over the companions of one copy, `reduction.cpp:295–307`. -/
def absorbAll : Apply → List Companion → Except Err (Apply × List Companion)
  | ap, [] => .ok (ap, [])
  | ap, c :: cs => do
    let (ap, c) ← absorb ap c
    let (ap, cs) ← absorbAll ap cs
    .ok (ap, c :: cs)

/-- The loop over the copies of a big item, `reduction.cpp:294–308`. -/
def absorbCopies : Apply → List (List Companion) → Except Err (Apply × List (List Companion))
  | ap, [] => .ok (ap, [])
  | ap, l :: ls => do
    let (ap, l) ← absorbAll ap l
    let (ap, ls) ← absorbCopies ap ls
    .ok (ap, l :: ls)

/-- `enlarge`, `reduction.cpp:253–271`: companions of an earlier axis are kept; reading beyond the
end of the new ones is undefined behaviour. -/
def enlarge (env : Env) (a : Axis) (it : WorkItem) (cs : List (List Companion)) :
    Except Err WorkItem :=
  let it := match a with
    | .wide => { it with x := env.w }
    | .tall => { it with y := env.h }
  if it.companions.isEmpty then .ok { it with companions := cs }
  else if it.companions.length ≤ cs.length then
    .ok { it with companions := List.zipWith (· ++ ·) it.companions cs }
  else .error .ub

/-- One iteration of the loop over the checked big items, `reduction.cpp:291–310`; the second
component is `any_enlarged`. -/
def applyOne (env : Env) (a : Axis) (trivial : Bool) (acc : Apply × Bool)
    (p : Nat × List (List Companion)) : Except Err (Apply × Bool) :=
  if !trivial && !validated p.2 then .ok acc
  else do
    let (ap, cs) ← absorbCopies acc.1 p.2
    let it ← enlarge env a (ap.st.item p.1) cs
    .ok ({ ap with st := ap.st.setItem p.1 it }, true)

/-- The loop over the checked big items, `reduction.cpp:286–312`. -/
def applyGroup (env : Env) (a : Axis) (trivial : Bool) (st : State) (checked : List Nat)
    (companions : List (List (List Companion))) : Except Err (Bool × State) := do
  let (ap, any) ← (checked.zip companions).foldlM (applyOne env a trivial)
    (({ st := st, prior := List.replicate st.items.length [],
        next := List.replicate st.items.length 0 } : Apply), false)
  .ok (any, ap.st)

/-- The candidate companions of `try_reduce_group`, `reduction.cpp:106–128`. -/
def candidates (env : Env) (a : Axis) (st : State) (bigs checked : List Nat) : List Nat :=
  (List.range st.items.length).filter fun i =>
    !(st.item i).removed && !(bigs.contains i)
      && checked.any fun b => couldFit env a (st.item b) i (st.item i)

/-- The checked big items, `reduction.cpp:83–88`. -/
def checkedBigs (env : Env) (a : Axis) (st : State) (bigs : List Nat) : List Nat :=
  bigs.filter fun i =>
    decide ((companionBin env a (st.item i)).1 > 0) && decide ((companionBin env a (st.item i)).2 > 0)

/-- `try_reduce_group`, `reduction.cpp:69–313`; returns whether an item type was enlarged. -/
def tryGroup (env : Env) (a : Axis) (st : State) (bigs : List Nat) :
    Except Err (Bool × State) := do
  let checked := checkedBigs env a st bigs
  let rs := candidates env a st bigs checked
  if checked.isEmpty then .ok (false, st)
  else if rs.isEmpty then
    applyGroup env a true st checked
      (checked.map fun i => List.replicate (st.item i).copies.toNat [])
  else do
    let check ← InstanceBuilder.runOps (checkOps env a st checked rs)
    let sol := env.solve st.ticks check
    let st := st.tick
    if !checkFull check sol then .ok (false, st)
    else do
      let companions ← readCheck a st checked rs sol
      applyGroup env a false st checked companions

/-- Loop A, `reduction.cpp:540–551`, for any `try_…_group`; the first component of the result tells
that the timer ended, the second is `found_any`. -/
def singletons (env : Env) (attempt : State → List Nat → Except Err (Bool × State)) :
    List Nat → Bool → State → Except Err (Bool × Bool × State)
  | [], found, st => .ok (false, found, st)
  | i :: is, found, st =>
    if (st.item i).removed then singletons env attempt is found st
    else if env.ends st.ticks then .ok (true, found, st.tick)
    else do
      let (ok, st) ← attempt st.tick [i]
      singletons env attempt is (found || ok) st

/-- The inner loop of loop B, `reduction.cpp:562–571`, over the group sizes; the first component of
the result tells that the timer ended, the second is `applied`. -/
def growing (env : Env) (attempt : State → List Nat → Except Err (Bool × State))
    (cands : List Nat) : List Nat → State → Except Err (Bool × Bool × State)
  | [], st => .ok (false, false, st)
  | n :: ns, st =>
    if env.ends st.ticks then .ok (true, false, st.tick)
    else do
      let (ok, st) ← attempt st.tick (cands.take n)
      if ok then .ok (false, true, st) else growing env attempt cands ns st

/-- Loop B, `reduction.cpp:557–574`.  The code loops until an attempt fails; here at most `fuel`
times. -/
def groupsLoop (env : Env) (gatherBigs : State → List Nat)
    (attempt : State → List Nat → Except Err (Bool × State)) :
    Nat → Bool → State → Except Err (Bool × State)
  | 0, found, st => .ok (found, st)
  | fuel + 1, found, st =>
    let cands := gatherBigs st
    if cands.length < 2 then .ok (found, st)
    else do
      let (stop, applied, st) ← growing env attempt cands
        ((List.range (cands.length + 1)).drop 2) st
      if stop then .ok (found, st)
      else if applied then groupsLoop env gatherBigs attempt fuel true st
      else .ok (found, st)

/-- `reduce_group`, `reduction.cpp:531–577`, and `reduce_both_groups`, `reduction.cpp:864–906`. -/
def passGroups (env : Env) (fuel : Nat) (gatherBigs : State → List Nat)
    (attempt : State → List Nat → Except Err (Bool × State)) (st : State) :
    Except Err (Bool × State) := do
  let (stop, found, st) ← singletons env attempt (gatherBigs st) false st
  if stop then .ok (found, st) else groupsLoop env gatherBigs attempt fuel found st

/-! ## Items that are big on both axes -/

/-- The candidate companions of `try_reduce_both_group`, `reduction.cpp:595–617`. -/
def candidatesBoth (env : Env) (st : State) (bigs : List Nat) : List Nat :=
  (List.range st.items.length).filter fun i =>
    !(st.item i).removed && !(bigs.contains i)
      && bigs.any fun b => couldFitBoth env b (st.item b) i (st.item i)

/-- The number of copies of the only bin type. -/
def Env.binCopies (env : Env) : Int := (env.inst.binType 0).copies

/-- One iteration of the loop over big items that share a bin with nothing,
`reduction.cpp:634–668`; the second component is `any_captured`. -/
def captureOne (env : Env) (acc : State × Bool) (i : Nat) : Except Err (State × Bool) :=
  let st := acc.1
  let it := st.item i
  let rotate : Option Bool :=
    if it.x ≤ env.w ∧ it.y ≤ env.h then some false
    else if !env.oriented i ∧ it.y ≤ env.w ∧ it.x ≤ env.h then some true
    else none
  match rotate with
  | none => .ok acc
  | some r =>
    if env.binCopies ≥ 0 ∧ st.dedicated + it.copies > env.binCopies then .ok acc
    else do
      let (prior, it') ← extract it it.copies.toNat
      let st := st.setItem i { it' with copies := 0, removed := true }
      .ok ({ st with groups := st.groups ++ prior.map fun cs => [⟨i, 0, 0, r, cs⟩] }, true)

/-- The items placed in one bin of the check, `reduction.cpp:777–794`; `none` for `return false`. -/
def readGroup (bigs rs : List Nat) (big : Nat) (items : List PlacedItem) :
    Option (List GroupItem) :=
  items.mapM fun p =>
    if p.itemTypeId = big then some ⟨bigs.getD big 0, p.x, p.y, p.rotate, []⟩
    else if p.itemTypeId < bigs.length then none
    else if p.itemTypeId - bigs.length < rs.length then
      some ⟨rs.getD (p.itemTypeId - bigs.length) 0, p.x, p.y, p.rotate, []⟩
    else none

/-- The loop over the bins of the check solution, `reduction.cpp:756–797`.  Item types of the check
instance are the big items, then the candidate companions. -/
def readCheckBoth (bigs rs : List Nat) (sol : List PackedBin) :
    Option (List (List (List GroupItem))) :=
  sol.foldlM
    (fun acc b =>
      match (b.items.find? fun p => decide (p.itemTypeId < bigs.length)) with
      | none => some acc
      | some p => do
        let g ← readGroup bigs rs p.itemTypeId b.items
        some (acc.modify p.itemTypeId (· ++ List.replicate b.copies.toNat g)))
    (List.replicate bigs.length [])

/-- Remove all copies of a companion and remember its own companions, `reduction.cpp:828–833`. -/
def removeAll (acc : State × List (List (List Companion))) (i : Nat) :
    Except Err (State × List (List (List Companion))) := do
  let it := acc.1.item i
  let (e, it') ← extract it it.copies.toNat
  .ok (acc.1.setItem i { it' with copies := 0, removed := true }, acc.2.set i e)

/-- Give every item of a group its own companions, `reduction.cpp:849–856`; reading beyond the end
is undefined behaviour. -/
def dressGroup (big : Nat) (bigCompanions : List Companion) (prior : List (List (List Companion))) :
    List Nat → List GroupItem → Except Err (List Nat × List GroupItem)
  | next, [] => .ok (next, [])
  | next, g :: gs => do
    let (next, g) ← (if g.itemTypeId = big then .ok (next, { g with companions := bigCompanions })
      else
        let k := next.getD g.itemTypeId 0
        match (prior.getD g.itemTypeId [])[k]? with
        | some cs => .ok (next.set g.itemTypeId (k + 1), { g with companions := cs })
        | none => .error .ub : Except Err (List Nat × GroupItem))
    let (next, gs) ← dressGroup big bigCompanions prior next gs
    .ok (next, g :: gs)

/-- The loop over the copies of one big item, `reduction.cpp:848–858`. -/
def dressGroups (big : Nat) (prior : List (List (List Companion))) :
    List Nat → List (List GroupItem × List Companion) →
      Except Err (List Nat × List (List GroupItem))
  | next, [] => .ok (next, [])
  | next, (g, cs) :: rest => do
    let (next, g) ← dressGroup big cs prior next g
    let (next, gs) ← dressGroups big prior next rest
    .ok (next, g :: gs)

/-- One iteration of the loop over the big items, `reduction.cpp:835–859`. -/
def commitOne (prior : List (List (List Companion))) (acc : State × List Nat)
    (p : Nat × List (List GroupItem)) : Except Err (State × List Nat) :=
  if p.2.isEmpty then .ok acc
  else do
    let it := acc.1.item p.1
    let (e, it') ← extract it p.2.length
    let it' := { it' with copies := it.copies - p.2.length }
    let it' := if it'.copies = 0 then { it' with removed := true } else it'
    let st := acc.1.setItem p.1 it'
    let (next, gs) ← dressGroups p.1 prior acc.2 (p.2.zip e)
    .ok ({ st with groups := st.groups ++ gs }, next)

/-- `try_reduce_both_group`, `reduction.cpp:579–862`. -/
def tryBoth (env : Env) (st : State) (bigs : List Nat) : Except Err (Bool × State) := do
  let rs := candidatesBoth env st bigs
  if rs.isEmpty then do
    let (st, any) ← bigs.foldlM (captureOne env) (st, false)
    .ok (any, st)
  else do
    let check ← InstanceBuilder.runOps (checkBothOps env st bigs rs)
    let sol := env.solve st.ticks check
    let st := st.tick
    if !checkFull check sol then .ok (false, st)
    else
      match readCheckBoth bigs rs sol with
      | none => .ok (false, st)
      | some groups =>
        let used := groups.foldl (fun (n : Int) g => n + (g.length : Int)) 0
        if used = 0 then .ok (false, st)
        else if env.binCopies ≥ 0 ∧ st.dedicated + used > env.binCopies then .ok (false, st)
        else do
          let (st, prior) ← rs.foldlM removeAll (st, List.replicate st.items.length [])
          let (st, _) ← (bigs.zip groups).foldlM (commitOne prior)
            (st, List.replicate st.items.length 0)
          .ok (true, st)

/-! ## Items that fill a bin, and pairs that do -/

/-- One iteration of `reduce_full_bin_items`, `reduction.cpp:916–960`. -/
def fullBinOne (env : Env) (acc : State × Bool) (i : Nat) : Except Err (State × Bool) :=
  let st := acc.1
  let it := st.item i
  if it.removed then .ok acc
  else
    let rotate : Option Bool :=
      if it.x = env.w ∧ it.y = env.h then some false
      else if !env.oriented i ∧ it.y = env.w ∧ it.x = env.h then some true
      else none
    match rotate with
    | none => .ok acc
    | some r =>
      if env.binCopies ≥ 0 ∧ st.dedicated + it.copies > env.binCopies then .ok acc
      else do
        let (e, it') ← extract it it.copies.toNat
        let st := st.setItem i { it' with removed := true }
        .ok ({ st with fullBins := st.fullBins ++ [⟨i, r, it.copies, e⟩] }, true)

/-- `reduce_full_bin_items`, `reduction.cpp:908–963`. -/
def fullBins (env : Env) (st : State) : Except Err (Bool × State) := do
  let (st, any) ← (List.range st.items.length).foldlM (fullBinOne env) (st, false)
  .ok (any, st)

/-- How two item types tile a bin, `reduction.cpp:1012–1019` and `1043–1045`: the offset of the
second. -/
def pairOffset (env : Env) (it1 it2 : WorkItem) : Option (Int × Int) :=
  if it1.y = env.h ∧ it2.y = env.h ∧ it1.x + it2.x = env.w then some (it1.x, 0)
  else if it1.x = env.w ∧ it2.x = env.w ∧ it1.y + it2.y = env.h then some (0, it1.y)
  else none

/-- The test of the inner loop of `reduce_perfect_pairs`, `reduction.cpp:991–1019`. -/
def pairWith (env : Env) (st : State) (i j : Nat) : Option (Int × Int) :=
  if j = i then none
  else if (st.item j).removed then none
  else if !env.oriented j then none
  else if env.binCopies ≥ 0
      ∧ st.dedicated + min (st.item i).copies (st.item j).copies > env.binCopies then none
  else pairOffset env (st.item i) (st.item j)

/-- Remove `n` copies of an item type, `reduction.cpp:1032–1041`. -/
def consume (st : State) (i : Nat) (n : Int) : Except Err (List (List Companion) × State) := do
  let it := st.item i
  let (e, it') ← extract it n.toNat
  let it' := { it' with copies := it.copies - n }
  .ok (e, st.setItem i (if it'.copies = 0 then { it' with removed := true } else it'))

/-- One iteration of `reduce_perfect_pairs`, `reduction.cpp:973–1053`; the inner loop stops at the
first partner. -/
def pairOne (env : Env) (acc : State × Bool) (i : Nat) : Except Err (State × Bool) :=
  let st := acc.1
  if (st.item i).removed then .ok acc
  else if !env.oriented i then .ok acc
  else
    match (List.range st.items.length).find? (fun j => (pairWith env st i j).isSome) with
    | none => .ok acc
    | some j =>
      match pairWith env st i j with
      | none => .ok acc
      | some (dx, dy) => do
        let n := min (st.item i).copies (st.item j).copies
        let (e1, st) ← consume st i n
        let (e2, st) ← consume st j n
        .ok ({ st with pairs := st.pairs ++ [⟨i, j, dx, dy, n, e1, e2⟩] }, true)

/-- `reduce_perfect_pairs`, `reduction.cpp:965–1056`. -/
def perfectPairs (env : Env) (st : State) : Except Err (Bool × State) := do
  let (st, any) ← (List.range st.items.length).foldlM (pairOne env) (st, false)
  .ok (any, st)

/-! ## Shrinking the bins -/

/-- The widths (heights if `width` is false) a copy of an item type may have. -/
def presented (width : Bool) (t : ItemType) : List Int :=
  let v := if width then t.x else t.y
  let r := if width then t.y else t.x
  if !t.oriented && decide (r ≠ v) then [v, r] else [v]

/-- The sums, at most `capacity`, of one value (or none) of each group. -/
def reachable (capacity : Int) (groups : List (List Int)) : List Int :=
  groups.foldl
    (fun sums vs => (sums ++ sums.flatMap fun s =>
      (vs.map (s + ·)).filter fun v => decide (v ≤ capacity)).dedup) [0]

/-- `max_achievable_dimension_sum`, `reduction.cpp:1202–1231`: one group per item copy.  The
external subset sum solver is modelled by the exact maximum. -/
def maxSum (inst : Instance) (capacity : Int) (width : Bool) : Int :=
  (reachable capacity (inst.itemTypes.flatMap fun t =>
    List.replicate t.copies.toNat (presented width t))).foldl max 0

/-- `compute_shrunk_bin_sizes`, `reduction.cpp:1235–1266`. -/
def shrunk (inst : Instance) : Int × Int :=
  if inst.numberOfBinTypes ≠ 1 then (0, 0)
  else if inst.itemTypes.any fun t => decide (t.copies < 0) then
    ((inst.binType 0).x, (inst.binType 0).y)
  else (maxSum inst (inst.binType 0).x true, maxSum inst (inst.binType 0).y false)

/-! ## The constructor -/

/-- `weight_matters`, `instance.cpp:269–282`. -/
def weightMatters (inst : Instance) : Bool :=
  decide (inst.numberOfBinTypes = 1) && decide ((inst.binType 0).maximumWeight ≠ .inf)
    && inst.itemTypes.any fun t => decide (t.weight ≠ 0)

/-- `resources_matter`, `instance.cpp:284–288`. -/
def resourcesMatter (inst : Instance) : Bool :=
  decide (inst.numberOfBinTypes = 1) && decide (0 < (inst.binType 0).resources.length)

/-- `applies`, `reduction.cpp:1268–1321`; `parameters.reduce` holds. -/
def applies (inst : Instance) : Bool :=
  (decide (inst.objective = .binPacking) || decide (inst.objective = .variableSizedBinPacking)
    || decide (inst.objective = .feasibility))
  && decide (inst.numberOfBinTypes = 1)
  && decide (inst.numberOfDefects = 0)
  && decide (inst.parameters.unloadingConstraint = .none)
  && !weightMatters inst
  && !resourcesMatter inst

/-- The working representation of the original instance, `reduction.cpp:1342–1348`. -/
def start (inst : Instance) : State :=
  { items := inst.itemTypes.map fun t => { x := t.x, y := t.y, copies := t.copies } }

/-- Number of iterations granted to loop B. -/
def fuelOf (st : State) : Nat := st.items.length + 1

/-- One round of the outer loop, `reduction.cpp:1389–1404`; the first component of the result tells
that the timer ended, the second is `found`. -/
def round (env : Env) (fuel : Nat) (st : State) : Except Err (Bool × Bool × State) := do
  let (f1, st) ← passGroups env fuel (gather env .wide) (tryGroup env .wide) st
  if env.ends st.ticks then .ok (true, f1, st.tick)
  else do
    let (f2, st) ← passGroups env fuel (gather env .tall) (tryGroup env .tall) st.tick
    if env.ends st.ticks then .ok (true, f1 || f2, st.tick)
    else do
      let (f3, st) ← passGroups env fuel (gatherBoth env) (tryBoth env) st.tick
      if env.ends st.ticks then .ok (true, f1 || f2 || f3, st.tick)
      else do
        let (f4, st) ← fullBins env st.tick
        if env.ends st.ticks then .ok (true, f1 || f2 || f3 || f4, st.tick)
        else do
          let (f5, st) ← perfectPairs env st.tick
          .ok (false, f1 || f2 || f3 || f4 || f5, st)

/-- The outer loop, `reduction.cpp:1384–1407`. -/
def rounds (env : Env) (fuel : Nat) : Nat → State → Except Err State
  | 0, st => .ok st
  | n + 1, st =>
    if env.ends st.ticks then .ok st.tick
    else do
      let (stop, found, st) ← round env fuel st.tick
      if stop then .ok st
      else if found then rounds env fuel n st
      else .ok st

/-- `remaining_items`, `reduction.cpp:1078–1084`. -/
def remainingItems (inst : Instance) (st : State) : Int :=
  (List.range st.items.length).foldl
    (fun n i => if (st.item i).removed then n else n + (inst.itemType i).copies) 0

/-- `proven_infeasible_`, `reduction.cpp:1100–1127` (there is one bin type). -/
def infeasible (inst : Instance) (st : State) : Bool :=
  decide (st.dedicated > 0) && decide ((inst.binType 0).copies ≥ 0)
    && !decide ((inst.binType 0).copies - st.dedicated > 0)
    && !decide (remainingItems inst st = 0)

/-- The calls that add the bin type to the reduced instance, `reduction.cpp:1086–1134` (there is
one bin type). -/
def reducedBinOps (inst : Instance) (st : State) : List InstanceBuilder.Op :=
  [.addBinTypeFrom inst 0]
    ++ (if st.dedicated > 0 then
        (if (inst.binType 0).copies ≥ 0 ∧ (inst.binType 0).copies - st.dedicated > 0 then
          [.setBinTypeCopies 0 ((inst.binType 0).copies - st.dedicated)] else [])
        ++ (if (inst.binType 0).copiesMin > 0 then
          [.setBinTypeCopiesMin 0 (max 0 ((inst.binType 0).copiesMin - st.dedicated))] else [])
      else [])

/-- The calls that add item type `i` as item type `k` of the reduced instance,
`reduction.cpp:1149–1184`.  The loop over the resources makes no call: when the reduction applies
the bin type has none. -/
def reducedItemOps (inst : Instance) (st : State) (k i : Nat) : List InstanceBuilder.Op :=
  [.addItemType (st.item i).x (st.item i).y (inst.itemType i).oriented,
   .setItemTypeProfit k (inst.itemType i).profit,
   .setItemTypeCopies k (st.item i).copies,
   .setItemTypeGroup k (inst.itemType i).groupId,
   .setItemTypeWeight k (inst.itemType i).weight,
   .setItemTypeEligibility k (inst.itemType i).eligibilityId]

/-- `reduced_to_original_item_type_ids_`, `reduction.cpp:1142–1148` and `1185`. -/
def survivors (st : State) : List Nat :=
  (List.range st.items.length).filter fun i => !(st.item i).removed

/-- `reduction_to_instance`, `reduction.cpp:1069–1189`. -/
def reducedOps (inst : Instance) (st : State) : List InstanceBuilder.Op :=
  [.setObjective inst.objective, .setParameters inst.parameters, .setCallback inst.callback]
    ++ reducedBinOps inst st
    ++ (survivors st).zipIdx.flatMap fun p => reducedItemOps inst st p.2 p.1

/-- `class Reduction`, `reduction.hpp`, after its construction. -/
structure Result where
  original : Instance
  /-- `instance()`. -/
  reduced : Instance
  /-- `final_item_types_` and the reservations. -/
  st : State
  /-- `reduced_to_original_item_type_ids_`. -/
  ids : List Nat
  /-- `proven_infeasible()`. -/
  provenInfeasible : Bool

/-- What surrounds the reduction: the parameters and the answers of what is not modelled. -/
structure Around where
  maxRounds : Nat
  solve : Nat → Instance → List PackedBin
  ends : Nat → Bool
  sort : (Nat → Nat → Bool) → List Nat → List Nat

/-- The environment in which an instance is reduced, `reduction.cpp:1376–1378`. -/
def envOf (ar : Around) (inst : Instance) : Env :=
  { inst := inst, w := (shrunk inst).1, h := (shrunk inst).2, maxRounds := ar.maxRounds,
    solve := ar.solve, ends := ar.ends, sort := ar.sort }

/-- The constructor, `reduction.cpp:1323–1410`, for an instance to which the reduction applies. -/
def reduce (ar : Around) (inst : Instance) : Except Err Result := do
  let st ← rounds (envOf ar inst) (fuelOf (start inst)) ar.maxRounds (start inst)
  let red ← InstanceBuilder.runOps (reducedOps inst st)
  .ok { original := inst, reduced := red, st := st, ids := survivors st,
        provenInfeasible := infeasible inst st }

/-- `number_of_dedicated_bins()`. -/
def Result.dedicated (r : Result) : Int := r.st.dedicated

/-- The translation of a bound on the number of bins, `optimize.cpp:671–674`. -/
def Result.bound (r : Result) (b : Int) : Int := if r.dedicated > 0 then b + r.dedicated else b

/-- The translation of a bound on the cost of the bins, `optimize.cpp:671–677`. -/
def Result.costBound (r : Result) (b : ℚ) : ℚ :=
  if r.dedicated > 0 then b + r.dedicated * (r.original.binType 0).cost else b

/-! ## Unreducing a solution -/

mutual
/-- The body of the loop over the companions, `reduction.cpp:1421–1432`. -/
def placeOne : Companion → Int → Int → List PlacedItem
  | .mk i dx dy r nested, x, y => ⟨i, x + dx, y + dy, r⟩ :: placeAll nested (x + dx) (y + dy)
termination_by structural c => c

/-- The loop over the companions, `reduction.cpp:1421–1432`. -/
def placeAll : List Companion → Int → Int → List PlacedItem
  | [], _, _ => []
  | c :: cs, x, y => placeOne c x y ++ placeAll cs x y
termination_by structural cs => cs
end

/-- `place_item_and_companions`, `reduction.cpp:1412–1433`. -/
def place (i : Nat) (x y : Int) (rotate : Bool) (cs : List Companion) : List PlacedItem :=
  ⟨i, x, y, rotate⟩ :: placeAll cs x y

/-- The items of one bin of the reduced solution, `reduction.cpp:1452–1471`; the state is
`next_copy_index`. -/
def unreduceItems (r : Result) : List Nat → List PlacedItem → Except Err (List Nat × List PlacedItem)
  | next, [] => .ok (next, [])
  | next, p :: ps =>
    match r.ids[p.itemTypeId]? with
    | none => .error .ub
    | some i => do
      let (next, cs) ← (if (r.st.item i).companions.isEmpty then .ok (next, [])
        else
          let k := next.getD p.itemTypeId 0
          match (r.st.item i).companions[k]? with
          | some cs => .ok (next.set p.itemTypeId (k + 1), cs)
          | none => .error .ub : Except Err (List Nat × List Companion))
      let (next, rest) ← unreduceItems r next ps
      .ok (next, place i p.x p.y p.rotate cs ++ rest)

/-- The bins of the reduced solution, copy by copy, `reduction.cpp:1444–1473`. -/
def unreduceBins (r : Result) :
    List Nat → List (Nat × List PlacedItem) → Except Err (List (Nat × List PlacedItem))
  | _, [] => .ok []
  | next, (t, items) :: bs => do
    let (next, items) ← unreduceItems r next items
    let bs ← unreduceBins r next bs
    .ok ((t, items) :: bs)

/-- The bins of a solution, one entry per copy. -/
def expandCopies (sol : List PackedBin) : List (Nat × List PlacedItem) :=
  sol.flatMap fun b => List.replicate b.copies.toNat (b.binTypeId, b.items)

/-- `companions_by_copy[copy]`, undefined behaviour out of range. -/
def companionsOf (cs : List (List Companion)) (k : Nat) : Except Err (List Companion) :=
  match cs[k]? with
  | some l => .ok l
  | none => .error .ub

/-- The dedicated bins of one item type, `reduction.cpp:1482–1493`. -/
def fullBinContents (f : FullBinItem) : Except Err (List (List PlacedItem)) :=
  (List.range f.copies.toNat).mapM fun k => do
    let cs ← companionsOf f.companions k
    .ok (place f.itemTypeId 0 0 f.rotate cs)

/-- The dedicated bins of a pair, `reduction.cpp:1494–1512`. -/
def pairContents (p : PerfectPair) : Except Err (List (List PlacedItem)) :=
  (List.range p.copies.toNat).mapM fun k => do
    let c1 ← companionsOf p.companions1 k
    let c2 ← companionsOf p.companions2 k
    .ok (place p.itemTypeId1 0 0 false c1 ++ place p.itemTypeId2 p.offsetX p.offsetY false c2)

/-- The dedicated bin of a group, `reduction.cpp:1520–1531`. -/
def groupContents (g : List GroupItem) : List PlacedItem :=
  g.flatMap fun p => place p.itemTypeId p.x p.y p.rotate p.companions

/-- The bins that `unreduce_solution` adds, in order, `reduction.cpp:1435–1534`: their types and
the items placed in them. -/
def unreducedBins (r : Result) (sol : List PackedBin) : Except Err (List (Nat × List PlacedItem)) := do
  let a ← unreduceBins r (List.replicate r.reduced.numberOfItemTypes 0) (expandCopies sol)
  let b ← r.st.fullBins.mapM fullBinContents
  let c ← r.st.pairs.mapM pairContents
  .ok (a ++ (b.flatten ++ c.flatten ++ r.st.groups.map groupContents).map fun l => (0, l))

/-- The calls on the `SolutionBuilder` that add a bin (at position `k`) and its items. -/
def binCalls (k : Nat) (b : Nat × List PlacedItem) : List BuilderOp :=
  .addBin b.1 1 :: b.2.map fun p => .addItem k p.itemTypeId p.x p.y p.rotate

/-- `unreduce_solution`, `reduction.cpp:1435–1534`; the argument lists the bins of the solution of
the reduced instance. -/
def unreduce (r : Result) (sol : List PackedBin) : Except Err Solution := do
  let bins ← unreducedBins r sol
  SolutionBuilder.runOps r.original (bins.zipIdx.flatMap fun p => binCalls p.2 p.1)

end PackingSolver.Rect.Reduction
