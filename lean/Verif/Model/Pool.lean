import Verif.Model.Basic

/-!
# Solution pool

Models `SolutionPool`, `include/packingsolver/algorithms/common.hpp:359–456`, for any
type of solutions.
-/

namespace PackingSolver

/-- What the pool, the output and the formatter use of a solution: `operator<`,
`item_copies(…)` for every item type, `profit()`, `cost()`, `number_of_bins()`,
`full()`, `feasible()`, and the empty solution `Solution(instance)`. -/
structure SolutionOps (σ : Type) where
  lt : σ → σ → Bool
  itemCopies : σ → List Int
  profit : σ → ℚ
  cost : σ → ℚ
  numberOfBins : σ → Int
  full : σ → Bool
  feasible : σ → Bool
  empty : σ

/-- First difference of two vectors of item copies, `common.hpp:381–387`. -/
def keyLt : List Int → List Int → Bool
  | a :: as, b :: bs => if a ≠ b then decide (a < b) else keyLt as bs
  | _, _ => false

/-- `EntryComparator::operator()`, `common.hpp:372–389`. -/
def poolComp {σ : Type} (o : SolutionOps σ) (e1 e2 : σ) : Bool :=
  if o.lt e1 e2 then false
  else if o.lt e2 e1 then true
  else keyLt (o.itemCopies e1) (o.itemCopies e2)

/-- `std::set::insert`: the position of the new element is before the first
element it precedes; it is rejected when its predecessor does not precede it.
`done` is the part of the set already passed, in order.  The result is the new set
and whether the element is first; `none` if it is rejected.
(Simplification: `std::set` finds the position by descending a balanced tree.  The
linear scan gives the same result when the comparator is a strict weak order,
and, whatever the comparator, when the set has one element.) -/
def setInsert {σ : Type} (o : SolutionOps σ) (s : σ) : List σ → List σ → Option (List σ × Bool)
  | done, [] =>
    match done.getLast? with
    | none => some ([s], true)
    | some j => if poolComp o j s then some (done ++ [s], false) else none
  | done, x :: rest =>
    if poolComp o s x then
      match done.getLast? with
      | none => some (s :: x :: rest, true)
      | some j => if poolComp o j s then some (done ++ s :: x :: rest, false) else none
    else setInsert o s (done ++ [x]) rest

/-- `SolutionPool`, `common.hpp:451–454` (labels left aside). -/
structure Pool (σ : Type) where
  sizeMax : Nat
  solutions : List σ
  best : σ
  worst : σ

/-- `SolutionPool::SolutionPool`, `common.hpp:391–397`. -/
def Pool.new {σ : Type} (o : SolutionOps σ) (sizeMax : Nat) : Pool σ :=
  ⟨sizeMax, [o.empty], o.empty, o.empty⟩

/-- Erase the last solution of a pool that is too large, `common.hpp:439–440`. -/
def trimPool {σ : Type} (sizeMax : Nat) (l : List σ) : List σ :=
  if l.length > sizeMax then l.dropLast else l

/-- `SolutionPool::add`, `common.hpp:414–447`: the returned code and the new pool.
(With `size_max = 0` the set becomes empty and `*solutions_.begin()` is undefined
behaviour; the model then keeps `best` and `worst`.) -/
def Pool.add {σ : Type} (o : SolutionOps σ) (p : Pool σ) (s : σ) : Int × Pool σ :=
  if p.solutions.length ≥ p.sizeMax ∧ o.lt p.worst s = false then (-1, p)
  else match setInsert o s [] p.solutions with
    | none => (-1, p)
    | some (l, newBest) =>
      let l := trimPool p.sizeMax l
      (if newBest then 1 else 0,
        { p with solutions := l, best := l.headD p.best, worst := l.getLastD p.worst })

/-- A sequence of `add` calls. -/
def Pool.addAll {σ : Type} (o : SolutionOps σ) (p : Pool σ) (l : List σ) : Pool σ :=
  l.foldl (fun p s => (p.add o s).2) p

end PackingSolver
