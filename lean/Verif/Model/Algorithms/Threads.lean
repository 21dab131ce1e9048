import Verif.Model.Output
import Mathlib.Logic.Function.Basic

/-!
# Running several algorithms at once

Models `run` (`src/algorithms/thread_pool.hpp:61–82`, `:176–198`), `wrapper`
(`thread_pool.hpp:32–49`), the tasks of `optimize` and what happens to their exceptions and
outputs (`src/onedimensional/optimize.cpp:778–917`), and the mutex of the algorithm formatter
(`src/onedimensional/algorithm_formatter.cpp:196–301`).  An algorithm is known only by what
it does that others can see: it reports outputs, it asks whether to end, it returns or throws.
An execution is any sequence of steps of the tasks: this covers the parallel mode, in which the
order is arbitrary, and the sequential mode, in which the tasks run one after the other.
(`tree_search`, `src/onedimensional/tree_search.cpp:592–676`, runs its branching schemes in the
same way.)
-/

namespace PackingSolver.Threads

variable {σ : Type}

/-- The visible behaviour of an algorithm. -/
inductive Alg (σ : Type) where
  /-- Return. -/
  | done
  /-- Throw an exception. -/
  | throw (e : Nat)
  /-- `timer.needs_to_end()`, which reads `end_boolean()`. -/
  | checkEnd (k : Bool → Alg σ)
  /-- Call `new_solution_callback` with an output. -/
  | report (out : Output σ) (k : Alg σ)

/-- The steps of a task. -/
inductive Prog (σ : Type) where
  | done
  | throw (e : Nat)
  | checkEnd (k : Bool → Prog σ)
  /-- Record an output in the task's `local_output`. -/
  | localReport (out : Output σ) (k : Prog σ)
  /-- A member function of the formatter that takes the mutex. -/
  | shared (u : Update σ) (k : Prog σ)

/-- The locked updates of `AlgorithmFormatter::update_bounds`,
`algorithm_formatter.cpp:282–301`. -/
def boundUpdates (P : OutputParams σ) (out : Output σ) : List (Update σ) :=
  (if out.isProvenInfeasible then [.infeasible] else []) ++
  match P.objective with
  | .knapsack => [.knapsack out.knapsackBound]
  | .binPacking => [.binPacking out.binPackingBound]
  | .variableSizedBinPacking => [.variableSized out.variableSizedBinPackingBound]
  | _ => []

/-- `update_solution` and `update_bounds` for an output, `optimize.cpp:305–306`. -/
def reportUpdates (P : OutputParams σ) (out : Output σ) : List (Update σ) :=
  .solution out.pool.best :: boundUpdates P out

/-- A sequence of locked updates. -/
def sharedSeq (us : List (Update σ)) (k : Prog σ) : Prog σ := us.foldr .shared k

/-- The task of an algorithm: the callbacks such as `optimize.cpp:298–308` record reports in
the task's own output in deterministic mode, and pass them on otherwise.  (The callbacks of
sequential value correction and dichotomic search pass on no bounds, `optimize.cpp:404–416`;
the bounds of their outputs keep their initial values, for which `update_bounds` does
nothing.) -/
def task (P : OutputParams σ) (deterministic : Bool) : Alg σ → Prog σ
  | .done => .done
  | .throw e => .throw e
  | .checkEnd k => .checkEnd fun b => task P deterministic (k b)
  | .report out k =>
    if deterministic then .localReport out (task P deterministic k)
    else sharedSeq (reportUpdates P out) (task P deterministic k)

/-- Whether the update calls `new_solution_callback`, `algorithm_formatter.cpp:203`, `218`,
`232`, `248`, `270`. -/
def callsBack (P : OutputParams σ) (f : Formatter σ) : Update σ → Bool
  | .solution s => decide ((f.output.pool.add P.ops s).1 = 1)
  | .infeasible => !f.output.isProvenInfeasible
  | .knapsack b => b.ltB f.output.knapsackBound
  | .binPacking b => decide (b > f.output.binPackingBound)
  | .variableSized b => decide (b > f.output.variableSizedBinPackingBound)
  | .bounds _ => false

/-- An update with the user's callback, which may throw: then the output is already changed,
`end_` is not, and `mutex_.unlock()` is not reached. -/
def callbackStep (P : OutputParams σ) (cb : Output σ → Option Nat) (f : Formatter σ)
    (u : Update σ) : Formatter σ × Option Nat :=
  if callsBack P f u then
    match cb (f.step P u).output with
    | none => (f.step P u, none)
    | some e => (⟨(f.step P u).output, f.end_⟩, some e)
  else (f.step P u, none)

/-- Everything the tasks share. -/
structure State (σ : Type) where
  shared : Formatter σ
  /-- Whether `mutex_` is locked between two steps. -/
  locked : Bool
  /-- `local_outputs`. -/
  locals : Nat → Output σ
  /-- What each task has still to do. -/
  progs : Nat → Prog σ
  /-- The `exception_ptr` of each task. -/
  exc : Nat → Option Nat
  /-- History: the exceptions thrown inside tasks. -/
  thrown : List (Nat × Nat)
  /-- History: the locked updates. -/
  updates : List (Nat × Update σ)

/-- A step of a task, or a signal from outside that sets `end_boolean`: the memory monitor
(`thread_pool.hpp:149–162`), a time limit or an end boolean of the caller. -/
inductive Event where
  | thread (i : Nat)
  | stop
deriving DecidableEq, Repr

/-- `local_output->solution_pool.add(…)` and `local_output->update_bounds(…)`,
`optimize.cpp:302–303`. -/
def recordLocal (P : OutputParams σ) (l out : Output σ) : Output σ :=
  Output.updateBounds P { l with pool := (l.pool.add P.ops out.pool.best).2 } out

/-- One step.  A locked update is one step because nobody else can take the mutex; a task that
needs the mutex while it is locked waits. -/
def step (P : OutputParams σ) (cb : Output σ → Option Nat) (st : State σ) : Event → State σ
  | .stop => { st with shared := { st.shared with end_ := true } }
  | .thread i =>
    match st.progs i with
    | .done => st
    -- `catch (...) { exception_ptr = std::current_exception(); }`
    | .throw e =>
      { st with
        progs := Function.update st.progs i .done
        exc := Function.update st.exc i (some e)
        thrown := st.thrown ++ [(i, e)] }
    | .checkEnd k => { st with progs := Function.update st.progs i (k st.shared.end_) }
    | .localReport out k =>
      { st with
        locals := Function.update st.locals i (recordLocal P (st.locals i) out)
        progs := Function.update st.progs i k }
    | .shared u k =>
      if st.locked then st
      else match callbackStep P cb st.shared u with
      | (f, none) =>
        { st with
          shared := f
          progs := Function.update st.progs i k
          updates := st.updates ++ [(i, u)] }
      | (f, some e) =>
        { st with
          shared := f
          locked := true
          progs := Function.update st.progs i (.throw e)
          updates := st.updates ++ [(i, u)] }

/-- A sequence of steps. -/
def exec (P : OutputParams σ) (cb : Output σ → Option Nat) (st : State σ) (l : List Event) :
    State σ :=
  l.foldl (step P cb) st

/-- The state when the tasks start, `optimize.cpp:786–898`. -/
def init (P : OutputParams σ) (deterministic : Bool) (f : Formatter σ) (algs : List (Alg σ)) :
    State σ where
  shared := f
  locked := false
  locals := fun _ => .new P
  progs := fun i => match algs[i]? with
    | none => .done
    | some a => task P deterministic a
  exc := fun _ => none
  thrown := []
  updates := []

/-- Every task has returned: `run` returns, `thread_pool.hpp:80–81`. -/
def allDone (st : State σ) : Prop := ∀ i, st.progs i = .done

/-- Updates outside of the tasks; an exception of the callback leaves `optimize`. -/
def runUpdates (P : OutputParams σ) (cb : Output σ → Option Nat) :
    Formatter σ → List (Update σ) → Except Nat (Formatter σ)
  | f, [] => .ok f
  | f, u :: us =>
    match callbackStep P cb f u with
    | (f', none) => runUpdates P cb f' us
    | (_, some e) => .error e

/-- The end of `optimize` after `run`, `optimize.cpp:900–917`: rethrow the first exception of
`exception_ptr_list` (the last one registered comes first), and in deterministic mode replay
the local outputs in the order of registration.  The memory monitor, if any, is joined before
(`thread_pool.hpp:194–197`). -/
def finish (P : OutputParams σ) (cb : Output σ → Option Nat) (deterministic : Bool) (n : Nat)
    (st : State σ) : Except Nat (Formatter σ) :=
  match (List.range n).reverse.findSome? st.exc with
  | some e => .error e
  | none =>
    if deterministic then
      runUpdates P cb st.shared ((List.range n).flatMap fun i => reportUpdates P (st.locals i))
    else .ok st.shared

end PackingSolver.Threads
