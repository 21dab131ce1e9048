import Verif.Model.Algorithms.Threads
import Verif.Spec.Output

/-!
# What a user expects of running several algorithms at once
-/

namespace PackingSolver.Threads.Spec

variable {σ : Type}

/-- What an algorithm does when it runs alone and the answer to "must I end?" is always `e`:
the outputs it reports, and the exception it throws, if any. -/
def alone (e : Bool) : Alg σ → List (Output σ) × Option Nat
  | .done => ([], none)
  | .throw x => ([], some x)
  | .checkEnd k => alone e (k e)
  | .report out k => (out :: (alone e k).1, (alone e k).2)

/-- The best of a list of reports, kept in an output that starts empty. -/
def collect (P : OutputParams σ) (l : List (Output σ)) : Output σ :=
  l.foldl (fun acc out => Output.updateBounds P { acc with
    pool := (acc.pool.add P.ops out.pool.best).2 } out) (.new P)

/-- The result the deterministic mode is expected to have: each algorithm runs alone; if one
throws, the exception of the last of them is thrown; otherwise the collected outputs are handed
to the formatter in the order of the algorithms. -/
def deterministicResult (P : OutputParams σ) (cb : Output σ → Option Nat) (f : Formatter σ)
    (algs : List (Alg σ)) : Except Nat (Formatter σ) :=
  match algs.reverse.findSome? fun a => (alone f.end_ a).2 with
  | some e => .error e
  | none => runUpdates P cb f
      (algs.flatMap fun a => reportUpdates P (collect P (alone f.end_ a).1))

/-- `Run a l x`: with some answers to "must I end?", algorithm `a` reports exactly the outputs
`l`, in this order, and then throws `x`, or returns if `x` is `none`. -/
inductive Run : Alg σ → List (Output σ) → Option Nat → Prop
  | done : Run .done [] none
  | throw (e : Nat) : Run (.throw e) [] (some e)
  | checkEnd {k : Bool → Alg σ} {l : List (Output σ)} {x : Option Nat} (b : Bool) :
      Run (k b) l x → Run (.checkEnd k) l x
  | report (out : Output σ) {k : Alg σ} {l : List (Output σ)} {x : Option Nat} :
      Run k l x → Run (.report out k) (out :: l) x

/-- The exception the caller sees when the algorithms ended as `r` says. -/
def lastException (r : List (List (Output σ) × Option Nat)) : Option Nat :=
  r.reverse.findSome? fun p => p.2

/-- `us` is an interleaving of the lists `ls`: the entries that belong to number `i` are the
`i`-th list, in order. -/
def Interleaves {β : Type} (ls : List (List β)) (us : List (Nat × β)) : Prop :=
  (∀ p ∈ us, p.1 < ls.length) ∧
  ∀ i l, ls[i]? = some l → (us.filter fun p => p.1 = i).map (fun p => p.2) = l

/-- The output `g` takes the report `out` into account: infeasibility is kept, the bound of the
objective is at least as tight, and the best solution is not worse. -/
structure Covers (P : OutputParams σ) (out g : Output σ) : Prop where
  infeasible : out.isProvenInfeasible = true → g.isProvenInfeasible = true
  knapsack : P.objective = .knapsack → PackingSolver.Spec.extLe g.knapsackBound out.knapsackBound
  binPacking : P.objective = .binPacking → out.binPackingBound ≤ g.binPackingBound
  variableSized : P.objective = .variableSizedBinPacking →
    out.variableSizedBinPackingBound ≤ g.variableSizedBinPackingBound
  solution : P.ops.lt g.pool.best out.pool.best = false

end PackingSolver.Threads.Spec
