import Verif.Spec.BoxTree
import Verif.Lemmas.Except
import Verif.Lemmas.Box.Run

/-! Helpers for concrete runs of the box branching scheme. -/

namespace PackingSolver.Box.TreeSearch

open Box.Spec
open PackingSolver.OneDim.Examples (okD)

/-- The node reached by a sequence of choices among the insertions offered. -/
def follow (s : Scheme) : Node → List Nat → Except Err Node
  | n, [] => .ok n
  | n, c :: cs => do
    let l ← insertions s n
    match l[c]? with
    | none => .error .ub
    | some i => do
      let n' ← child s n i
      follow s n' cs

theorem follow_reached {s : Scheme} (cs : List Nat) : ∀ {n n' : Node}, Reached s n →
    follow s n cs = .ok n' → Reached s n' := by
  induction cs with
  | nil => intro n n' h e; cases e; exact h
  | cons c cs ih =>
    intro n n' h e
    unfold follow at e
    obtain ⟨l, h1, h2⟩ := bind_ok.mp e
    split at h2
    · cases h2
    · next i hi =>
      obtain ⟨m, h3, h4⟩ := bind_ok.mp h2
      exact ih (.child h h1 (List.mem_of_getElem? hi) h3) h4

/-- A scheme without types. -/
def noScheme : Scheme := ⟨noInst, noInst, noInst, {}, [], [], []⟩

/-- The instance a history builds; the objective a builder starts with is `default` here. -/
def instOf (ops : List InstanceBuilder.Op) : Instance := okD noInst (InstanceBuilder.runOps .default ops)

/-- The scheme for the instance a history builds. -/
def schemeOf (ops : List InstanceBuilder.Op) (p : Parameters) : Scheme :=
  okD noScheme (Scheme.new .default (instOf ops) p)

/-- The node reached from the root by a sequence of choices. -/
def nodeOf (s : Scheme) (cs : List Nat) : Node := okD {} (follow s s.rootNode cs)

/-- The solution a node is exported to. -/
def solOf (s : Scheme) (n : Node) : Solution := okD {} (toSolution s n)

/-- The history builds an instance, the scheme is constructed and the choices exist. -/
def runs (ops : List InstanceBuilder.Op) (p : Parameters) (cs : List Nat) : Bool :=
  isOk (InstanceBuilder.runOps .default ops) && isOk (Scheme.new .default (instOf ops) p)
    && isOk (follow (schemeOf ops p) (schemeOf ops p).rootNode cs)
    && isOk (toSolution (schemeOf ops p) (nodeOf (schemeOf ops p) cs))

theorem runs_ok {ops : List InstanceBuilder.Op} {p : Parameters} {cs : List Nat}
    (h : runs ops p cs = true) :
    InstanceBuilder.runOps .default ops = .ok (instOf ops)
    ∧ Scheme.new .default (instOf ops) p = .ok (schemeOf ops p)
    ∧ Reached (schemeOf ops p) (nodeOf (schemeOf ops p) cs)
    ∧ toSolution (schemeOf ops p) (nodeOf (schemeOf ops p) cs)
      = .ok (solOf (schemeOf ops p) (nodeOf (schemeOf ops p) cs)) := by
  unfold runs at h
  simp only [Bool.and_eq_true] at h
  exact ⟨eq_ok_okD h.1.1.1, eq_ok_okD h.1.1.2, follow_reached cs .root (eq_ok_okD h.1.2),
    eq_ok_okD h.2⟩

end PackingSolver.Box.TreeSearch
