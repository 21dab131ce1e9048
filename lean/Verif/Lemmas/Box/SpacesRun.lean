import Verif.Lemmas.Box.SpacesExport
import Verif.Lemmas.Box.TreeRun

/-! Helpers for concrete runs of the search over maximal spaces of boxes. -/

namespace PackingSolver.Box.MaximalSpaces

open Box.Spec
open Box.MaximalSpaces.Spec (Reached Descends IgnoresValue itemsOf)
open PackingSolver.OneDim.Examples (okD)
open TreeSearch (instOf)

/-- The node reached by a sequence of choices among the insertions offered. -/
def follow (s : Scheme) (guide : Node → Nat → ℚ) : Node → List Nat → Except Err Node
  | n, [] => .ok n
  | n, c :: cs =>
    match (insertions s n)[c]? with
    | none => .error .ub
    | some i => do
      let n' ← child s guide n i
      follow s guide n' cs

theorem follow_reached {s : Scheme} {guide : Node → Nat → ℚ} (cs : List Nat) : ∀ {n n' : Node},
    Reached s n → follow s guide n cs = .ok n' → Reached s n' := by
  induction cs with
  | nil => intro n n' h e; cases e; exact h
  | cons c cs ih =>
    intro n n' h e
    unfold follow at e
    split at e
    · cases e
    · next i hi =>
      obtain ⟨m, h3, h4⟩ := bind_ok.mp e
      exact ih (.child h (List.mem_of_getElem? hi) h3) h4

theorem follow_descends {s : Scheme} {guide : Node → Nat → ℚ} {r : Node} (cs : List Nat) :
    ∀ {n n' : Node}, Descends s r n → follow s guide n cs = .ok n' → Descends s r n' := by
  induction cs with
  | nil => intro n n' h e; cases e; exact h
  | cons c cs ih =>
    intro n n' h e
    unfold follow at e
    split at e
    · cases e
    · next i hi =>
      obtain ⟨m, h3, h4⟩ := bind_ok.mp e
      exact ih (.child h (List.mem_of_getElem? hi) h3) h4

/-- A scheme without blocks. -/
def noScheme : Scheme := ⟨noInst, 0, [], ⟨0, 0, 0⟩⟩

/-- The scheme for the instance a history builds. -/
def schemeOf (ops : List InstanceBuilder.Op) (M : Nat) : Scheme :=
  okD noScheme (makeScheme (instOf ops) M)

/-- The fitness that prefers the greatest profit. -/
def byProfit (s : Scheme) : Node → Nat → ℚ := fun _ b => (s.block b).itemProfit

/-- The node reached from the root by a sequence of choices. -/
def nodeOf (s : Scheme) (cs : List Nat) : Node := okD {} (follow s (byProfit s) (root s) cs)

/-- The solution a node is exported to. -/
def solOf (s : Scheme) (n : Node) : Solution := okD {} (toSolution s (byProfit s) n)

/-- The history builds an instance, the scheme is constructed and the choices exist. -/
def runs (ops : List InstanceBuilder.Op) (M : Nat) (cs : List Nat) : Bool :=
  isOk (InstanceBuilder.runOps .default ops) && isOk (makeScheme (instOf ops) M)
    && isOk (follow (schemeOf ops M) (byProfit (schemeOf ops M)) (root (schemeOf ops M)) cs)
    && isOk (toSolution (schemeOf ops M) (byProfit (schemeOf ops M)) (nodeOf (schemeOf ops M) cs))

theorem runs_ok {ops : List InstanceBuilder.Op} {M : Nat} {cs : List Nat}
    (h : runs ops M cs = true) :
    InstanceBuilder.runOps .default ops = .ok (instOf ops)
    ∧ makeScheme (instOf ops) M = .ok (schemeOf ops M)
    ∧ Reached (schemeOf ops M) (nodeOf (schemeOf ops M) cs)
    ∧ toSolution (schemeOf ops M) (byProfit (schemeOf ops M)) (nodeOf (schemeOf ops M) cs)
      = .ok (solOf (schemeOf ops M) (nodeOf (schemeOf ops M) cs)) := by
  unfold runs at h
  simp only [Bool.and_eq_true] at h
  obtain ⟨⟨⟨h1, h2⟩, h3⟩, h4⟩ := h
  exact ⟨eq_ok_okD h1, eq_ok_okD h2, follow_reached cs .root (eq_ok_okD (d := {}) h3), eq_ok_okD h4⟩

/-! ## All nodes below a node -/

/-- A node without its value. -/
def strip (n : Node) : Node := { n with greedyValue := 0 }

/-- A list of nodes closed under insertions. -/
def closed (s : Scheme) (l : List Node) : Bool :=
  l.all fun n => (insertions s n).all fun i => decide (applyInsertion s n i ∈ l)

theorem closed_step {s : Scheme} {l : List Node} (hl : closed s l = true) {n : Node}
    (hn : strip n ∈ l) {i : Insertion} (hi : i ∈ insertions s n) :
    strip (applyInsertion s n i) ∈ l := by
  unfold closed at hl
  have h1 := List.all_eq_true.mp hl _ hn
  have h2 := List.all_eq_true.mp h1 i hi
  rw [decide_eq_true_eq] at h2
  unfold strip at h2
  rw [apply_value] at h2
  exact h2

theorem closed_child {s : Scheme} {l : List Node} (hl : closed s l = true)
    {guide : Node → Nat → ℚ} {n n' : Node} (hn : strip n ∈ l) {i : Insertion}
    (hi : i ∈ insertions s n) (hc : child s guide n i = .ok n') : strip n' ∈ l := by
  have h := closed_step hl hn hi
  unfold child at hc
  dsimp only at hc
  split at hc
  · cases hc
  · cases hc; exact h

theorem closed_descends {s : Scheme} {l : List Node} (hl : closed s l = true) {n m : Node}
    (hn : strip n ∈ l) (h : Descends s n m) : strip m ∈ l := by
  induction h with
  | self => exact hn
  | child _ hi hc ih => exact closed_child hl ih hi hc

theorem closed_reached {s : Scheme} {l : List Node} (hl : closed s l = true)
    (hn : strip (root s) ∈ l) {m : Node} (h : Reached s m) : strip m ∈ l := by
  induction h with
  | root => exact hn
  | child _ hi hc ih => exact closed_child hl ih hi hc

theorem closed_greedy {s : Scheme} {l : List Node} (hl : closed s l = true)
    {guide : Node → Nat → ℚ} : ∀ (k : Nat) {n g : Node}, strip n ∈ l →
    greedyLoop s guide k n = some g → strip g ∈ l
  | 0, _, _, _, h => by cases h
  | k + 1, n, g, hn, h => by
    unfold greedyLoop at h
    cases hb : bestInsertion s guide n with
    | none => rw [hb] at h; cases h; exact hn
    | some i =>
      rw [hb] at h
      exact closed_greedy hl k (closed_step hl hn (bestInsertion_mem hb)) h

/-- What a node below exports has been seen. -/
theorem closed_export {s : Scheme} (hc : Ctx s) {l : List Node} (hl : closed s l = true)
    {guide : Node → Nat → ℚ} {n : Node} {sol : Solution} (hr : Reached s n) (hn : strip n ∈ l)
    (h : toSolution s guide n = .ok sol) :
    ∃ g ∈ l, packingOf sol = [⟨s.binTypeId, 1, placedItems s g⟩] := by
  obtain ⟨g, sol', g1, -, -, -, g5, -, g7⟩ := export_ok hc (inv_reached hc hr) guide
  rw [h] at g5
  cases g5
  exact ⟨_, closed_greedy hl _ hn g1, g7⟩

/-- The nodes below some nodes, found in a number of rounds. -/
def below (s : Scheme) : Nat → List Node → List Node
  | 0, l => l
  | k + 1, l => below s k ((l ++ l.flatMap fun n =>
      (insertions s n).map (applyInsertion s n)).dedup)

end PackingSolver.Box.MaximalSpaces
