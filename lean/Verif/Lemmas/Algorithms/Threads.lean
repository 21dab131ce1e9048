import Verif.Spec.Threads
import Mathlib.Tactic.Push
import Mathlib.Tactic.Common
import Mathlib.Data.List.Induction

/-!
# Helper lemmas for executions of several tasks
-/

namespace PackingSolver.Threads.ThreadLemmas

open _root_.PackingSolver.Threads.Spec

variable {σ : Type} {P : OutputParams σ} {cb : Output σ → Option Nat}

theorem exec_append (st : State σ) (l l' : List Event) :
    exec P cb st (l ++ l') = exec P cb (exec P cb st l) l' := by
  unfold exec; rw [List.foldl_append]

theorem exec_inv (I : State σ → Prop) (h : ∀ st e, I st → I (step P cb st e)) :
    ∀ (l : List Event) (st : State σ), I st → I (exec P cb st l) := by
  intro l
  induction l with
  | nil => intro st hs; exact hs
  | cons e l ih => intro st hs; exact ih _ (h st e hs)

theorem exec_inv_nostop (I : State σ → Prop)
    (h : ∀ st i, I st → I (step P cb st (.thread i))) :
    ∀ (l : List Event) (st : State σ), .stop ∉ l → I st → I (exec P cb st l) := by
  intro l
  induction l with
  | nil => intro st _ hs; exact hs
  | cons e l ih =>
    intro st hn hs
    cases e with
    | stop => simp at hn
    | thread i =>
      exact ih _ (fun hm => hn (List.mem_cons_of_mem _ hm)) (h st i hs)

/-! ### Deterministic mode -/

/-- What remains of a task without shared updates: its output and its exception. -/
def eval (P : OutputParams σ) (e : Bool) : Prog σ → Output σ → Output σ × Option Nat
  | .done, o => (o, none)
  | .throw x, o => (o, some x)
  | .checkEnd k, o => eval P e (k e) o
  | .localReport out k, o => eval P e k (recordLocal P o out)
  | .shared _ k, o => eval P e k o

/-- No shared updates. -/
inductive IsLocal : Prog σ → Prop
  | done : IsLocal .done
  | throw (e : Nat) : IsLocal (.throw e)
  | checkEnd {k : Bool → Prog σ} : (∀ b, IsLocal (k b)) → IsLocal (.checkEnd k)
  | localReport (out : Output σ) {k : Prog σ} : IsLocal k → IsLocal (.localReport out k)

theorem task_isLocal (a : Alg σ) : IsLocal (task P true a) := by
  induction a with
  | done => exact .done
  | throw e => exact .throw e
  | checkEnd k ih => exact .checkEnd ih
  | report out k ih => exact .localReport out ih

theorem eval_task (e : Bool) (a : Alg σ) (o : Output σ) :
    eval P e (task P true a) o = ((alone e a).1.foldl (recordLocal P) o, (alone e a).2) := by
  induction a generalizing o with
  | done => rfl
  | throw x => rfl
  | checkEnd k ih => exact ih e o
  | report out k ih =>
    show eval P e (task P true k) (recordLocal P o out) = _
    rw [ih]
    rfl

/-- Invariant of the deterministic mode. -/
structure DetInv (P : OutputParams σ) (f : Formatter σ) (algs : List (Alg σ)) (st : State σ) :
    Prop where
  shared : st.shared = f
  isLocal : ∀ i, IsLocal (st.progs i)
  excDone : ∀ i x, st.exc i = some x → st.progs i = .done
  value : ∀ i, (match st.exc i with
      | some x => (st.locals i, some x)
      | none => eval P f.end_ (st.progs i) (st.locals i))
    = eval P f.end_ ((init P true f algs).progs i) (.new P)

theorem DetInv.init (f : Formatter σ) (algs : List (Alg σ)) :
    DetInv P f algs (init P true f algs) := by
  refine ⟨rfl, ?_, ?_, fun i => rfl⟩
  · intro i
    unfold Threads.init
    dsimp only
    split
    · exact .done
    · exact task_isLocal _
  · intro i x h; cases h

theorem DetInv.step {f : Formatter σ} {algs : List (Alg σ)} {st : State σ}
    (h : DetInv P f algs st) (i : Nat) : DetInv P f algs (step P cb st (.thread i)) := by
  unfold Threads.step
  dsimp only
  have hv := h.value i
  have hl := h.isLocal i
  have he := h.excDone i
  cases hp : st.progs i with
  | done => exact h
  | throw e =>
    have hex : st.exc i = none := by
      cases hx : st.exc i with
      | none => rfl
      | some x => have := he x hx; rw [hp] at this; cases this
    rw [hex, hp] at hv
    refine ⟨h.shared, ?_, ?_, ?_⟩
    · intro j
      by_cases hj : j = i
      · subst hj; dsimp only; rw [Function.update_self]; exact .done
      · dsimp only; rw [Function.update_of_ne hj]; exact h.isLocal j
    · intro j x
      by_cases hj : j = i
      · subst hj; intro _; dsimp only; rw [Function.update_self]
      · dsimp only; rw [Function.update_of_ne hj, Function.update_of_ne hj]; exact h.excDone j x
    · intro j
      by_cases hj : j = i
      · subst hj; dsimp only; rw [Function.update_self]; exact hv
      · dsimp only; rw [Function.update_of_ne hj, Function.update_of_ne hj]; exact h.value j
  | checkEnd k =>
    have hex : st.exc i = none := by
      cases hx : st.exc i with
      | none => rfl
      | some x => have := he x hx; rw [hp] at this; cases this
    rw [hex, hp] at hv
    rw [hp] at hl
    cases hl with
    | checkEnd hl =>
      refine ⟨h.shared, ?_, ?_, ?_⟩
      · intro j
        by_cases hj : j = i
        · subst hj; dsimp only; rw [Function.update_self]; exact hl _
        · dsimp only; rw [Function.update_of_ne hj]; exact h.isLocal j
      · intro j x
        by_cases hj : j = i
        · subst hj; dsimp only; rw [hex]; intro hx; cases hx
        · dsimp only; rw [Function.update_of_ne hj]; exact h.excDone j x
      · intro j
        by_cases hj : j = i
        · subst hj; dsimp only; rw [Function.update_self, hex, h.shared]; exact hv
        · dsimp only; rw [Function.update_of_ne hj]; exact h.value j
  | localReport out k =>
    have hex : st.exc i = none := by
      cases hx : st.exc i with
      | none => rfl
      | some x => have := he x hx; rw [hp] at this; cases this
    rw [hex, hp] at hv
    rw [hp] at hl
    cases hl with
    | localReport _ hl =>
      refine ⟨h.shared, ?_, ?_, ?_⟩
      · intro j
        by_cases hj : j = i
        · subst hj; dsimp only; rw [Function.update_self]; exact hl
        · dsimp only; rw [Function.update_of_ne hj]; exact h.isLocal j
      · intro j x
        by_cases hj : j = i
        · subst hj; dsimp only; rw [hex]; intro hx; cases hx
        · dsimp only; rw [Function.update_of_ne hj]; exact h.excDone j x
      · intro j
        by_cases hj : j = i
        · subst hj; dsimp only; rw [Function.update_self, Function.update_self, hex]; exact hv
        · dsimp only; rw [Function.update_of_ne hj, Function.update_of_ne hj]; exact h.value j
  | shared u k => rw [hp] at hl; cases hl

theorem DetInv.result {f : Formatter σ} {algs : List (Alg σ)} {st : State σ}
    (h : DetInv P f algs st) (hd : allDone st) (i : Nat) (a : Alg σ) (ha : algs[i]? = some a) :
    st.exc i = (alone f.end_ a).2 ∧ st.locals i = collect P (alone f.end_ a).1 := by
  have hv := h.value i
  rw [hd i] at hv
  have e1 : (Threads.init P true f algs).progs i = task P true a := by
    unfold Threads.init; dsimp only; rw [ha]
  rw [e1, eval_task] at hv
  have e2 : (alone f.end_ a).1.foldl (recordLocal P) (.new P) = collect P (alone f.end_ a).1 :=
    rfl
  rw [e2] at hv
  cases hx : st.exc i with
  | some x => rw [hx] at hv; injection hv with h1 h2; exact ⟨h2, h1⟩
  | none => rw [hx] at hv; injection hv with h1 h2; exact ⟨h2, h1⟩

theorem findSome_range {β : Type} (l : List (Alg σ)) (g : Alg σ → Option β) (f : Nat → Option β)
    (h : ∀ i a, l[i]? = some a → f i = g a) :
    (List.range l.length).reverse.findSome? f = l.reverse.findSome? g := by
  induction l using List.reverseRecOn with
  | nil => rfl
  | append_singleton l a ih =>
    rw [List.length_append, List.length_singleton, List.range_succ, List.reverse_append,
      List.reverse_append]
    have h1 := h l.length a (by simp)
    have h2 := ih fun i b hb => h i b (by
      rw [List.getElem?_append_left]
      · exact hb
      · by_contra hc
        rw [List.getElem?_eq_none (by omega)] at hb
        cases hb)
    simp only [List.reverse_singleton, List.singleton_append, List.findSome?_cons]
    rw [h1, h2]

theorem flatMap_range {β : Type} (l : List (Alg σ)) (g : Alg σ → List β) (f : Nat → List β)
    (h : ∀ i a, l[i]? = some a → f i = g a) :
    (List.range l.length).flatMap f = l.flatMap g := by
  induction l using List.reverseRecOn with
  | nil => rfl
  | append_singleton l a ih =>
    rw [List.length_append, List.length_singleton, List.range_succ, List.flatMap_append,
      List.flatMap_append]
    have h1 := h l.length a (by simp)
    have h2 := ih fun i b hb => h i b (by
      rw [List.getElem?_append_left]
      · exact hb
      · by_contra hc
        rw [List.getElem?_eq_none (by omega)] at hb
        cases hb)
    rw [h2]
    simp only [List.flatMap_cons, List.flatMap_nil, List.append_nil]
    rw [h1]

/-! ### Exceptions -/

/-- The exception slots agree with the history. -/
structure ExcInv (st : State σ) : Prop where
  mem : ∀ i e, st.exc i = some e ↔ (i, e) ∈ st.thrown
  done : ∀ i e, st.exc i = some e → st.progs i = .done
  nodup : (st.thrown.map fun p => p.1).Nodup

theorem ExcInv.congr {st st' : State σ} (h : ExcInv st) (h1 : st'.exc = st.exc)
    (h2 : st'.thrown = st.thrown)
    (h3 : ∀ j, st.progs j = .done → st'.progs j = .done) : ExcInv st' := by
  refine ⟨?_, ?_, ?_⟩
  · intro i e; rw [h1, h2]; exact h.mem i e
  · intro i e; rw [h1]; intro he; exact h3 i (h.done i e he)
  · rw [h2]; exact h.nodup

theorem update_done {progs : Nat → Prog σ} {i : Nat} {p : Prog σ} (hp : progs i ≠ .done) (j : Nat)
    (h : progs j = .done) : Function.update progs i p j = .done := by
  by_cases hj : j = i
  · subst hj; exact absurd h hp
  · rw [Function.update_of_ne hj]; exact h

theorem ExcInv.step {st : State σ} (h : ExcInv st) (e : Event) : ExcInv (step P cb st e) := by
  cases e with
  | stop => exact h.congr rfl rfl fun _ h => h
  | thread i =>
    unfold Threads.step
    dsimp only
    cases hp : st.progs i with
    | done => exact h
    | throw x =>
      dsimp only
      have hex : st.exc i = none := by
        cases hx : st.exc i with
        | none => rfl
        | some y => have := h.done i y hx; rw [hp] at this; cases this
      refine ⟨?_, ?_, ?_⟩
      · intro j e
        by_cases hj : j = i
        · subst hj
          dsimp only
          rw [Function.update_self, List.mem_append, List.mem_singleton, ← h.mem, hex]
          simp [eq_comm]
        · dsimp only
          rw [Function.update_of_ne hj, List.mem_append, List.mem_singleton, ← h.mem]
          simp [hj]
      · intro j e
        by_cases hj : j = i
        · subst hj; intro _; dsimp only; rw [Function.update_self]
        · dsimp only
          rw [Function.update_of_ne hj, Function.update_of_ne hj]
          exact h.done j e
      · dsimp only
        rw [List.map_append, List.nodup_append]
        refine ⟨h.nodup, by simp, ?_⟩
        intro a ha b hb
        rw [List.mem_map] at ha
        obtain ⟨⟨a1, a2⟩, ha, rfl⟩ := ha
        simp only [List.map_cons, List.map_nil, List.mem_singleton] at hb
        subst hb
        intro he
        dsimp only at he
        rw [← h.mem, he, hex] at ha
        cases ha
    | checkEnd k =>
      exact h.congr rfl rfl fun j hj => update_done (by rw [hp]; simp) j hj
    | localReport out k =>
      exact h.congr rfl rfl fun j hj => update_done (by rw [hp]; simp) j hj
    | shared u k =>
      dsimp only
      split
      · exact h
      · split
        · exact h.congr rfl rfl fun j hj => update_done (by rw [hp]; simp) j hj
        · exact h.congr rfl rfl fun j hj => update_done (by rw [hp]; simp) j hj

theorem ExcInv.init (d : Bool) (f : Formatter σ) (algs : List (Alg σ)) :
    ExcInv (init P d f algs) := by
  refine ⟨?_, ?_, ?_⟩
  · intro i e; unfold Threads.init; simp
  · intro i e h; cases h
  · exact List.nodup_nil

/-- Tasks beyond the last one never act. -/
theorem progs_beyond (d : Bool) (f : Formatter σ) (algs : List (Alg σ)) (l : List Event) (i : Nat)
    (hi : algs.length ≤ i) : (exec P cb (init P d f algs) l).progs i = .done ∧
      (exec P cb (init P d f algs) l).exc i = none := by
  refine exec_inv (fun st => st.progs i = .done ∧ st.exc i = none) ?_ l _ ?_
  · intro st e ⟨h1, h2⟩
    cases e with
    | stop => exact ⟨h1, h2⟩
    | thread j =>
      by_cases hj : j = i
      · subst hj
        unfold Threads.step
        dsimp only
        rw [h1]
        exact ⟨h1, h2⟩
      · have hne : i ≠ j := fun e => hj e.symm
        unfold Threads.step
        dsimp only
        split
        · exact ⟨h1, h2⟩
        · dsimp only
          rw [Function.update_of_ne hne, Function.update_of_ne hne]; exact ⟨h1, h2⟩
        · dsimp only
          rw [Function.update_of_ne hne]; exact ⟨h1, h2⟩
        · dsimp only
          rw [Function.update_of_ne hne]; exact ⟨h1, h2⟩
        · split
          · exact ⟨h1, h2⟩
          · split <;> (dsimp only; rw [Function.update_of_ne hne]; exact ⟨h1, h2⟩)
  · unfold Threads.init
    dsimp only
    rw [List.getElem?_eq_none hi]
    exact ⟨rfl, rfl⟩

/-! ### Progress -/

theorem finish_task (hlock : ∀ u f, (callbackStep P cb f u).2 = none) (i : Nat) (p : Prog σ) :
    ∀ st : State σ, st.locked = false → st.progs i = p →
    ∃ n, (exec P cb st (List.replicate n (.thread i))).progs i = .done ∧
      (exec P cb st (List.replicate n (.thread i))).locked = false ∧
      ∀ j, st.progs j = .done →
        (exec P cb st (List.replicate n (.thread i))).progs j = .done := by
  induction p with
  | done => intro st h1 h2; exact ⟨0, h2, h1, fun j h => h⟩
  | throw e =>
    intro st h1 h2
    refine ⟨1, ?_⟩
    show (step P cb st (.thread i)).progs i = .done ∧ (step P cb st (.thread i)).locked = false ∧
      ∀ j, st.progs j = .done → (step P cb st (.thread i)).progs j = .done
    unfold Threads.step
    dsimp only
    rw [h2]
    dsimp only
    refine ⟨by rw [Function.update_self], h1, fun j hj => update_done (by rw [h2]; simp) j hj⟩
  | checkEnd k ih =>
    intro st h1 h2
    have hs : (step P cb st (.thread i)) =
        { st with progs := Function.update st.progs i (k st.shared.end_) } := by
      unfold Threads.step; dsimp only; rw [h2]
    obtain ⟨n, g1, g2, g3⟩ := ih st.shared.end_ (step P cb st (.thread i)) (by rw [hs]; exact h1)
      (by rw [hs]; dsimp only; rw [Function.update_self])
    refine ⟨n + 1, ?_⟩
    rw [List.replicate_succ]
    refine ⟨g1, g2, fun j hj => g3 j ?_⟩
    rw [hs]; exact update_done (by rw [h2]; simp) j hj
  | localReport out k ih =>
    intro st h1 h2
    have hs : (step P cb st (.thread i)) = { st with
        locals := Function.update st.locals i (recordLocal P (st.locals i) out)
        progs := Function.update st.progs i k } := by
      unfold Threads.step; dsimp only; rw [h2]
    obtain ⟨n, g1, g2, g3⟩ := ih (step P cb st (.thread i)) (by rw [hs]; exact h1)
      (by rw [hs]; dsimp only; rw [Function.update_self])
    refine ⟨n + 1, ?_⟩
    rw [List.replicate_succ]
    refine ⟨g1, g2, fun j hj => g3 j ?_⟩
    rw [hs]; exact update_done (by rw [h2]; simp) j hj
  | shared u k ih =>
    intro st h1 h2
    have hs : ∃ f, (step P cb st (.thread i)) = { st with
          shared := f
          progs := Function.update st.progs i k
          updates := st.updates ++ [(i, u)] } := by
      have hn := hlock u st.shared
      unfold Threads.step; dsimp only; rw [h2]; dsimp only
      rw [h1, if_neg (by simp)]
      obtain ⟨f, x, e⟩ : ∃ f x, callbackStep P cb st.shared u = (f, x) := ⟨_, _, rfl⟩
      rw [e] at hn ⊢
      dsimp only at hn
      subst hn
      exact ⟨f, rfl⟩
    obtain ⟨f, hs⟩ := hs
    obtain ⟨n, g1, g2, g3⟩ := ih (step P cb st (.thread i)) (by rw [hs]; exact h1)
      (by rw [hs]; dsimp only; rw [Function.update_self])
    refine ⟨n + 1, ?_⟩
    rw [List.replicate_succ]
    refine ⟨g1, g2, fun j hj => g3 j ?_⟩
    rw [hs]; exact update_done (by rw [h2]; simp) j hj

/-- Without exceptions of the callback the tasks can be run to the end one after the other. -/
theorem finish_all (hlock : ∀ u f, (callbackStep P cb f u).2 = none) (n : Nat) :
    ∀ st : State σ, st.locked = false → (∀ i, n ≤ i → st.progs i = .done) →
    ∃ l, .stop ∉ l ∧ allDone (exec P cb st l) := by
  induction n with
  | zero => intro st _ h; exact ⟨[], by simp, fun i => h i (Nat.zero_le i)⟩
  | succ n ih =>
    intro st hl h
    obtain ⟨m, g1, g2, g3⟩ := finish_task hlock n (st.progs n) st hl rfl
    obtain ⟨l, hl1, hl2⟩ := ih _ g2 (by
      intro i hi
      by_cases hin : i = n
      · subst hin; exact g1
      · exact g3 i (h i (by omega)))
    refine ⟨List.replicate m (.thread n) ++ l, ?_, ?_⟩
    · intro hm
      rw [List.mem_append] at hm
      rcases hm with hm | hm
      · have := List.eq_of_mem_replicate hm; cases this
      · exact hl1 hm
    · rw [exec_append]; exact hl2

theorem callback_none (hcb : ∀ out, cb out = none) (u : Update σ) (f : Formatter σ) :
    (callbackStep P cb f u).2 = none := by
  unfold callbackStep
  split
  · rw [hcb]
  · rfl

theorem locked_false (hcb : ∀ out, cb out = none) (st : State σ) (l : List Event)
    (h : st.locked = false) : (exec P cb st l).locked = false := by
  refine exec_inv (fun st => st.locked = false) ?_ l st h
  intro st e hs
  cases e with
  | stop => exact hs
  | thread i =>
    unfold Threads.step
    dsimp only
    split
    · exact hs
    · exact hs
    · exact hs
    · exact hs
    · rename_i u k _
      split
      · exact hs
      · have := callback_none (P := P) hcb u st.shared
        split
        · exact hs
        · rename_i f x e
          rw [e] at this; cases this

end PackingSolver.Threads.ThreadLemmas
