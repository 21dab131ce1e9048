import Verif.Lemmas.Algorithms.Threads

/-!
# Helper lemmas: every task runs exactly once
-/

namespace PackingSolver.Threads.ThreadLemmas

open _root_.PackingSolver.Threads.Spec

variable {σ : Type} {P : OutputParams σ} {cb : Output σ → Option Nat}

/-- Runs of a task: its locked updates, its local reports and its exception. -/
inductive PRun : Prog σ → List (Update σ) → List (Output σ) → Option Nat → Prop
  | done : PRun .done [] [] none
  | throw (e : Nat) : PRun (.throw e) [] [] (some e)
  | checkEnd {k : Bool → Prog σ} {us : List (Update σ)} {ls : List (Output σ)} {x : Option Nat}
      (b : Bool) : PRun (k b) us ls x → PRun (.checkEnd k) us ls x
  | localReport (out : Output σ) {k : Prog σ} {us : List (Update σ)} {ls : List (Output σ)}
      {x : Option Nat} : PRun k us ls x → PRun (.localReport out k) us (out :: ls) x
  | shared (u : Update σ) {k : Prog σ} {us : List (Update σ)} {ls : List (Output σ)}
      {x : Option Nat} : PRun k us ls x → PRun (.shared u k) (u :: us) ls x

theorem pRun_sharedSeq (vs : List (Update σ)) {k : Prog σ} {us : List (Update σ)}
    {ls : List (Output σ)} {x : Option Nat} (h : PRun (sharedSeq vs k) us ls x) :
    ∃ us', us = vs ++ us' ∧ PRun k us' ls x := by
  induction vs generalizing us with
  | nil => exact ⟨us, rfl, h⟩
  | cons v vs ih =>
    cases h with
    | shared _ h =>
      obtain ⟨us', rfl, h'⟩ := ih h
      exact ⟨us', rfl, h'⟩

theorem pRun_task (d : Bool) (a : Alg σ) {us : List (Update σ)} {ls : List (Output σ)}
    {x : Option Nat} (h : PRun (task P d a) us ls x) :
    ∃ l, Run a l x ∧ us = (if d then [] else l.flatMap (reportUpdates P)) ∧
      ls = (if d then l else []) := by
  induction a generalizing us ls with
  | done => cases h; exact ⟨[], .done, by cases d <;> rfl, by cases d <;> rfl⟩
  | throw e => cases h; exact ⟨[], .throw e, by cases d <;> rfl, by cases d <;> rfl⟩
  | checkEnd k ih =>
    cases h with
    | checkEnd b h =>
      obtain ⟨l, h1, h2, h3⟩ := ih b h
      exact ⟨l, .checkEnd b h1, h2, h3⟩
  | report out k ih =>
    cases d with
    | true =>
      have h' : PRun (.localReport out (task P true k)) us ls x := h
      cases h' with
      | localReport _ h =>
        obtain ⟨l, h1, h2, h3⟩ := ih h
        refine ⟨out :: l, .report out h1, h2, ?_⟩
        rw [h3]; rfl
    | false =>
      have h' : PRun (sharedSeq (reportUpdates P out) (task P false k)) us ls x := h
      obtain ⟨us', rfl, h''⟩ := pRun_sharedSeq _ h'
      obtain ⟨l, h1, h2, h3⟩ := ih h''
      refine ⟨out :: l, .report out h1, ?_, h3⟩
      rw [h2]; rfl

/-- The locked updates of task `i` so far. -/
def ownUpdates (st : State σ) (i : Nat) : List (Update σ) :=
  (st.updates.filter fun p => p.1 = i).map fun p => p.2

/-- What task `i` did so far, followed by any run of what remains, is a run of the task. -/
def RunInv (P : OutputParams σ) (p0 : Prog σ) (i : Nat) (st : State σ) : Prop :=
  ∃ ls, st.locals i = ls.foldl (recordLocal P) (.new P) ∧
  match st.exc i with
  | some e => st.progs i = .done ∧ PRun p0 (ownUpdates st i) ls (some e)
  | none => ∀ us ls' x, PRun (st.progs i) us ls' x →
      PRun p0 (ownUpdates st i ++ us) (ls ++ ls') x

theorem RunInv.congr {p0 : Prog σ} {i : Nat} {st st' : State σ} (h : RunInv P p0 i st)
    (h1 : st'.locals i = st.locals i) (h2 : st'.exc i = st.exc i)
    (h3 : st'.progs i = st.progs i) (h4 : ownUpdates st' i = ownUpdates st i) :
    RunInv P p0 i st' := by
  unfold RunInv at h ⊢
  rw [h1, h2, h3, h4]
  exact h

theorem ownUpdates_append (st : State σ) (us : List (Nat × Update σ)) (j : Nat) (u : Update σ)
    (h : st.updates = us ++ [(j, u)]) (i : Nat) :
    ownUpdates st i = (us.filter fun p => p.1 = i).map (fun p => p.2)
      ++ (if j = i then [u] else []) := by
  unfold ownUpdates
  rw [h, List.filter_append, List.map_append]
  by_cases hj : j = i
  · rw [if_pos hj]; simp [hj]
  · rw [if_neg hj]; simp [hj]

theorem RunInv.step (hcb : ∀ out, cb out = none) {p0 : Prog σ} {i : Nat} {st : State σ}
    (h : RunInv P p0 i st) (e : Event) : RunInv P p0 i (step P cb st e) := by
  cases e with
  | stop => exact h.congr rfl rfl rfl rfl
  | thread j =>
    by_cases hj : i = j
    · subst hj
      obtain ⟨ls, hl, hm⟩ := h
      cases hx : st.exc i with
      | some e =>
        rw [hx] at hm
        have hs : Threads.step P cb st (.thread i) = st := by
          unfold Threads.step; dsimp only; rw [hm.1]
        rw [hs]
        refine ⟨ls, hl, ?_⟩
        rw [hx]
        exact hm
      | none =>
        rw [hx] at hm
        dsimp only at hm
        unfold Threads.step
        dsimp only
        cases hp : st.progs i with
        | done =>
          refine ⟨ls, hl, ?_⟩
          rw [hx]
          exact hm
        | throw e =>
          refine ⟨ls, hl, ?_⟩
          dsimp only
          rw [Function.update_self]
          dsimp only
          refine ⟨by rw [Function.update_self], ?_⟩
          have := hm [] [] (some e) (by rw [hp]; exact .throw e)
          rw [List.append_nil, List.append_nil] at this
          exact this
        | checkEnd k =>
          refine ⟨ls, hl, ?_⟩
          dsimp only
          rw [hx]
          dsimp only
          intro us ls' x hr
          rw [Function.update_self] at hr
          exact hm us ls' x (by rw [hp]; exact .checkEnd _ hr)
        | localReport out k =>
          refine ⟨ls ++ [out], ?_, ?_⟩
          · dsimp only
            rw [Function.update_self, hl, List.foldl_append]
            rfl
          · dsimp only
            rw [hx]
            dsimp only
            intro us ls' x hr
            rw [Function.update_self] at hr
            have := hm us (out :: ls') x (by rw [hp]; exact .localReport _ hr)
            rw [List.append_assoc]
            exact this
        | shared u k =>
          dsimp only
          split
          · refine ⟨ls, hl, ?_⟩
            rw [hx]
            exact hm
          · have hn := callback_none (P := P) hcb u st.shared
            obtain ⟨f, x, e⟩ : ∃ f x, callbackStep P cb st.shared u = (f, x) := ⟨_, _, rfl⟩
            rw [e] at hn ⊢
            dsimp only at hn
            subst hn
            refine ⟨ls, hl, ?_⟩
            dsimp only
            rw [hx]
            dsimp only
            intro us ls' x hr
            rw [Function.update_self] at hr
            rw [ownUpdates_append _ st.updates i u rfl, if_pos rfl]
            have := hm (u :: us) ls' x (by rw [hp]; exact .shared _ hr)
            rw [List.append_assoc]
            exact this
    · unfold Threads.step
      dsimp only
      split
      · exact h
      · exact h.congr rfl (Function.update_of_ne hj _ _) (Function.update_of_ne hj _ _) rfl
      · exact h.congr rfl rfl (Function.update_of_ne hj _ _) rfl
      · exact h.congr (Function.update_of_ne hj _ _) rfl (Function.update_of_ne hj _ _) rfl
      · split
        · exact h
        · have hji : ¬j = i := fun e => hj e.symm
          split <;> refine h.congr rfl rfl (Function.update_of_ne hj _ _) ?_ <;>
          · rw [ownUpdates_append _ st.updates _ _ rfl, if_neg hji, List.append_nil]
            rfl

theorem RunInv.init (d : Bool) (f : Formatter σ) (algs : List (Alg σ)) (i : Nat) :
    RunInv P ((init P d f algs).progs i) i (init P d f algs) := by
  refine ⟨[], rfl, ?_⟩
  intro us ls' x h
  exact h

/-- When every task is done, each algorithm ran exactly once. -/
theorem run_once (hcb : ∀ out, cb out = none) (d : Bool) (f : Formatter σ) (algs : List (Alg σ))
    (l : List Event) (hd : allDone (exec P cb (init P d f algs) l)) (i : Nat) (a : Alg σ)
    (ha : algs[i]? = some a) :
    ∃ r, Run a r ((exec P cb (init P d f algs) l).exc i) ∧
      ownUpdates (exec P cb (init P d f algs) l) i
        = (if d then [] else r.flatMap (reportUpdates P)) ∧
      (exec P cb (init P d f algs) l).locals i = collect P (if d then r else []) := by
  have hi : RunInv P ((Threads.init P d f algs).progs i) i (exec P cb (init P d f algs) l) :=
    exec_inv _ (fun st e h => h.step hcb e) l _ (RunInv.init d f algs i)
  have e1 : (Threads.init P d f algs).progs i = task P d a := by
    unfold Threads.init; dsimp only; rw [ha]
  rw [e1] at hi
  obtain ⟨ls, h1, h2⟩ := hi
  cases hx : (exec P cb (init P d f algs) l).exc i with
  | some e =>
    rw [hx] at h2
    obtain ⟨r, g1, g2, g3⟩ := pRun_task d a h2.2
    refine ⟨r, g1, g2, ?_⟩
    rw [h1, g3]
    rfl
  | none =>
    rw [hx] at h2
    have := h2 [] [] none (by rw [hd i]; exact .done)
    rw [List.append_nil, List.append_nil] at this
    obtain ⟨r, g1, g2, g3⟩ := pRun_task d a this
    refine ⟨r, g1, g2, ?_⟩
    rw [h1, g3]
    rfl

/-! ### Linearization -/

theorem step_output_congr (f f' : Formatter σ) (u : Update σ) (h : f.output = f'.output) :
    (f.step P u).output = (f'.step P u).output := by
  cases u with
  | solution s =>
    show (f.updateSolution P s).output = (f'.updateSolution P s).output
    unfold Formatter.updateSolution Formatter.changed
    dsimp only
    rw [h]
    split <;> rfl
  | infeasible =>
    show f.updateIsProvenInfeasible.output = f'.updateIsProvenInfeasible.output
    unfold Formatter.updateIsProvenInfeasible
    rw [h]
    split
    · rfl
    · exact h
  | knapsack b =>
    show (f.updateKnapsackBound P b).output = (f'.updateKnapsackBound P b).output
    unfold Formatter.updateKnapsackBound Formatter.changed
    rw [h]
    split
    · rfl
    · exact h
  | binPacking b =>
    show (f.updateBinPackingBound P b).output = (f'.updateBinPackingBound P b).output
    unfold Formatter.updateBinPackingBound Formatter.changed
    rw [h]
    split
    · rfl
    · exact h
  | variableSized b =>
    show (f.updateVariableSizedBinPackingBound P b).output
      = (f'.updateVariableSizedBinPackingBound P b).output
    unfold Formatter.updateVariableSizedBinPackingBound Formatter.changed
    rw [h]
    split
    · rfl
    · exact h
  | bounds out =>
    show (f.updateBounds P out).output = (f'.updateBounds P out).output
    unfold Formatter.updateBounds
    dsimp only
    have hg : (if out.isProvenInfeasible then f.updateIsProvenInfeasible else f).output
        = (if out.isProvenInfeasible then f'.updateIsProvenInfeasible else f').output := by
      split
      · unfold Formatter.updateIsProvenInfeasible
        rw [h]
        split
        · rfl
        · exact h
      · exact h
    generalize (if out.isProvenInfeasible then f.updateIsProvenInfeasible else f) = g at hg ⊢
    generalize (if out.isProvenInfeasible then f'.updateIsProvenInfeasible else f') = g' at hg ⊢
    cases P.objective with
    | knapsack =>
      dsimp only
      unfold Formatter.updateKnapsackBound Formatter.changed
      rw [hg]
      split
      · rfl
      · exact hg
    | binPacking =>
      dsimp only
      unfold Formatter.updateBinPackingBound Formatter.changed
      rw [hg]
      split
      · rfl
      · exact hg
    | variableSizedBinPacking =>
      dsimp only
      unfold Formatter.updateVariableSizedBinPackingBound Formatter.changed
      rw [hg]
      split
      · rfl
      · exact hg
    | _ => exact hg

theorem callbackStep_output (f : Formatter σ) (u : Update σ) :
    (callbackStep P cb f u).1.output = (f.step P u).output := by
  unfold callbackStep
  split
  · split <;> rfl
  · rfl

/-- At any time the shared output is the result of the locked updates in their order. -/
theorem linearization (f : Formatter σ) (st : State σ) (l : List Event)
    (h : st.shared.output = (f.run P (st.updates.map fun p => p.2)).output) :
    (exec P cb st l).shared.output
      = (f.run P ((exec P cb st l).updates.map fun p => p.2)).output := by
  refine exec_inv
    (fun st => st.shared.output = (f.run P (st.updates.map fun p => p.2)).output) ?_ l st h
  intro st e hs
  cases e with
  | stop => exact hs
  | thread i =>
    unfold Threads.step
    dsimp only
    split
    · exact hs
    · exact hs
    · exact hs
    · exact hs
    · rename_i u k _
      split
      · exact hs
      · have hc := callbackStep_output (P := P) (cb := cb) st.shared u
        rw [step_output_congr st.shared _ u hs] at hc
        split
        · rename_i g e
          rw [e] at hc
          dsimp only at hc ⊢
          rw [hc, List.map_append]
          unfold Formatter.run
          rw [List.foldl_append]
          rfl
        · rename_i g x e
          rw [e] at hc
          dsimp only at hc ⊢
          rw [hc, List.map_append]
          unfold Formatter.run
          rw [List.foldl_append]
          rfl

/-- Only tasks that exist perform updates. -/
theorem updates_index (d : Bool) (f : Formatter σ) (algs : List (Alg σ)) (l : List Event) :
    ∀ p ∈ (exec P cb (init P d f algs) l).updates, p.1 < algs.length := by
  refine (exec_inv (fun st => (∀ i, algs.length ≤ i → st.progs i = .done) ∧
    ∀ p ∈ st.updates, p.1 < algs.length) ?_ l _ ?_).2
  · intro st e ⟨h1, h2⟩
    cases e with
    | stop => exact ⟨h1, h2⟩
    | thread i =>
      unfold Threads.step
      dsimp only
      cases hp : st.progs i with
      | done => exact ⟨h1, h2⟩
      | throw e =>
        exact ⟨fun j hj => update_done (by rw [hp]; simp) j (h1 j hj), h2⟩
      | checkEnd k =>
        exact ⟨fun j hj => update_done (by rw [hp]; simp) j (h1 j hj), h2⟩
      | localReport out k =>
        exact ⟨fun j hj => update_done (by rw [hp]; simp) j (h1 j hj), h2⟩
      | shared u k =>
        have hi : i < algs.length := by
          by_contra hc
          rw [h1 i (by omega)] at hp
          cases hp
        have hm : ∀ p ∈ st.updates ++ [(i, u)], p.1 < algs.length := by
          intro p hm
          rw [List.mem_append, List.mem_singleton] at hm
          rcases hm with hm | rfl
          · exact h2 p hm
          · exact hi
        dsimp only
        split
        · exact ⟨h1, h2⟩
        · split
          · exact ⟨fun j hj => update_done (by rw [hp]; simp) j (h1 j hj), hm⟩
          · exact ⟨fun j hj => update_done (by rw [hp]; simp) j (h1 j hj), hm⟩
  · refine ⟨?_, ?_⟩
    · intro i hi
      unfold Threads.init
      dsimp only
      rw [List.getElem?_eq_none hi]
    · intro p hp
      cases hp

theorem runUpdates_ok (hcb : ∀ out, cb out = none) (f : Formatter σ) (us : List (Update σ)) :
    runUpdates P cb f us = .ok (f.run P us) := by
  induction us generalizing f with
  | nil => rfl
  | cons u us ih =>
    have h : callbackStep P cb f u = (f.step P u, none) := by
      unfold callbackStep
      split
      · rw [hcb]
      · rfl
    unfold runUpdates
    rw [h]
    dsimp only
    rw [ih]
    rfl

end PackingSolver.Threads.ThreadLemmas
