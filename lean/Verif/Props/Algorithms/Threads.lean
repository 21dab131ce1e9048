import Verif.Lemmas.Algorithms.ThreadRuns
import Verif.Lemmas.Algorithms.ThreadReports
import Verif.Props.Pool
import Mathlib.Data.List.Forall2

/-!
# C37, C38: several algorithms at once
-/

namespace PackingSolver.Threads

open ThreadLemmas
open _root_.PackingSolver.Threads.Spec

variable {σ : Type}

/-- **C37**: in the deterministic mode, as long as no limit interrupts the run, the result does
not depend on the order in which the threads take their steps: it is the result of running each
algorithm alone and handing over the outputs in the order of the algorithms. -/
theorem deterministic_schedule_independent (P : OutputParams σ) (cb : Output σ → Option Nat)
    (f : Formatter σ) (algs : List (Alg σ)) (l : List Event) (hl : .stop ∉ l)
    (hd : allDone (exec P cb (init P true f algs) l)) :
    finish P cb true algs.length (exec P cb (init P true f algs) l)
      = deterministicResult P cb f algs := by
  have h : DetInv P f algs (exec P cb (init P true f algs) l) :=
    exec_inv_nostop _ (fun st i h => h.step i) l _ hl (DetInv.init f algs)
  unfold finish deterministicResult
  rw [findSome_range algs (fun a => (alone f.end_ a).2) _
    (fun i a ha => (h.result hd i a ha).1)]
  cases algs.reverse.findSome? fun a => (alone f.end_ a).2 with
  | some e => rfl
  | none =>
    dsimp only
    rw [if_pos rfl, h.shared, flatMap_range algs
      (fun a => reportUpdates P (collect P (alone f.end_ a).1)) _
      (fun i a ha => by rw [(h.result hd i a ha).2])]

/-- **C37**: two complete executions have the same result. -/
theorem deterministic_same_result (P : OutputParams σ) (cb : Output σ → Option Nat)
    (f : Formatter σ) (algs : List (Alg σ)) (l l' : List Event) (hl : .stop ∉ l)
    (hl' : .stop ∉ l') (hd : allDone (exec P cb (init P true f algs) l))
    (hd' : allDone (exec P cb (init P true f algs) l')) :
    finish P cb true algs.length (exec P cb (init P true f algs) l)
      = finish P cb true algs.length (exec P cb (init P true f algs) l') := by
  rw [deterministic_schedule_independent P cb f algs l hl hd,
    deterministic_schedule_independent P cb f algs l' hl' hd']

/-- **C38**: if the user's callback throws nothing, there is no deadlock in either mode:
wherever an execution stands, the tasks can still all be brought to their end. -/
theorem tasks_can_finish (P : OutputParams σ) (cb : Output σ → Option Nat)
    (hcb : ∀ out, cb out = none) (d : Bool) (f : Formatter σ) (algs : List (Alg σ))
    (l : List Event) :
    ∃ l', .stop ∉ l' ∧ allDone (exec P cb (init P d f algs) (l ++ l')) := by
  obtain ⟨l', h1, h2⟩ := finish_all (P := P) (cb := cb) (fun u g => callback_none hcb u g)
    algs.length (exec P cb (init P d f algs) l) (locked_false hcb _ _ rfl)
    (fun i hi => (progs_beyond d f algs l i hi).1)
  refine ⟨l', h1, ?_⟩
  rw [exec_append]
  exact h2

/-- **C38**: if the user's callback throws nothing, then in every complete execution every
algorithm ran exactly once; if some threw, the caller gets the exception of the last of them; if
none threw, the caller gets none. -/
theorem exceptions_reach_caller (P : OutputParams σ) (cb : Output σ → Option Nat)
    (hcb : ∀ out, cb out = none) (d : Bool) (f : Formatter σ) (algs : List (Alg σ))
    (l : List Event) (hd : allDone (exec P cb (init P d f algs) l)) :
    ∃ r : List (List (Output σ) × Option Nat),
      List.Forall₂ (fun a p => Run a p.1 p.2) algs r ∧
      match lastException r with
      | some e => finish P cb d algs.length (exec P cb (init P d f algs) l) = .error e
      | none => ∃ g us, finish P cb d algs.length (exec P cb (init P d f algs) l) = .ok g ∧
          g.output = (f.run P (us.map fun p => p.2)).output ∧
          Interleaves (r.map fun p =>
            if d then reportUpdates P (collect P p.1) else p.1.flatMap (reportUpdates P)) us := by
  set st := exec P cb (init P d f algs) l with hst
  have hrun : ∀ i (hi : i < algs.length), ∃ r, Run algs[i] r (st.exc i) ∧
      ownUpdates st i = (if d then [] else r.flatMap (reportUpdates P)) ∧
      st.locals i = collect P (if d then r else []) := fun i hi =>
    run_once hcb d f algs l hd i algs[i] (List.getElem?_eq_getElem hi)
  choose! r hr using hrun
  have hget : ∀ (i : Nat) (p : List (Output σ) × Option Nat),
      ((List.range algs.length).map fun i => (r i, st.exc i))[i]? = some p →
      i < algs.length ∧ p = (r i, st.exc i) := by
    intro i p hp
    rw [List.getElem?_map] at hp
    cases hi : (List.range algs.length)[i]? with
    | none => rw [hi] at hp; cases hp
    | some j =>
      rw [hi] at hp
      obtain ⟨h1, h2⟩ := List.getElem?_eq_some_iff.1 hi
      rw [List.length_range] at h1
      rw [List.getElem_range] at h2
      subst h2
      exact ⟨h1, (Option.some.inj hp).symm⟩
  refine ⟨(List.range algs.length).map fun i => (r i, st.exc i), ?_, ?_⟩
  · rw [List.forall₂_iff_get]
    refine ⟨by simp, ?_⟩
    intro i h1 h2
    simp only [List.get_eq_getElem, List.getElem_map, List.getElem_range]
    exact (hr i h1).1
  · have hlast : lastException ((List.range algs.length).map fun i => (r i, st.exc i))
        = (List.range algs.length).reverse.findSome? st.exc := by
      unfold lastException
      rw [← List.map_reverse, List.findSome?_map]
      rfl
    rw [hlast]
    unfold finish
    cases hx : (List.range algs.length).reverse.findSome? st.exc with
    | some e => rfl
    | none =>
      dsimp only
      cases d with
      | false =>
        rw [if_neg (by simp)]
        refine ⟨st.shared, st.updates, rfl, linearization f _ l rfl, ?_, ?_⟩
        · rw [List.length_map, List.length_map, List.length_range]
          exact updates_index false f algs l
        · intro i q hq
          rw [List.getElem?_map] at hq
          cases hp : ((List.range algs.length).map fun i => (r i, st.exc i))[i]? with
          | none => rw [hp] at hq; cases hq
          | some p =>
            rw [hp] at hq
            obtain ⟨hi, rfl⟩ := hget i p hp
            have := Option.some.inj hq
            rw [← this]
            exact (hr i hi).2.1
      | true =>
        rw [if_pos rfl]
        refine ⟨_, (List.range algs.length).flatMap fun i =>
          (reportUpdates P (st.locals i)).map fun u => (i, u), runUpdates_ok hcb _ _, ?_, ?_, ?_⟩
        · have hsh : st.shared.output = f.output := by
            have := linearization (P := P) (cb := cb) f (init P true f algs) l rfl
            rw [← hst] at this
            have hu : st.updates = [] := by
              rw [List.eq_nil_iff_forall_not_mem]
              intro p hp
              have hi := updates_index (P := P) (cb := cb) true f algs l p hp
              have hown := (hr p.1 hi).2.1
              rw [if_pos rfl] at hown
              unfold ownUpdates at hown
              rw [List.map_eq_nil_iff, List.filter_eq_nil_iff] at hown
              exact hown p hp (by simp)
            rw [hu] at this
            exact this
          have hc : ∀ (us : List (Update σ)) (g g' : Formatter σ), g.output = g'.output →
              (g.run P us).output = (g'.run P us).output := by
            intro us
            induction us with
            | nil => intro g g' h; exact h
            | cons u us ih => intro g g' h; exact ih _ _ (step_output_congr g g' u h)
          rw [hc _ _ f hsh]
          congr 2
          rw [List.map_flatMap]
          refine List.flatMap_congr fun i _ => ?_
          rw [List.map_map]
          exact (List.map_id _).symm
        · intro p hp
          rw [List.mem_flatMap] at hp
          obtain ⟨i, hi, hp⟩ := hp
          rw [List.mem_map] at hp
          obtain ⟨u, _, rfl⟩ := hp
          rw [List.length_map, List.length_map, List.length_range]
          exact List.mem_range.1 hi
        · intro i q hq
          rw [List.getElem?_map] at hq
          cases hp : ((List.range algs.length).map fun i => (r i, st.exc i))[i]? with
          | none => rw [hp] at hq; cases hq
          | some p =>
            rw [hp] at hq
            obtain ⟨hi, rfl⟩ := hget i p hp
            have hq := Option.some.inj hq
            dsimp only at hq
            rw [if_pos rfl] at hq
            rw [← hq, List.filter_flatMap]
            have hb : ∀ n, i < n → (List.range n).flatMap (fun j =>
                ((reportUpdates P (st.locals j)).map fun u => (j, u)).filter
                  fun p => decide (p.1 = i))
                = (reportUpdates P (st.locals i)).map fun u => (i, u) := by
              intro n
              induction n with
              | zero => intro h; omega
              | succ n ih =>
                intro h
                rw [List.range_succ, List.flatMap_append, List.flatMap_singleton]
                by_cases hin : i = n
                · subst hin
                  have e1 : (List.range i).flatMap (fun j =>
                      ((reportUpdates P (st.locals j)).map fun u => (j, u)).filter
                        fun p => decide (p.1 = i)) = [] := by
                    rw [List.flatMap_eq_nil_iff]
                    intro j hj
                    rw [List.filter_eq_nil_iff]
                    intro p hp
                    rw [List.mem_map] at hp
                    obtain ⟨u, _, rfl⟩ := hp
                    have := List.mem_range.1 hj
                    simp only [decide_eq_true_eq]
                    omega
                  rw [e1, List.nil_append, List.filter_eq_self]
                  intro p hp
                  rw [List.mem_map] at hp
                  obtain ⟨u, _, rfl⟩ := hp
                  simp
                · rw [ih (by omega)]
                  have e2 : ((reportUpdates P (st.locals n)).map fun u => (n, u)).filter
                      (fun p => decide (p.1 = i)) = [] := by
                    rw [List.filter_eq_nil_iff]
                    intro p hp
                    rw [List.mem_map] at hp
                    obtain ⟨u, _, rfl⟩ := hp
                    simp only [decide_eq_true_eq]
                    omega
                  rw [e2, List.append_nil]
            rw [hb _ hi, List.map_map]
            have hloc := (hr i hi).2.2
            rw [if_pos rfl] at hloc
            rw [hloc]
            exact List.map_id _

/-- **C38**: nothing that is reported gets lost: if the caller gets an output, then it takes
into account every output reported by every algorithm, in both modes, whatever the order: its
infeasibility, its bound and its solution. -/
theorem reports_reach_output (P : OutputParams σ) (cb : Output σ → Option Nat)
    (hcb : ∀ out, cb out = none) (V : σ → Prop)
    (has : PackingSolver.Spec.Asymmetric V P.ops.lt)
    (hnt : PackingSolver.Spec.NegTransitive V P.ops.lt) (hempty : V P.ops.empty)
    (d : Bool) (f : Formatter σ) (b : σ) (hf : f.output.pool = ⟨1, [b], b, b⟩) (hb : V b)
    (algs : List (Alg σ))
    (hV : ∀ a ∈ algs, ∀ outs x, Run a outs x → ∀ out ∈ outs, V out.pool.best)
    (l : List Event) (hd : allDone (exec P cb (init P d f algs) l)) (g : Formatter σ)
    (hg : finish P cb d algs.length (exec P cb (init P d f algs) l) = .ok g) :
    ∃ r : List (List (Output σ) × Option Nat),
      List.Forall₂ (fun a p => Run a p.1 p.2) algs r ∧
      ∀ p ∈ r, ∀ out ∈ p.1, Covers P out g.output := by
  obtain ⟨r, hr, h⟩ := exceptions_reach_caller P cb hcb d f algs l hd
  refine ⟨r, hr, ?_⟩
  have hVr : ∀ p ∈ r, ∀ out ∈ p.1, V out.pool.best := by
    rw [List.forall₂_iff_get] at hr
    intro p hp
    obtain ⟨i, hi, rfl⟩ := List.getElem_of_mem hp
    have hi' : i < algs.length := by rw [hr.1]; exact hi
    exact hV _ (List.getElem_mem hi') _ _ (hr.2 i hi' hi)
  cases hx : lastException r with
  | some e =>
    rw [hx] at h
    dsimp only at h
    rw [hg] at h
    cases h
  | none =>
    rw [hx] at h
    dsimp only at h
    obtain ⟨g', us, e1, e2, h1, h2⟩ := h
    rw [hg] at e1
    cases e1
    rw [e2]
    -- every entry of `us` comes from one of the lists
    have hmem : ∀ u ∈ us.map (fun p => p.2), ∃ p ∈ r, u ∈ (if d then
        reportUpdates P (collect P p.1) else p.1.flatMap (reportUpdates P)) := by
      intro u hu
      obtain ⟨q, hq, rfl⟩ := List.mem_map.1 hu
      have hlt := h1 q hq
      rw [List.length_map] at hlt
      refine ⟨r[q.1], List.getElem_mem hlt, ?_⟩
      have e3 := h2 q.1 _ (by rw [List.getElem?_map, List.getElem?_eq_getElem hlt]; rfl)
      dsimp only at e3
      rw [← e3]
      exact List.mem_map.2 ⟨q, List.mem_filter.2 ⟨hq, by simp⟩, rfl⟩
    have hmem' : ∀ p ∈ r, ∀ u ∈ (if d then
        reportUpdates P (collect P p.1) else p.1.flatMap (reportUpdates P)),
        u ∈ us.map (fun p => p.2) := by
      intro p hp u hu
      obtain ⟨i, hi, rfl⟩ := List.getElem_of_mem hp
      have e3 := h2 i _ (by rw [List.getElem?_map, List.getElem?_eq_getElem hi]; rfl)
      dsimp only at e3
      rw [← e3] at hu
      obtain ⟨q, hq, rfl⟩ := List.mem_map.1 hu
      exact List.mem_map.2 ⟨q, (List.mem_filter.1 hq).1, rfl⟩
    have hcol : ∀ p ∈ r, V (collect P p.1).pool.best := by
      intro p hp
      obtain ⟨⟨c, hc, vc⟩, -⟩ := collect_covers V has hnt hempty p.1 (hVr p hp)
      rw [hc]
      exact vc
    have hVus : ∀ s, Update.solution s ∈ us.map (fun p => p.2) → V s := by
      intro s hs
      obtain ⟨p, hp, hu⟩ := hmem _ hs
      cases d with
      | true =>
        rw [if_pos rfl] at hu
        rw [reportUpdates_solution hu]
        exact hcol p hp
      | false =>
        rw [if_neg (by simp)] at hu
        obtain ⟨out, ho, hu⟩ := List.mem_flatMap.1 hu
        rw [reportUpdates_solution hu]
        exact hVr p hp out ho
    intro p hp out hout
    cases d with
    | true =>
      have hc := run_covers V has hnt f ⟨b, hf, hb⟩ _ hVus (collect P p.1) fun u hu =>
        hmem' p hp u (by rw [if_pos rfl]; exact hu)
      obtain ⟨⟨b', hb', vb'⟩, -⟩ := run_solution V has hnt f ⟨b, hf, hb⟩ _ hVus
      refine covers_trans V hnt (hVr p hp out hout) (hcol p hp) ?_
        ((collect_covers V has hnt hempty p.1 (hVr p hp)).2 out hout) hc
      rw [hb']
      exact vb'
    | false =>
      exact run_covers V has hnt f ⟨b, hf, hb⟩ _ hVus out fun u hu =>
        hmem' p hp u (by rw [if_neg (by simp)]; exact List.mem_flatMap.2 ⟨out, hout, hu⟩)

/-- **C38**: the user is told of every change of the output, and of nothing else: the callback
is called exactly for the updates that change the output. -/
theorem callback_iff_changed (P : OutputParams σ) (V : σ → Prop)
    (has : PackingSolver.Spec.Asymmetric V P.ops.lt) (f : Formatter σ) (b : σ)
    (hf : f.output.pool = ⟨1, [b], b, b⟩) (hb : V b) (u : Update σ)
    (hu : ∀ s, u = .solution s → V s) (hn : ∀ out, u ≠ .bounds out) :
    callsBack P f u = true ↔ (f.step P u).output ≠ f.output := by
  cases u with
  | bounds out => exact absurd rfl (hn out)
  | solution s =>
    have vs := hu s rfl
    show decide ((f.output.pool.add P.ops s).1 = 1) = true ↔ (f.updateSolution P s).output ≠ _
    unfold Formatter.updateSolution Formatter.changed
    rw [hf, add_one s b (has b s hb vs)]
    by_cases hlt : P.ops.lt b s = true
    · rw [if_pos hlt]
      simp only [decide_true, if_pos, true_iff]
      intro h
      have h' := congrArg (fun o : Output σ => o.pool.best) h
      dsimp only at h'
      rw [hf] at h'
      dsimp only at h'
      subst h'
      rw [has s s vs vs hlt] at hlt
      cases hlt
    · rw [if_neg hlt]
      simp only [← hf]
      simp
  | infeasible =>
    show (!f.output.isProvenInfeasible) = true ↔ f.updateIsProvenInfeasible.output ≠ _
    unfold Formatter.updateIsProvenInfeasible
    split_ifs with h
    · refine ⟨fun _ h' => ?_, fun _ => h⟩
      rw [← h'] at h
      simp at h
    · simp [h]
  | knapsack c =>
    show c.ltB f.output.knapsackBound = true ↔ (f.updateKnapsackBound P c).output ≠ _
    unfold Formatter.updateKnapsackBound Formatter.changed
    split_ifs with h
    · refine ⟨fun _ h' => ?_, fun _ => h⟩
      have h' := congrArg (fun o : Output σ => o.knapsackBound) h'
      dsimp only at h'
      rw [← h'] at h
      cases c <;> simp [ExtQ.ltB] at h
    · simp [h]
  | binPacking c =>
    show decide (c > f.output.binPackingBound) = true ↔ (f.updateBinPackingBound P c).output ≠ _
    unfold Formatter.updateBinPackingBound Formatter.changed
    split_ifs with h
    · refine ⟨fun _ h' => ?_, fun _ => by simpa using h⟩
      have h' := congrArg (fun o : Output σ => o.binPackingBound) h'
      dsimp only at h'
      omega
    · simpa using h
  | variableSized c =>
    show decide (c > f.output.variableSizedBinPackingBound) = true
      ↔ (f.updateVariableSizedBinPackingBound P c).output ≠ _
    unfold Formatter.updateVariableSizedBinPackingBound Formatter.changed
    split_ifs with h
    · refine ⟨fun _ h' => ?_, fun _ => by simpa using h⟩
      have h' := congrArg (fun o : Output σ => o.variableSizedBinPackingBound) h'
      dsimp only at h'
      exact absurd h' (ne_of_gt h)
    · simpa using h

/-- **C38**: a callback that throws leaves the mutex of the formatter locked: from then on no
task that reports gets any further. -/
theorem locked_forever (P : OutputParams σ) (cb : Output σ → Option Nat) (st : State σ)
    (hs : st.locked = true) (i : Nat) (u : Update σ) (k : Prog σ)
    (hi : st.progs i = .shared u k) (l : List Event) :
    (exec P cb st l).progs i = .shared u k := by
  refine (exec_inv (fun st => st.locked = true ∧ st.progs i = .shared u k) ?_ l st
    ⟨hs, hi⟩).2
  intro st e ⟨h1, h2⟩
  cases e with
  | stop => exact ⟨h1, h2⟩
  | thread j =>
    unfold step
    dsimp only
    by_cases hj : i = j
    · subst hj
      rw [h2]
      dsimp only
      rw [if_pos h1]
      exact ⟨h1, h2⟩
    · split
      · exact ⟨h1, h2⟩
      · dsimp only; rw [Function.update_of_ne hj]; exact ⟨h1, h2⟩
      · dsimp only; rw [Function.update_of_ne hj]; exact ⟨h1, h2⟩
      · dsimp only; rw [Function.update_of_ne hj]; exact ⟨h1, h2⟩
      · rw [if_pos h1]; exact ⟨h1, h2⟩

/-- **C38** (negative): two algorithms, each of which reports a first solution better than the
initial one, and a callback that throws: in no schedule, sequential or parallel, do all the tasks
end, so the caller never gets the exception. -/
theorem callback_exception_deadlock (P : OutputParams σ) (cb : Output σ → Option Nat)
    (hcb : ∀ out, cb out ≠ none) (f : Formatter σ) (out₀ out₁ : Output σ) (k₀ k₁ : Alg σ)
    (h₀ : callsBack P f (.solution out₀.pool.best) = true)
    (h₁ : callsBack P f (.solution out₁.pool.best) = true) (l : List Event) :
    ¬allDone (exec P cb (init P false f [.report out₀ k₀, .report out₁ k₁]) l) := by
  obtain ⟨u₀, q₀, e₀⟩ : ∃ u k, u = Update.solution out₀.pool.best ∧
      task P false (.report out₀ k₀) = .shared u k := ⟨_, _, rfl, rfl⟩
  obtain ⟨u₁, q₁, e₁⟩ : ∃ u k, u = Update.solution out₁.pool.best ∧
      task P false (.report out₁ k₁) = .shared u k := ⟨_, _, rfl, rfl⟩
  have hcall : ∀ (g : Formatter σ) (u : Update σ), g.output = f.output →
      callsBack P f u = true → ∃ e, (callbackStep P cb g u).2 = some e := by
    intro g u hg hu
    have hu' : callsBack P g u = true := by
      cases u <;> (unfold callsBack at hu ⊢; rw [hg]; exact hu)
    unfold callbackStep
    rw [if_pos hu']
    cases hc : cb (g.step P u).output with
    | none => exact absurd hc (hcb _)
    | some e => exact ⟨e, rfl⟩
  have hinv : ∀ l, let st := exec P cb (init P false f [.report out₀ k₀, .report out₁ k₁]) l
      (st.locked = true ∧ (st.progs 0 = .shared u₀ q₀ ∨ st.progs 1 = .shared u₁ q₁)) ∨
      (st.locked = false ∧ st.shared.output = f.output ∧ st.progs 0 = .shared u₀ q₀ ∧
        st.progs 1 = .shared u₁ q₁ ∧ ∀ i, 2 ≤ i → st.progs i = .done) := by
    intro l
    refine exec_inv (fun st =>
      (st.locked = true ∧ (st.progs 0 = .shared u₀ q₀ ∨ st.progs 1 = .shared u₁ q₁)) ∨
      (st.locked = false ∧ st.shared.output = f.output ∧ st.progs 0 = .shared u₀ q₀ ∧
        st.progs 1 = .shared u₁ q₁ ∧ ∀ i, 2 ≤ i → st.progs i = .done)) ?_ l _ ?_
    · intro st e h
      rcases h with ⟨h1, h2⟩ | ⟨h1, h2, h3, h4, h5⟩
      · left
        have hlk : (exec P cb st [e]).locked = true := by
          show (step P cb st e).locked = true
          unfold step
          split
          · exact h1
          · split
            · exact h1
            · exact h1
            · exact h1
            · exact h1
            · rw [if_pos h1]; exact h1
        refine ⟨hlk, ?_⟩
        rcases h2 with h2 | h2
        · exact .inl (locked_forever P cb st h1 0 u₀ q₀ h2 [e])
        · exact .inr (locked_forever P cb st h1 1 u₁ q₁ h2 [e])
      · cases e with
        | stop => exact .inr ⟨h1, h2, h3, h4, h5⟩
        | thread i =>
          by_cases hi2 : 2 ≤ i
          · right
            unfold step
            dsimp only
            rw [h5 i hi2]
            exact ⟨h1, h2, h3, h4, h5⟩
          · left
            have : i = 0 ∨ i = 1 := by omega
            rcases this with rfl | rfl
            · obtain ⟨e, he⟩ := hcall st.shared u₀ h2 (by rw [e₀.1]; exact h₀)
              obtain ⟨g, x, ec⟩ : ∃ g x, callbackStep P cb st.shared u₀ = (g, x) :=
                ⟨_, _, rfl⟩
              rw [ec] at he
              dsimp only at he
              subst he
              unfold step
              dsimp only
              rw [h3]
              dsimp only
              rw [if_neg (by rw [h1]; simp), ec]
              dsimp only
              refine ⟨rfl, .inr ?_⟩
              rw [Function.update_of_ne (by omega)]
              exact h4
            · obtain ⟨e, he⟩ := hcall st.shared u₁ h2 (by rw [e₁.1]; exact h₁)
              obtain ⟨g, x, ec⟩ : ∃ g x, callbackStep P cb st.shared u₁ = (g, x) :=
                ⟨_, _, rfl⟩
              rw [ec] at he
              dsimp only at he
              subst he
              unfold step
              dsimp only
              rw [h4]
              dsimp only
              rw [if_neg (by rw [h1]; simp), ec]
              dsimp only
              refine ⟨rfl, .inl ?_⟩
              rw [Function.update_of_ne (by omega)]
              exact h3
    · right
      refine ⟨rfl, rfl, e₀.2, e₁.2, ?_⟩
      intro i hi
      unfold init
      dsimp only
      rw [List.getElem?_eq_none (by simpa using hi)]
  intro hd
  rcases hinv l with ⟨_, h | h⟩ | ⟨_, _, h, _⟩
  · rw [hd 0] at h; cases h
  · rw [hd 1] at h; cases h
  · rw [hd 0] at h; cases h

/-! ### A concrete case -/

/-- Solutions are integers, smaller is better. -/
def intParams : OutputParams Int := ⟨PackingSolver.intOps, .knapsack, 1⟩

/-- An output whose best solution is `n`. -/
def intOutput (n : Int) : Output Int := { pool := ⟨1, [n], n, n⟩ }

/-- Two algorithms: one reports `7` and then, if it may go on, `3`; one reports `5`. -/
def twoAlgs : List (Alg Int) :=
  [.report (intOutput 7) (.checkEnd fun e => if e then .done else .report (intOutput 3) .done),
   .report (intOutput 5) .done]

/-- A fresh formatter. -/
def intFormatter : Formatter Int := .new intParams (.new intParams)

/-- The best solution of a result. -/
def bestOf : Except Nat (Formatter Int) → Int
  | .ok g => g.output.pool.best
  | .error _ => -1

/-- A schedule in which the second task runs first, and one in which they alternate; both are
complete, and the deterministic result is `3`. -/
example : (∀ l ∈ [[Event.thread 1, .thread 0, .thread 0, .thread 0],
      [.thread 0, .thread 1, .thread 0, .thread 0]],
      .stop ∉ l ∧ allDone (exec intParams (fun _ => none)
        (init intParams true intFormatter twoAlgs) l)) ∧
    bestOf (deterministicResult intParams (fun _ => none) intFormatter twoAlgs) = 3 := by
  refine ⟨?_, by decide +kernel⟩
  intro l hl
  simp only [List.mem_cons, List.not_mem_nil, or_false] at hl
  rcases hl with rfl | rfl
  · refine ⟨by decide, fun i => ?_⟩
    match i with
    | 0 => rfl
    | 1 => rfl
    | (i + 2) => rfl
  · refine ⟨by decide, fun i => ?_⟩
    match i with
    | 0 => rfl
    | 1 => rfl
    | (i + 2) => rfl

/-- **C37** (negative): when a limit interrupts the run, the moment of the interruption changes
the result, deterministic mode or not. -/
theorem deterministic_stop_matters :
    bestOf (finish intParams (fun _ => none) true 2 (exec intParams (fun _ => none)
      (init intParams true intFormatter twoAlgs)
      [.stop, .thread 0, .thread 0, .thread 1])) = 5 ∧
    bestOf (finish intParams (fun _ => none) true 2 (exec intParams (fun _ => none)
      (init intParams true intFormatter twoAlgs)
      [.thread 0, .thread 0, .stop, .thread 0, .thread 1])) = 3 := by
  decide +kernel

/-- The premises of the deadlock theorem hold for two algorithms that report `3` and `5`. -/
example : callsBack intParams intFormatter (.solution (intOutput 3).pool.best) = true ∧
    callsBack intParams intFormatter (.solution (intOutput 5).pool.best) = true := by
  decide +kernel

/-- An algorithm that throws next to one that reports: the exception arrives. -/
example : finish intParams (fun _ => none) false 2 (exec intParams (fun _ => none)
    (init intParams false intFormatter [.report (intOutput 5) .done, .throw 9])
    [.thread 1, .thread 0, .thread 0]) = .error 9 := by
  rfl

/-- The premises of the theorems on reports hold for integers with their order. -/
example : intFormatter.output.pool = ⟨1, [10], 10, 10⟩ ∧
    PackingSolver.Spec.Asymmetric (fun _ : Int => True) intParams.ops.lt ∧
    PackingSolver.Spec.NegTransitive (fun _ : Int => True) intParams.ops.lt := by
  refine ⟨rfl, ?_, ?_⟩
  · intro a b _ _ h
    simp only [intParams, PackingSolver.intOps, decide_eq_true_eq, decide_eq_false_iff_not] at h ⊢
    omega
  · intro a b c _ _ _ h1 h2
    simp only [intParams, PackingSolver.intOps, decide_eq_false_iff_not] at h1 h2 ⊢
    omega

end PackingSolver.Threads
