import Verif.Spec.Threads
import Verif.Props.Output

/-!
# What reaches the output

Lemmas: every report of an algorithm is taken into account by the updates made for it.
-/

namespace PackingSolver.Threads.ThreadLemmas

open _root_.PackingSolver.Threads.Spec
open _root_.PackingSolver.Spec _root_.PackingSolver.OutputLemmas
open _root_.PackingSolver.PoolLemmas

variable {σ : Type} {P : OutputParams σ}

/-- The pool has one solution, which satisfies `V`. -/
def OneV (V : σ → Prop) (out : Output σ) : Prop := ∃ b, out.pool = ⟨1, [b], b, b⟩ ∧ V b

theorem mono_run (f : Formatter σ) (us : List (Update σ)) : Mono f (f.run P us) := by
  induction us using List.reverseRecOn with
  | nil => exact mono_refl f
  | append_singleton us u ih => rw [run_snoc]; exact mono_trans ih (step_mono _ u)

/-- The output takes an update into account. -/
def Applied (P : OutputParams σ) (g : Output σ) : Update σ → Prop
  | .solution s => P.ops.lt g.pool.best s = false
  | .infeasible => g.isProvenInfeasible = true
  | .knapsack b => extLe g.knapsackBound b
  | .binPacking b => b ≤ g.binPackingBound
  | .variableSized b => b ≤ g.variableSizedBinPackingBound
  | .bounds _ => True

theorem step_solution (V : σ → Prop) (has : Asymmetric V P.ops.lt)
    (hnt : NegTransitive V P.ops.lt) (f : Formatter σ) (hf : OneV V f.output) (u : Update σ)
    (hu : ∀ s, u = .solution s → V s) :
    OneV V (f.step P u).output ∧
    (∀ x, V x → P.ops.lt f.output.pool.best x = false →
      P.ops.lt (f.step P u).output.pool.best x = false) ∧
    (∀ s, u = .solution s → P.ops.lt (f.step P u).output.pool.best s = false) := by
  obtain ⟨b, hb, vb⟩ := hf
  have hpool := step_pool (P := P) f u
  cases u with
  | solution s =>
    have vs := hu s rfl
    simp only at hpool
    rw [hb, add_one s b (has b s vb vs)] at hpool
    by_cases hlt : P.ops.lt b s = true
    · rw [if_pos hlt] at hpool
      have hsb := has b s vb vs hlt
      refine ⟨⟨s, hpool, vs⟩, ?_, ?_⟩
      · intro x vx hx
        rw [hb] at hx
        rw [hpool]
        exact hnt s b x vs vb vx hsb hx
      · intro s' hs'
        cases hs'
        rw [hpool]
        by_contra hc
        rw [Bool.not_eq_false] at hc
        have := has s s vs vs hc
        rw [this] at hc
        cases hc
    · rw [if_neg hlt] at hpool
      rw [Bool.not_eq_true] at hlt
      refine ⟨⟨b, hpool, vb⟩, ?_, ?_⟩
      · intro x vx hx
        rw [hb] at hx
        rw [hpool]
        exact hx
      · intro s' hs'
        cases hs'
        rw [hpool]
        exact hlt
  | _ =>
    simp only at hpool
    rw [hpool]
    refine ⟨⟨b, hpool.trans hb, vb⟩, fun x _ hx => hx, ?_⟩
    intro s hs
    cases hs

theorem run_solution (V : σ → Prop) (has : Asymmetric V P.ops.lt)
    (hnt : NegTransitive V P.ops.lt) (f : Formatter σ) (hf : OneV V f.output)
    (us : List (Update σ)) (hu : ∀ s, .solution s ∈ us → V s) :
    OneV V (f.run P us).output ∧
    ∀ s, .solution s ∈ us → P.ops.lt (f.run P us).output.pool.best s = false := by
  induction us using List.reverseRecOn with
  | nil => exact ⟨hf, by simp⟩
  | append_singleton us u ih =>
    obtain ⟨h1, h2⟩ := ih fun s hs => hu s (by simp [hs])
    obtain ⟨h3, h4, h5⟩ := step_solution V has hnt _ h1 u fun s hs => hu s (by simp [hs])
    rw [run_snoc]
    refine ⟨h3, ?_⟩
    intro s hs
    rcases List.mem_append.1 hs with hs | hs
    · exact h4 s (hu s (by simp [hs])) (h2 s hs)
    · exact h5 s (List.mem_singleton.1 hs).symm

theorem step_bounds (f : Formatter σ) (u : Update σ) (hu : ∀ s, u ≠ .solution s) :
    Applied P (f.step P u).output u := by
  cases u with
  | solution s => exact absurd rfl (hu s)
  | infeasible =>
    show f.updateIsProvenInfeasible.output.isProvenInfeasible = true
    unfold Formatter.updateIsProvenInfeasible
    split_ifs with h
    · rfl
    · simpa using h
  | knapsack b =>
    show extLe (f.updateKnapsackBound P b).output.knapsackBound b
    unfold Formatter.updateKnapsackBound Formatter.changed
    split_ifs with h
    · exact extLe_refl b
    · exact not_ltB_extLe (by simpa using h)
  | binPacking b =>
    show b ≤ (f.updateBinPackingBound P b).output.binPackingBound
    unfold Formatter.updateBinPackingBound Formatter.changed
    split_ifs with h
    · exact le_refl b
    · exact not_lt.mp h
  | variableSized b =>
    show b ≤ (f.updateVariableSizedBinPackingBound P b).output.variableSizedBinPackingBound
    unfold Formatter.updateVariableSizedBinPackingBound Formatter.changed
    split_ifs with h
    · exact le_refl b
    · exact not_lt.mp h
  | bounds out => trivial

theorem run_bounds (f : Formatter σ) (us : List (Update σ)) (u : Update σ) (hu : u ∈ us)
    (hs : ∀ s, u ≠ .solution s) : Applied P (f.run P us).output u := by
  obtain ⟨l1, l2, rfl⟩ := List.append_of_mem hu
  have e : f.run P (l1 ++ u :: l2) = ((f.run P l1).step P u).run P l2 := by
    simp [Formatter.run, List.foldl_append]
  rw [e]
  have hm : Mono ((f.run P l1).step P u) (((f.run P l1).step P u).run P l2) := mono_run _ l2
  have ha := step_bounds (P := P) (f.run P l1) u hs
  generalize (f.run P l1).step P u = g at ha hm ⊢
  generalize g.run P l2 = g' at hm ⊢
  cases u with
  | solution s => exact absurd rfl (hs s)
  | infeasible => exact hm.infeasible ha
  | knapsack b => exact extLe_trans hm.knapsack ha
  | binPacking b => exact le_trans (show b ≤ _ from ha) hm.binPacking
  | variableSized b => exact le_trans (show b ≤ _ from ha) hm.variableSized
  | bounds out => trivial

theorem reportUpdates_solution {out : Output σ} {s : σ}
    (h : Update.solution s ∈ reportUpdates P out) : s = out.pool.best := by
  unfold reportUpdates at h
  rcases List.mem_cons.1 h with h | h
  · cases h; rfl
  · unfold boundUpdates at h
    rcases List.mem_append.1 h with h | h
    · split_ifs at h
      · simp at h
      · simp at h
    · revert h
      cases P.objective <;> simp

theorem covers_of_applied (out g : Output σ) (h : ∀ u ∈ reportUpdates P out, Applied P g u) :
    Covers P out g := by
  have hb : ∀ u ∈ boundUpdates P out, Applied P g u := fun u hu =>
    h u (List.mem_cons_of_mem _ hu)
  unfold boundUpdates at hb
  refine ⟨?_, ?_, ?_, ?_, h (.solution out.pool.best) List.mem_cons_self⟩
  · intro hi
    exact hb .infeasible (by rw [if_pos hi]; simp)
  · intro ho
    exact hb (.knapsack out.knapsackBound) (by rw [ho]; simp)
  · intro ho
    exact hb (.binPacking out.binPackingBound) (by rw [ho]; simp)
  · intro ho
    exact hb (.variableSized out.variableSizedBinPackingBound) (by rw [ho]; simp)

/-- A run whose updates contain those of a report takes the report into account. -/
theorem run_covers (V : σ → Prop) (has : Asymmetric V P.ops.lt)
    (hnt : NegTransitive V P.ops.lt) (f : Formatter σ) (hf : OneV V f.output)
    (us : List (Update σ)) (hu : ∀ s, .solution s ∈ us → V s) (out : Output σ)
    (hout : ∀ u ∈ reportUpdates P out, u ∈ us) : Covers P out (f.run P us).output := by
  apply covers_of_applied
  intro u hr
  have hm := hout u hr
  cases u with
  | solution s => exact (run_solution V has hnt f hf us hu).2 s hm
  | _ => exact run_bounds f us _ hm (by simp)

theorem covers_trans (V : σ → Prop) (hnt : NegTransitive V P.ops.lt) {a b c : Output σ}
    (ha : V a.pool.best) (hb : V b.pool.best) (hc : V c.pool.best)
    (h1 : Covers P a b) (h2 : Covers P b c) : Covers P a c :=
  ⟨fun h => h2.infeasible (h1.infeasible h), fun h => extLe_trans (h2.knapsack h) (h1.knapsack h),
    fun h => (h1.binPacking h).trans (h2.binPacking h),
    fun h => (h1.variableSized h).trans (h2.variableSized h),
    hnt _ _ _ hc hb ha h2.solution h1.solution⟩

/-- The collected output takes every report into account. -/
theorem collect_covers (V : σ → Prop) (has : Asymmetric V P.ops.lt)
    (hnt : NegTransitive V P.ops.lt) (hempty : V P.ops.empty) (l : List (Output σ))
    (hl : ∀ out ∈ l, V out.pool.best) :
    OneV V (collect P l) ∧ ∀ out ∈ l, Covers P out (collect P l) := by
  induction l using List.reverseRecOn with
  | nil => exact ⟨⟨_, rfl, hempty⟩, by simp⟩
  | append_singleton l o ih =>
    obtain ⟨⟨b, hb, vb⟩, h2⟩ := ih fun out h => hl out (by simp [h])
    have vo := hl o (by simp)
    have e : collect P (l ++ [o]) = Output.updateBounds P { collect P l with
        pool := ((collect P l).pool.add P.ops o.pool.best).2 } o := by
      simp [collect, List.foldl_append]
    rw [e]
    obtain ⟨h3, h4, h5, h6, h7, h8, h9, h10⟩ := output_updateBounds (P := P)
      { collect P l with pool := ((collect P l).pool.add P.ops o.pool.best).2 } o
    generalize Output.updateBounds P { collect P l with
      pool := ((collect P l).pool.add P.ops o.pool.best).2 } o = g at *
    dsimp only at h3 h4 h5 h6 h7
    rw [hb, add_one _ b (has b _ vb vo)] at h3
    have key : OneV V g ∧ (∀ x, V x → P.ops.lt b x = false → P.ops.lt g.pool.best x = false) ∧
        P.ops.lt g.pool.best o.pool.best = false := by
      by_cases hlt : P.ops.lt b o.pool.best = true
      · rw [if_pos hlt] at h3
        refine ⟨⟨_, h3, vo⟩, ?_, ?_⟩
        · intro x vx hx
          rw [h3]
          exact hnt _ b x vo vb vx (has b _ vb vo hlt) hx
        · rw [h3]
          by_contra hc
          rw [Bool.not_eq_false] at hc
          have := has _ _ vo vo hc
          dsimp only at hc
          rw [this] at hc
          cases hc
      · rw [if_neg hlt] at h3
        rw [Bool.not_eq_true] at hlt
        exact ⟨⟨_, h3, vb⟩, fun x _ hx => by rw [h3]; exact hx, by rw [h3]; exact hlt⟩
    obtain ⟨k1, k2, k3⟩ := key
    refine ⟨k1, ?_⟩
    intro out hout
    rcases List.mem_append.1 hout with hout | hout
    · have hc := h2 out hout
      refine ⟨fun h => h7.2 (.inl (hc.infeasible h)), fun h => extLe_trans h4 (hc.knapsack h),
        fun h => (hc.binPacking h).trans h5, fun h => (hc.variableSized h).trans h6, ?_⟩
      have := hc.solution
      rw [hb] at this
      exact k2 _ (hl out (by simp [hout])) this
    · rw [List.mem_singleton] at hout
      subst hout
      exact ⟨fun h => h7.2 (.inr h), h8, h9, h10, k3⟩

end PackingSolver.Threads.ThreadLemmas
