import Verif.Spec.Output
import Verif.Props.Pool
import Verif.Props.Num

/-!
# C19, C20: bounds and the stop signal, for any type of solutions
-/

namespace PackingSolver

open Spec PoolLemmas

variable {σ ι : Type} {P : OutputParams σ}

namespace OutputLemmas

theorem extLe_refl (a : ExtQ) : extLe a a := by cases a <;> simp [extLe]

theorem ltB_extLe {a b : ExtQ} (h : a.ltB b = true) : extLe a b := by
  cases a <;> cases b <;> simp [ExtQ.ltB, extLe] at h ⊢
  exact h.le

theorem not_ltB_extLe {a b : ExtQ} (h : a.ltB b = false) : extLe b a := by
  cases a <;> cases b <;> simp [ExtQ.ltB, extLe] at h ⊢
  exact h

/-- The pool of a formatter has size 1. -/
def One (f : Formatter σ) : Prop := ∃ b, f.output.pool = ⟨1, [b], b, b⟩

theorem updateInfeasible_pool (f : Formatter σ) :
    f.updateIsProvenInfeasible.output.pool = f.output.pool := by
  unfold Formatter.updateIsProvenInfeasible; split_ifs <;> rfl

theorem updateKnapsack_pool (f : Formatter σ) (b : ExtQ) :
    (f.updateKnapsackBound P b).output.pool = f.output.pool := by
  unfold Formatter.updateKnapsackBound Formatter.changed; split_ifs <;> rfl

theorem updateBinPacking_pool (f : Formatter σ) (b : Int) :
    (f.updateBinPackingBound P b).output.pool = f.output.pool := by
  unfold Formatter.updateBinPackingBound Formatter.changed; split_ifs <;> rfl

theorem updateVariableSized_pool (f : Formatter σ) (b : ℚ) :
    (f.updateVariableSizedBinPackingBound P b).output.pool = f.output.pool := by
  unfold Formatter.updateVariableSizedBinPackingBound Formatter.changed; split_ifs <;> rfl

theorem step_pool (f : Formatter σ) (u : Update σ) :
    (f.step P u).output.pool = match u with
      | .solution s => (f.output.pool.add P.ops s).2
      | _ => f.output.pool := by
  cases u with
  | solution s =>
    show (f.updateSolution P s).output.pool = _
    unfold Formatter.updateSolution Formatter.changed
    dsimp only
    split_ifs <;> rfl
  | infeasible => exact updateInfeasible_pool f
  | knapsack b => exact updateKnapsack_pool f b
  | binPacking b => exact updateBinPacking_pool f b
  | variableSized b => exact updateVariableSized_pool f b
  | bounds out =>
    show (f.updateBounds P out).output.pool = _
    unfold Formatter.updateBounds
    dsimp only
    have h : (if out.isProvenInfeasible then f.updateIsProvenInfeasible else f).output.pool
        = f.output.pool := by
      split_ifs
      · exact updateInfeasible_pool f
      · rfl
    generalize (if out.isProvenInfeasible then f.updateIsProvenInfeasible else f) = g at h ⊢
    rw [← h]
    cases P.objective <;> first | rfl | exact updateKnapsack_pool g _ |
      exact updateBinPacking_pool g _ | exact updateVariableSized_pool g _

/-- `end_` is set whenever the output is proven optimal. -/
def Stops (P : OutputParams σ) (f : Formatter σ) : Prop :=
  f.output.isProvenOptimal P = true → f.end_ = true

theorem changed_stops (f : Formatter σ) (out : Output σ) : Stops P (f.changed P out) := by
  intro h
  show (f.end_ || out.isProvenOptimal P) = true
  have h' : out.isProvenOptimal P = true := h
  simp [h']

theorem updateInfeasible_stops (f : Formatter σ) (h : Stops P f) :
    Stops P f.updateIsProvenInfeasible := by
  unfold Formatter.updateIsProvenInfeasible
  split_ifs
  · exact fun _ => rfl
  · exact h

theorem step_stops (f : Formatter σ) (u : Update σ) (hone : One f)
    (has : ∀ s, u = .solution s → P.ops.lt f.output.pool.best s = true →
      P.ops.lt s f.output.pool.best = false) (h : Stops P f) :
    Stops P (f.step P u) := by
  have hk : ∀ (g : Formatter σ) b, Stops P g → Stops P (g.updateKnapsackBound P b) := by
    intro g b hg
    unfold Formatter.updateKnapsackBound
    split_ifs
    · exact changed_stops _ _
    · exact hg
  have hb : ∀ (g : Formatter σ) b, Stops P g → Stops P (g.updateBinPackingBound P b) := by
    intro g b hg
    unfold Formatter.updateBinPackingBound
    split_ifs
    · exact changed_stops _ _
    · exact hg
  have hv : ∀ (g : Formatter σ) b, Stops P g →
      Stops P (g.updateVariableSizedBinPackingBound P b) := by
    intro g b hg
    unfold Formatter.updateVariableSizedBinPackingBound
    split_ifs
    · exact changed_stops _ _
    · exact hg
  cases u with
  | solution s =>
    show Stops P (f.updateSolution P s)
    unfold Formatter.updateSolution
    dsimp only
    split_ifs with hc
    · exact changed_stops _ _
    · obtain ⟨b, hb⟩ := hone
      have has := has s rfl
      rw [hb] at hc has ⊢
      rw [add_one s b has] at hc ⊢
      have hlt : ¬ P.ops.lt b s = true := by
        intro hlt
        rw [if_pos hlt] at hc
        exact hc rfl
      rw [if_neg hlt, ← hb]
      exact h
  | infeasible => exact updateInfeasible_stops f h
  | knapsack b => exact hk f b h
  | binPacking b => exact hb f b h
  | variableSized b => exact hv f b h
  | bounds out =>
    show Stops P (f.updateBounds P out)
    unfold Formatter.updateBounds
    dsimp only
    have h' : Stops P (if out.isProvenInfeasible then f.updateIsProvenInfeasible else f) := by
      split_ifs
      · exact updateInfeasible_stops f h
      · exact h
    generalize (if out.isProvenInfeasible then f.updateIsProvenInfeasible else f) = g at h' ⊢
    generalize hobj : P.objective = obj
    cases obj <;> first | exact h' | exact hk g _ h' | exact hb g _ h' | exact hv g _ h'

/-- What one update does to the bounds and flags. -/
structure Mono (f f' : Formatter σ) : Prop where
  knapsack : extLe f'.output.knapsackBound f.output.knapsackBound
  binPacking : f.output.binPackingBound ≤ f'.output.binPackingBound
  variableSized : f.output.variableSizedBinPackingBound ≤ f'.output.variableSizedBinPackingBound
  infeasible : f.output.isProvenInfeasible = true → f'.output.isProvenInfeasible = true
  end_ : f.end_ = true → f'.end_ = true

theorem mono_refl (f : Formatter σ) : Mono f f :=
  ⟨extLe_refl _, le_refl _, le_refl _, id, id⟩

theorem extLe_trans {a b c : ExtQ} (h1 : extLe a b) (h2 : extLe b c) : extLe a c := by
  cases a <;> cases b <;> cases c <;> simp [extLe] at h1 h2 ⊢
  exact h1.trans h2

theorem mono_trans {f g h : Formatter σ} (h1 : Mono f g) (h2 : Mono g h) : Mono f h :=
  ⟨extLe_trans h2.knapsack h1.knapsack, h1.binPacking.trans h2.binPacking,
    h1.variableSized.trans h2.variableSized, fun h => h2.infeasible (h1.infeasible h),
    fun h => h2.end_ (h1.end_ h)⟩

theorem mono_infeasible (f : Formatter σ) : Mono f f.updateIsProvenInfeasible := by
  unfold Formatter.updateIsProvenInfeasible
  split_ifs
  · exact ⟨extLe_refl _, le_refl _, le_refl _, fun _ => rfl, fun _ => rfl⟩
  · exact mono_refl f

theorem mono_knapsack (f : Formatter σ) (b : ExtQ) : Mono f (f.updateKnapsackBound P b) := by
  unfold Formatter.updateKnapsackBound Formatter.changed
  split_ifs with h
  · exact ⟨ltB_extLe h, le_refl _, le_refl _, id, fun h => by simp [h]⟩
  · exact mono_refl f

theorem mono_binPacking (f : Formatter σ) (b : Int) : Mono f (f.updateBinPackingBound P b) := by
  unfold Formatter.updateBinPackingBound Formatter.changed
  split_ifs with h
  · exact ⟨extLe_refl _, h.le, le_refl _, fun h => by simp [h], fun h => by simp [h]⟩
  · exact mono_refl f

theorem mono_variableSized (f : Formatter σ) (b : ℚ) :
    Mono f (f.updateVariableSizedBinPackingBound P b) := by
  unfold Formatter.updateVariableSizedBinPackingBound Formatter.changed
  split_ifs with h
  · exact ⟨extLe_refl _, le_refl _, h.le, id, fun h => by simp [h]⟩
  · exact mono_refl f

theorem step_mono (f : Formatter σ) (u : Update σ) : Mono f (f.step P u) := by
  cases u with
  | solution s =>
    show Mono f (f.updateSolution P s)
    unfold Formatter.updateSolution Formatter.changed
    dsimp only
    split_ifs
    · exact ⟨extLe_refl _, le_refl _, le_refl _, id, fun h => by simp [h]⟩
    · exact ⟨extLe_refl _, le_refl _, le_refl _, id, id⟩
  | infeasible => exact mono_infeasible f
  | knapsack b => exact mono_knapsack f b
  | binPacking b => exact mono_binPacking f b
  | variableSized b => exact mono_variableSized f b
  | bounds out =>
    show Mono f (f.updateBounds P out)
    unfold Formatter.updateBounds
    dsimp only
    have h : Mono f (if out.isProvenInfeasible then f.updateIsProvenInfeasible else f) := by
      split_ifs
      · exact mono_infeasible f
      · exact mono_refl f
    generalize (if out.isProvenInfeasible then f.updateIsProvenInfeasible else f) = g at h ⊢
    cases P.objective <;> first | exact h | exact mono_trans h (mono_knapsack g _) |
      exact mono_trans h (mono_binPacking g _) | exact mono_trans h (mono_variableSized g _)

theorem run_snoc (f : Formatter σ) (us : List (Update σ)) (u : Update σ) :
    f.run P (us ++ [u]) = (f.run P us).step P u := by
  simp [Formatter.run, List.foldl_append]

theorem run_mono (us : List (Update σ)) :
    0 ≤ ((Formatter.new P (Output.new P)).run P us).output.variableSizedBinPackingBound := by
  induction us using List.reverseRecOn with
  | nil => exact le_refl (0 : ℚ)
  | append_singleton us u ih =>
    rw [run_snoc]
    exact ih.trans (step_mono _ u).variableSized

/-- Invariant of every run. -/
theorem run_inv (V : σ → Prop) (has : Asymmetric V P.ops.lt) (hempty : V P.ops.empty)
    (us : List (Update σ)) (hus : ∀ s, Update.solution s ∈ us → V s) :
    let f := (Formatter.new P (Output.new P)).run P us
    One f ∧ V f.output.pool.best ∧ Stops P f
      ∧ (f.output.pool.best = P.ops.empty ∨ Update.solution f.output.pool.best ∈ us) := by
  induction us using List.reverseRecOn with
  | nil => exact ⟨⟨_, rfl⟩, hempty, fun h => h, .inl rfl⟩
  | append_singleton us u ih =>
    obtain ⟨hone, hV, hstop, hmem⟩ := ih fun s hs => hus s (by simp [hs])
    rw [run_snoc]
    generalize (Formatter.new P (Output.new P)).run P us = f at hone hV hstop hmem ⊢
    have hu : ∀ s, u = .solution s → V s := fun s hs => hus s (by simp [hs])
    have hstop' := step_stops f u hone (fun s hs => has _ s hV (hu s hs)) hstop
    have hpool := step_pool (P := P) f u
    refine ⟨?_, ?_, hstop', ?_⟩ <;> cases u with
    | solution s =>
      obtain ⟨b, hb⟩ := hone
      simp only at hpool
      have hasb : P.ops.lt b s = true → P.ops.lt s b = false := by
        rw [hb] at hV
        exact has b s hV (hu s rfl)
      rw [hb, add_one s b hasb] at hpool
      rw [hb] at hV hmem
      by_cases hlt : P.ops.lt b s = true
      · rw [if_pos hlt] at hpool
        first
          | exact ⟨s, hpool⟩
          | (rw [hpool]; exact hu s rfl)
          | (rw [hpool]; right; simp)
      · rw [if_neg hlt] at hpool
        first
          | exact ⟨b, hpool⟩
          | (rw [hpool]; exact hV)
          | (rw [hpool]; rcases hmem with h | h
             · exact .inl h
             · right; simp [h])
    | _ =>
      simp only at hpool
      first
        | (unfold One; rw [hpool]; exact hone)
        | (rw [hpool]; exact hV)
        | (rw [hpool]; rcases hmem with h | h
           · exact .inl h
           · right; simp [h])

end OutputLemmas

open OutputLemmas

/-- **C19**: after any sequence of updates (hence any interleaving of the threads that
share the formatter), one more update never loosens a bound, never retracts
infeasibility or the stop signal, takes the new bound into account, and replaces the
best solution only by a strictly better one; and the stop signal is raised whenever the
output passes the optimality test. -/
theorem updates_monotone (V : σ → Prop) (has : Asymmetric V P.ops.lt) (hempty : V P.ops.empty)
    (us : List (Update σ)) (hus : ∀ s, Update.solution s ∈ us → V s) (u : Update σ)
    (hu : ∀ s, u = .solution s → V s) :
    let f := (Formatter.new P (Output.new P)).run P us
    let f' := f.step P u
    extLe f'.output.knapsackBound f.output.knapsackBound
    ∧ f.output.binPackingBound ≤ f'.output.binPackingBound
    ∧ f.output.variableSizedBinPackingBound ≤ f'.output.variableSizedBinPackingBound
    ∧ (f.output.isProvenInfeasible = true → f'.output.isProvenInfeasible = true)
    ∧ (f.end_ = true → f'.end_ = true)
    ∧ (f'.output.pool.best = f.output.pool.best
        ∨ (u = .solution f'.output.pool.best
          ∧ P.ops.lt f.output.pool.best f'.output.pool.best = true))
    ∧ (∀ s, u = .solution s → P.ops.lt f.output.pool.best s = true → f'.output.pool.best = s)
    ∧ (∀ b, u = .knapsack b → extLe f'.output.knapsackBound b)
    ∧ (∀ b, u = .binPacking b → b ≤ f'.output.binPackingBound)
    ∧ (∀ b, u = .variableSized b → b ≤ f'.output.variableSizedBinPackingBound)
    ∧ (u = .infeasible → f'.output.isProvenInfeasible = true)
    ∧ (f'.output.isProvenOptimal P = true → f'.end_ = true) := by
  intro f f'
  obtain ⟨hone, hV, hstop, -⟩ := run_inv V has hempty us hus
  have hm : Mono f f' := step_mono f u
  have hpool : f'.output.pool = _ := step_pool (P := P) f u
  refine ⟨hm.knapsack, hm.binPacking, hm.variableSized, hm.infeasible, hm.end_, ?_, ?_, ?_, ?_,
    ?_, ?_, step_stops f u hone (fun s hs => has _ s hV (hu s hs)) hstop⟩
  · cases hcu : u with
    | solution s =>
      rw [hcu] at hpool
      simp only at hpool
      obtain ⟨b, hb⟩ := hone
      have hb : f.output.pool = ⟨1, [b], b, b⟩ := hb
      have hV : V f.output.pool.best := hV
      have hasb : P.ops.lt b s = true → P.ops.lt s b = false := by
        rw [hb] at hV
        exact has b s hV (hu s hcu)
      rw [hb, add_one s b hasb] at hpool
      rw [hpool, hb]
      split_ifs with hlt
      · exact .inr ⟨rfl, hlt⟩
      · exact .inl rfl
    | _ => rw [hcu] at hpool; simp only at hpool; rw [hpool]; exact .inl rfl
  · intro s hs hlt
    rw [hs] at hpool
    simp only at hpool
    obtain ⟨b, hb⟩ := hone
    have hb : f.output.pool = ⟨1, [b], b, b⟩ := hb
    have hV : V f.output.pool.best := hV
    rw [hb] at hlt hV
    rw [hb, add_one s b (has b s hV (hu s hs)), if_pos hlt] at hpool
    rw [hpool]
  · rintro b rfl
    show extLe (f.updateKnapsackBound P b).output.knapsackBound b
    unfold Formatter.updateKnapsackBound Formatter.changed
    split_ifs with h
    · exact extLe_refl b
    · exact not_ltB_extLe (by simpa using h)
  · rintro b rfl
    show b ≤ (f.updateBinPackingBound P b).output.binPackingBound
    unfold Formatter.updateBinPackingBound Formatter.changed
    split_ifs with h
    · exact le_refl b
    · exact not_lt.mp h
  · rintro b rfl
    show b ≤ (f.updateVariableSizedBinPackingBound P b).output.variableSizedBinPackingBound
    unfold Formatter.updateVariableSizedBinPackingBound Formatter.changed
    split_ifs with h
    · exact le_refl b
    · exact not_lt.mp h
  · rintro rfl
    show f.updateIsProvenInfeasible.output.isProvenInfeasible = true
    unfold Formatter.updateIsProvenInfeasible
    split_ifs with h
    · rfl
    · simpa using h

/-- Whenever the recorded bin bound exceeds the number of bins of the instance, the output
is marked infeasible. -/
theorem bin_bound_infeasible (us : List (Update σ)) :
    let f := (Formatter.new P (Output.new P)).run P us
    P.numberOfBins < f.output.binPackingBound → 0 ≤ P.numberOfBins →
      f.output.isProvenInfeasible = true := by
  intro f h h0
  have hk : ∀ (g : Formatter σ), (P.numberOfBins < g.output.binPackingBound →
      g.output.isProvenInfeasible = true) → ∀ b,
      P.numberOfBins < (g.updateBinPackingBound P b).output.binPackingBound →
      (g.updateBinPackingBound P b).output.isProvenInfeasible = true := by
    intro g hg b
    unfold Formatter.updateBinPackingBound Formatter.changed
    split_ifs
    · intro h
      have h : P.numberOfBins < b := h
      simp [h]
    · exact hg
  have hk' : ∀ (g : Formatter σ), (P.numberOfBins < g.output.binPackingBound →
      g.output.isProvenInfeasible = true) → ∀ b,
      P.numberOfBins < (g.updateKnapsackBound P b).output.binPackingBound →
      (g.updateKnapsackBound P b).output.isProvenInfeasible = true := by
    intro g hg b
    unfold Formatter.updateKnapsackBound Formatter.changed
    split_ifs <;> exact hg
  have hk'' : ∀ (g : Formatter σ), (P.numberOfBins < g.output.binPackingBound →
      g.output.isProvenInfeasible = true) → ∀ b,
      P.numberOfBins < (g.updateVariableSizedBinPackingBound P b).output.binPackingBound →
      (g.updateVariableSizedBinPackingBound P b).output.isProvenInfeasible = true := by
    intro g hg b
    unfold Formatter.updateVariableSizedBinPackingBound Formatter.changed
    split_ifs <;> exact hg
  have hi : ∀ (g : Formatter σ), (P.numberOfBins < g.output.binPackingBound →
      g.output.isProvenInfeasible = true) →
      P.numberOfBins < g.updateIsProvenInfeasible.output.binPackingBound →
      g.updateIsProvenInfeasible.output.isProvenInfeasible = true := by
    intro g hg
    unfold Formatter.updateIsProvenInfeasible
    split_ifs
    · exact fun _ => rfl
    · exact hg
  revert h
  show P.numberOfBins < f.output.binPackingBound → _
  induction us using List.reverseRecOn with
  | nil =>
    intro h
    have h : P.numberOfBins < 0 := h
    omega
  | append_singleton us u ih =>
    simp only [f] at ih ⊢
    rw [run_snoc]
    generalize (Formatter.new P (Output.new P)).run P us = g at ih ⊢
    cases u with
    | solution s =>
      unfold Formatter.step Formatter.updateSolution Formatter.changed
      dsimp only
      split_ifs <;> exact ih
    | infeasible => exact hi g ih
    | knapsack b => exact hk' g ih b
    | binPacking b => exact hk g ih b
    | variableSized b => exact hk'' g ih b
    | bounds out =>
      unfold Formatter.step Formatter.updateBounds
      dsimp only
      have h' : P.numberOfBins < (if out.isProvenInfeasible then g.updateIsProvenInfeasible
          else g).output.binPackingBound → (if out.isProvenInfeasible then
          g.updateIsProvenInfeasible else g).output.isProvenInfeasible = true := by
        split_ifs
        · exact hi g ih
        · exact ih
      generalize (if out.isProvenInfeasible then g.updateIsProvenInfeasible else g) = g' at h' ⊢
      generalize hobj : P.objective = obj
      cases obj <;> first | exact h' | exact hk g' h' _ | exact hk' g' h' _ | exact hk'' g' h' _

/-- A combined bound update takes the bound of the objective and infeasibility into
account. -/
theorem updateBounds_applies (f : Formatter σ) (out : Output σ) :
    (out.isProvenInfeasible = true →
      (f.step P (.bounds out)).output.isProvenInfeasible = true)
    ∧ (P.objective = .knapsack →
      extLe (f.step P (.bounds out)).output.knapsackBound out.knapsackBound)
    ∧ (P.objective = .binPacking →
      out.binPackingBound ≤ (f.step P (.bounds out)).output.binPackingBound)
    ∧ (P.objective = .variableSizedBinPacking → out.variableSizedBinPackingBound
      ≤ (f.step P (.bounds out)).output.variableSizedBinPackingBound) := by
  show (_ → (f.updateBounds P out).output.isProvenInfeasible = true)
    ∧ (_ → extLe (f.updateBounds P out).output.knapsackBound _)
    ∧ (_ → _ ≤ (f.updateBounds P out).output.binPackingBound)
    ∧ (_ → _ ≤ (f.updateBounds P out).output.variableSizedBinPackingBound)
  unfold Formatter.updateBounds
  dsimp only
  have hinf : out.isProvenInfeasible = true →
      (if out.isProvenInfeasible then f.updateIsProvenInfeasible else f).output.isProvenInfeasible
        = true := by
    intro h
    rw [if_pos h]
    unfold Formatter.updateIsProvenInfeasible
    split_ifs with h'
    · rfl
    · simpa using h'
  generalize (if out.isProvenInfeasible then f.updateIsProvenInfeasible else f) = g at hinf ⊢
  refine ⟨fun h => ?_, fun h => ?_, fun h => ?_, fun h => ?_⟩
  · cases P.objective <;> first | exact hinf h | exact (mono_knapsack g _).infeasible (hinf h) |
      exact (mono_binPacking g _).infeasible (hinf h) |
      exact (mono_variableSized g _).infeasible (hinf h)
  · rw [h]
    show extLe (g.updateKnapsackBound P _).output.knapsackBound _
    unfold Formatter.updateKnapsackBound Formatter.changed
    split_ifs with h
    · exact extLe_refl _
    · exact not_ltB_extLe (by simpa using h)
  · rw [h]
    show _ ≤ (g.updateBinPackingBound P _).output.binPackingBound
    unfold Formatter.updateBinPackingBound Formatter.changed
    split_ifs with h
    · exact le_refl _
    · exact not_lt.mp h
  · rw [h]
    show _ ≤ (g.updateVariableSizedBinPackingBound P _).output.variableSizedBinPackingBound
    unfold Formatter.updateVariableSizedBinPackingBound Formatter.changed
    split_ifs with h
    · exact le_refl _
    · exact not_lt.mp h

/-- Task-local accumulation (`Output::update_bounds`) keeps the solution pool, never
loosens a bound and takes the other output's bound into account. -/
theorem output_updateBounds (out other : Output σ) :
    (out.updateBounds P other).pool = out.pool
    ∧ extLe (out.updateBounds P other).knapsackBound out.knapsackBound
    ∧ out.binPackingBound ≤ (out.updateBounds P other).binPackingBound
    ∧ out.variableSizedBinPackingBound ≤ (out.updateBounds P other).variableSizedBinPackingBound
    ∧ ((out.updateBounds P other).isProvenInfeasible = true
        ↔ out.isProvenInfeasible = true ∨ other.isProvenInfeasible = true)
    ∧ (P.objective = .knapsack →
        extLe (out.updateBounds P other).knapsackBound other.knapsackBound)
    ∧ (P.objective = .binPacking →
        other.binPackingBound ≤ (out.updateBounds P other).binPackingBound)
    ∧ (P.objective = .variableSizedBinPacking → other.variableSizedBinPackingBound
        ≤ (out.updateBounds P other).variableSizedBinPackingBound) := by
  have h1 : ∃ g : Output σ, g = (if other.isProvenInfeasible then
      { out with isProvenInfeasible := true } else out) ∧ g.pool = out.pool
      ∧ g.knapsackBound = out.knapsackBound ∧ g.binPackingBound = out.binPackingBound
      ∧ g.variableSizedBinPackingBound = out.variableSizedBinPackingBound
      ∧ (g.isProvenInfeasible = true ↔ out.isProvenInfeasible = true
        ∨ other.isProvenInfeasible = true) := by
    refine ⟨_, rfl, ?_⟩
    split_ifs with h <;> simp [h]
  obtain ⟨g, hg, e1, e2, e3, e4, e5⟩ := h1
  unfold Output.updateBounds
  dsimp only
  rw [← hg, ← e1, ← e2, ← e3, ← e4, ← e5]
  cases P.objective with
  | knapsack =>
    dsimp only
    split_ifs with h
    · exact ⟨rfl, ltB_extLe h, le_refl _, le_refl _, Iff.rfl, fun _ => extLe_refl _, by simp,
        by simp⟩
    · exact ⟨rfl, extLe_refl _, le_refl _, le_refl _, Iff.rfl,
        fun _ => not_ltB_extLe (by simpa using h), by simp, by simp⟩
  | binPacking =>
    dsimp only
    split_ifs with h
    · exact ⟨rfl, extLe_refl _, h.le, le_refl _, Iff.rfl, by simp, fun _ => le_refl _, by simp⟩
    · exact ⟨rfl, extLe_refl _, le_refl _, le_refl _, Iff.rfl, by simp,
        fun _ => not_lt.mp h, by simp⟩
  | variableSizedBinPacking =>
    dsimp only
    split_ifs with h
    · exact ⟨rfl, extLe_refl _, le_refl _, h.le, Iff.rfl, by simp, by simp, fun _ => le_refl _⟩
    · exact ⟨rfl, extLe_refl _, le_refl _, le_refl _, Iff.rfl, by simp, by simp,
        fun _ => not_lt.mp h⟩
  | _ => exact ⟨rfl, extLe_refl _, le_refl _, le_refl _, Iff.rfl, by simp, by simp, by simp⟩

/-! ## C20 -/

/-- If all bound updates are valid, the recorded bounds are. -/
theorem bounds_stay_valid {prof : ι → ℚ} {bins : ι → Int} {cost : ι → ℚ}
    (hbins : ∀ p, bins p ≤ P.numberOfBins) (h0 : ∀ p, 0 ≤ bins p) (hc0 : ∀ p, 0 ≤ cost p)
    (us : List (Update σ)) (hus : ∀ u ∈ us, ValidUpdate P.objective prof bins cost u) :
    let f := (Formatter.new P (Output.new P)).run P us
    (∀ p, f.output.knapsackBound.Ge (prof p)) ∧ (∀ p, f.output.binPackingBound ≤ bins p)
    ∧ (∀ p, f.output.variableSizedBinPackingBound ≤ cost p)
    ∧ (f.output.isProvenInfeasible = true → IsEmpty ι) := by
  intro f
  suffices h : ∀ g : Formatter σ, (∀ p, g.output.knapsackBound.Ge (prof p))
      ∧ (∀ p, g.output.binPackingBound ≤ bins p)
      ∧ (∀ p, g.output.variableSizedBinPackingBound ≤ cost p)
      ∧ (g.output.isProvenInfeasible = true → IsEmpty ι) → ∀ u,
      ValidUpdate P.objective prof bins cost u →
      (∀ p, (g.step P u).output.knapsackBound.Ge (prof p))
      ∧ (∀ p, (g.step P u).output.binPackingBound ≤ bins p)
      ∧ (∀ p, (g.step P u).output.variableSizedBinPackingBound ≤ cost p)
      ∧ ((g.step P u).output.isProvenInfeasible = true → IsEmpty ι) by
    show _ ∧ _ ∧ _ ∧ _
    induction us using List.reverseRecOn with
    | nil => exact ⟨fun _ => trivial, h0, hc0, fun h => absurd h (by simp [f, Formatter.run,
        Formatter.new, Output.new])⟩
    | append_singleton us u ih =>
      have := h _ (ih fun u hu => hus u (by simp [hu])) u (hus u (by simp))
      rw [← run_snoc] at this
      exact this
  have hinf : ∀ g : Formatter σ, IsEmpty ι → (∀ p, g.output.knapsackBound.Ge (prof p))
      ∧ (∀ p, g.output.binPackingBound ≤ bins p)
      ∧ (∀ p, g.output.variableSizedBinPackingBound ≤ cost p)
      ∧ (g.output.isProvenInfeasible = true → IsEmpty ι) :=
    fun g h => ⟨fun p => (h.false p).elim, fun p => (h.false p).elim, fun p => (h.false p).elim,
      fun _ => h⟩
  have hk : ∀ g : Formatter σ, (∀ p, g.output.knapsackBound.Ge (prof p))
      ∧ (∀ p, g.output.binPackingBound ≤ bins p)
      ∧ (∀ p, g.output.variableSizedBinPackingBound ≤ cost p)
      ∧ (g.output.isProvenInfeasible = true → IsEmpty ι) → ∀ b : ExtQ, (∀ p, b.Ge (prof p)) →
      (∀ p, (g.updateKnapsackBound P b).output.knapsackBound.Ge (prof p))
      ∧ (∀ p, (g.updateKnapsackBound P b).output.binPackingBound ≤ bins p)
      ∧ (∀ p, (g.updateKnapsackBound P b).output.variableSizedBinPackingBound ≤ cost p)
      ∧ ((g.updateKnapsackBound P b).output.isProvenInfeasible = true → IsEmpty ι) := by
    intro g hg b hb
    unfold Formatter.updateKnapsackBound Formatter.changed
    split_ifs
    · exact ⟨hb, hg.2⟩
    · exact hg
  have hbp : ∀ g : Formatter σ, (∀ p, g.output.knapsackBound.Ge (prof p))
      ∧ (∀ p, g.output.binPackingBound ≤ bins p)
      ∧ (∀ p, g.output.variableSizedBinPackingBound ≤ cost p)
      ∧ (g.output.isProvenInfeasible = true → IsEmpty ι) → ∀ b : Int, (∀ p, b ≤ bins p) →
      (∀ p, (g.updateBinPackingBound P b).output.knapsackBound.Ge (prof p))
      ∧ (∀ p, (g.updateBinPackingBound P b).output.binPackingBound ≤ bins p)
      ∧ (∀ p, (g.updateBinPackingBound P b).output.variableSizedBinPackingBound ≤ cost p)
      ∧ ((g.updateBinPackingBound P b).output.isProvenInfeasible = true → IsEmpty ι) := by
    intro g hg b hb
    unfold Formatter.updateBinPackingBound Formatter.changed
    split_ifs
    · refine ⟨hg.1, hb, hg.2.2.1, fun h => ?_⟩
      rcases Bool.or_eq_true _ _ |>.mp h with h | h
      · exact hg.2.2.2 h
      · constructor
        intro p
        have h1 := hb p
        have h2 := hbins p
        have h3 : b > P.numberOfBins := by simpa using h
        omega
    · exact hg
  have hvs : ∀ g : Formatter σ, (∀ p, g.output.knapsackBound.Ge (prof p))
      ∧ (∀ p, g.output.binPackingBound ≤ bins p)
      ∧ (∀ p, g.output.variableSizedBinPackingBound ≤ cost p)
      ∧ (g.output.isProvenInfeasible = true → IsEmpty ι) → ∀ b : ℚ, (∀ p, b ≤ cost p) →
      (∀ p, (g.updateVariableSizedBinPackingBound P b).output.knapsackBound.Ge (prof p))
      ∧ (∀ p, (g.updateVariableSizedBinPackingBound P b).output.binPackingBound ≤ bins p)
      ∧ (∀ p, (g.updateVariableSizedBinPackingBound P b).output.variableSizedBinPackingBound
          ≤ cost p)
      ∧ ((g.updateVariableSizedBinPackingBound P b).output.isProvenInfeasible = true →
          IsEmpty ι) := by
    intro g hg b hb
    unfold Formatter.updateVariableSizedBinPackingBound Formatter.changed
    split_ifs
    · exact ⟨hg.1, hg.2.1, hb, hg.2.2.2⟩
    · exact hg
  intro g hg u hu
  cases u with
  | solution s =>
    show (∀ p, (g.updateSolution P s).output.knapsackBound.Ge (prof p)) ∧ _
    unfold Formatter.step Formatter.updateSolution Formatter.changed
    dsimp only
    split_ifs <;> exact hg
  | infeasible => exact hinf _ hu
  | knapsack b => exact hk g hg b hu
  | binPacking b => exact hbp g hg b hu
  | variableSized b => exact hvs g hg b hu
  | bounds out =>
    obtain ⟨u1, u2, u3, u4⟩ := hu
    by_cases hi : out.isProvenInfeasible = true
    · exact hinf _ (u1 hi)
    · unfold Formatter.step Formatter.updateBounds
      dsimp only
      rw [if_neg hi]
      generalize P.objective = obj at u2 u3 u4
      cases obj <;> first | exact hg | exact hk g hg _ (u2 rfl) | exact hbp g hg _ (u3 rfl) |
        exact hvs g hg _ (u4 rfl)

/-- **C20** (all objectives): if every bound update was valid and the output is proven
optimal, then either there is no admissible packing, or no admissible packing is better
than the best solution by more than the tolerance. -/
theorem proven_optimal_sound {prof : ι → ℚ} {bins : ι → Int} {cost : ι → ℚ}
    (hbins : ∀ p, bins p ≤ P.numberOfBins) (h0 : ∀ p, 0 ≤ bins p) (hc0 : ∀ p, 0 ≤ cost p)
    (us : List (Update σ))
    (hus : ∀ u ∈ us, ValidUpdate P.objective prof bins cost u)
    (hnn : 0 ≤ P.ops.profit ((Formatter.new P (Output.new P)).run P us).output.pool.best)
    (hnc : 0 ≤ P.ops.cost ((Formatter.new P (Output.new P)).run P us).output.pool.best)
    (hopt : ((Formatter.new P (Output.new P)).run P us).output.isProvenOptimal P = true) :
    let best := ((Formatter.new P (Output.new P)).run P us).output.pool.best
    IsEmpty ι ∨
      match P.objective with
      | .knapsack => ∀ p, prof p * (1 - 1 / 1000000) ≤ P.ops.profit best
      | .binPacking => P.ops.full best = true ∧ ∀ p, P.ops.numberOfBins best ≤ bins p
      | .variableSizedBinPacking => P.ops.full best = true
          ∧ ∀ p, P.ops.cost best ≤ max (1 / 1000000) ((1 + 1 / 1000000) * cost p)
      | .feasibility => P.ops.full best = true ∧ P.ops.feasible best = true
      | _ => False := by
  intro best
  have hb : best = ((Formatter.new P (Output.new P)).run P us).output.pool.best := rfl
  obtain ⟨v1, v2, v3, v4⟩ := bounds_stay_valid hbins h0 hc0 us hus
  have hv0 : 0 ≤ ((Formatter.new P (Output.new P)).run P us).output.variableSizedBinPackingBound :=
    run_mono us
  revert hopt hv0 v1 v2 v3 v4
  rw [← hb] at hnn hnc
  clear_value best
  generalize ((Formatter.new P (Output.new P)).run P us).output = out at hb ⊢
  intro hopt v1 v2 v3 v4 hv0
  unfold Output.isProvenOptimal at hopt
  by_cases hi : out.isProvenInfeasible = true
  · exact .inl (v4 hi)
  · rw [if_neg hi, ← hb] at hopt
    right
    generalize P.objective = obj at hopt ⊢
    cases obj <;> simp only [Bool.and_eq_true, decide_eq_true_eq, Bool.false_eq_true] at hopt ⊢
    · exact ⟨hopt.1, fun p => by rw [← hopt.2]; exact v2 p⟩
    · intro p
      have h1 := v1 p
      cases hk : out.knapsackBound with
      | inf =>
        rw [hk] at hopt
        simp [equalProfitExt, strictlyGreaterProfitExt] at hopt
      | fin b =>
        rw [hk] at hopt h1
        have h1 : prof p ≤ b := h1
        rcases lt_or_ge (prof p) 0 with hneg | hp0
        · nlinarith
        have hb0 : 0 ≤ b := hp0.trans h1
        have hg : strictlyGreaterProfit b (P.ops.profit best) = false := by
          simp only [equalProfitExt, strictlyGreaterProfitExt, Bool.and_eq_true,
            Bool.not_eq_true'] at hopt
          exact hopt.1
        have hg' : ¬ strictlyGreaterProfit b (P.ops.profit best) = true := by rw [hg]; decide
        rw [strictlyGreaterProfit_iff hb0 hnn] at hg'
        nlinarith
    · refine ⟨hopt.1, fun p => ?_⟩
      have hg : strictlyLesserCost out.variableSizedBinPackingBound (P.ops.cost best) = false := by
        have := hopt.2
        simp only [equalCost, Bool.and_eq_true, Bool.not_eq_true'] at this
        exact this.2
      have hg' := mt (strictlyLesserCost_nonneg hv0 hnc).mpr (by rw [hg]; decide)
      rw [not_or, not_and, not_and] at hg'
      have := v3 p
      rcases hv0.lt_or_eq with hv | hv
      · exact le_max_of_le_right (by linarith [not_lt.mp (hg'.1 hv)])
      · exact le_max_of_le_left (not_lt.mp (hg'.2 hv.symm))
    · exact hopt

end PackingSolver
