import Verif.Lemmas.Guil.PostDepth

/-!
# Guillotine patterns rebuilt from the places of the items

Property C117.
-/

namespace PackingSolver.Guil

open Guil.Spec
open PackingSolver.Spec (IsSortOf)
open PostProcess

section
variable {inst : Instance} {σ : Bool → List ItemPlacement → List ItemPlacement} {fuel b : Nat}
  {items : List ItemPlacement} {sols : List Solution} {s : Solution}

theorem orientations_ok : ∀ o ∈ orientations inst, OrientationOk inst o := by
  intro o ho
  unfold orientations at ho
  unfold OrientationOk
  cases h : inst.parameters.firstStageOrientation <;> rw [h] at ho <;> simp at ho
  · subst ho; simp
  · subst ho; simp
  · rcases ho with rfl | rfl <;> simp

/-- **C117**: every solution rebuilt from the places of items, whatever the items and whatever the
thickness of the cuts, is one bin of the given type that contains exactly the given items at exactly
the given places, and its first cuts are as the parameters demand.  It comes from calls of the
solution builder, so it is a guillotine pattern (C67).  There is at most one solution for each
direction of the first cuts. -/
theorem guillotine_solutions_sound (hσ : ∀ v l, (σ v l).Perm l)
    (hs : ∀ bt ∈ inst.binTypes, Sized bt)
    (h : buildGuillotineSolutions inst σ fuel b items = .ok sols) :
    sols.length ≤ (if inst.parameters.firstStageOrientation = .any then 2 else 1)
    ∧ ∀ s ∈ sols, ∃ ops o nodes, (SolutionBuilder.run inst ops).build inst = .ok s
      ∧ plates s = [⟨b, 1, o, nodes⟩] ∧ OrientationOk inst o
      ∧ SamePlaces (places nodes) (items.map placeOf) := by
  unfold buildGuillotineSolutions at h
  have hlen : (orientations inst).length
      = (if inst.parameters.firstStageOrientation = .any then 2 else 1) := by
    unfold orientations
    cases inst.parameters.firstStageOrientation <;> rfl
  rw [← hlen]
  have key : ∀ (l : List CutOrientation) (acc sols : List Solution),
      (∀ o ∈ l, OrientationOk inst o) →
      l.foldlM (tryOrientation inst σ fuel b items) acc = .ok sols →
      sols.length ≤ acc.length + l.length ∧ ∀ s ∈ sols, s ∈ acc ∨
        ∃ ops o nodes, (SolutionBuilder.run inst ops).build inst = .ok s
          ∧ plates s = [⟨b, 1, o, nodes⟩] ∧ OrientationOk inst o
          ∧ SamePlaces (places nodes) (items.map placeOf) := by
    intro l
    induction l with
    | nil =>
      intro acc sols _ h
      cases h
      exact ⟨by simp, fun s hs => .inl hs⟩
    | cons o l ih =>
      intro acc sols ho h
      obtain ⟨acc1, h1, h2⟩ := foldlM_cons_ok.mp h
      obtain ⟨i1, i2⟩ := ih acc1 sols (fun o' h' => ho o' (by simp [h'])) h2
      unfold tryOrientation at h1
      cases ht : tryBuild inst σ fuel b items o with
      | ok s0 =>
        rw [ht] at h1
        cases h1
        obtain ⟨-, ops, nodes, e1, e2, e3⟩ := tryBuild_sound hσ hs (ho o (by simp)).1 ht
        refine ⟨by rw [List.length_append, List.length_singleton] at i1; rw [List.length_cons]; omega,
          ?_⟩
        intro s hs'
        rcases i2 s hs' with hm | hm
        · rcases List.mem_append.mp hm with hm | hm
          · exact .inl hm
          · rw [List.mem_singleton] at hm
            subst hm
            exact .inr ⟨ops, o, nodes, e1, e2, ho o (by simp), e3⟩
        · exact .inr hm
      | error e =>
        rw [ht] at h1
        have : acc1 = acc := by
          cases e <;> first | (cases h1; rfl) | cases h1
        subst this
        exact ⟨by rw [List.length_cons]; omega, i2⟩
  obtain ⟨k1, k2⟩ := key _ _ _ orientations_ok h
  refine ⟨by simpa using k1, fun s hs => ?_⟩
  rcases k2 s hs with h | h
  · cases h
  · exact h

/-- **C117**: items cut by a guillotine pattern are rebuilt, whatever the order in which the sort
leaves equal starts: for each direction of the first cuts the parameters allow there is a solution,
and in the direction of the pattern it needs no more stages than the pattern, so that its number of
stages is the smallest possible.  Partial: the cuts have no thickness, and the stages of a pattern
that cuts nothing are counted as one; see `PostProcessEx.gap_never_returns`. -/
theorem guillotine_solutions_complete_partial (hct : inst.parameters.cutThickness = 0)
    (hσ : ∀ v l, IsSortOf (startsBefore v) l (σ v l)) (hs : ∀ bt ∈ inst.binTypes, Sized bt)
    (ht : TablesOk inst) (hw : inst.parameters.minimumWasteLength ≤ 1)
    (hb : b < inst.numberOfBinTypes) {k : Nat} {v : Bool} {L : List Region}
    (hc : Cuts 0 k v (usable (inst.binType b)) L) (hsub : (items.map reg).Subperm L)
    (hfit : ∀ p ∈ items, Fits inst p) (hfuel : k + 2 ≤ fuel) :
    ∃ sols, buildGuillotineSolutions inst σ fuel b items = .ok sols
      ∧ sols.map (fun s => s.bins.map (·.firstCutOrientation))
        = (if inst.parameters.firstStageOrientation = .any then [[.vertical], [.horizontal]]
          else [[inst.parameters.firstStageOrientation]])
      ∧ ∀ s ∈ sols, ∀ bin ∈ s.bins, bin.numberOfStagesReal
        ≤ if decide (bin.firstCutOrientation = .vertical) = v then max (k : Int) 1 else (k : Int) + 1 := by
  have hne := cuts_region (le_refl _) hc
  have hturn : ∀ v', Cuts 0 (k + 1) v' (usable (inst.binType b)) L := by
    intro v'
    by_cases hv : v' = v
    · rw [hv]; exact cuts_mono hc (by omega)
    · have hv' : v = !v' := by revert hv; cases v <;> cases v' <;> simp
      refine .last (p := (usable (inst.binType b)).high v') (region_low_lt hne) (le_refl _)
        (by omega) ?_
      rw [← hv']
      have : (usable (inst.binType b)).before v' ((usable (inst.binType b)).high v')
          = usable (inst.binType b) := by cases v' <;> rfl
      rw [this]
      exact hc
  have hone : ∀ o : CutOrientation, o ≠ .any → ∃ s bin, tryBuild inst σ fuel b items o = .ok s
      ∧ s.bins = [bin] ∧ bin.firstCutOrientation = o ∧ bin.numberOfStagesReal
        ≤ if decide (o = .vertical) = v then max (k : Int) 1 else (k : Int) + 1 := by
    intro o ho
    by_cases hv : decide (o = .vertical) = v
    · obtain ⟨s, bin, e1, e2, e3, e4⟩ := tryBuild_complete (σ := σ) (items := items) hct hσ hs ht hw
        ho hb (k := max k 1) (by omega) (fuel := fuel) (by omega)
        (by rw [hv]; exact cuts_mono hc (by omega)) hsub hfit
      refine ⟨s, bin, e1, e2, e3, ?_⟩
      rw [if_pos hv]
      push_cast at e4
      exact e4
    · obtain ⟨s, bin, e1, e2, e3, e4⟩ := tryBuild_complete (σ := σ) (items := items) hct hσ hs ht hw
        ho hb (k := k + 1) (by omega) (fuel := fuel) (by omega) (hturn _) hsub hfit
      refine ⟨s, bin, e1, e2, e3, ?_⟩
      rw [if_neg hv]
      push_cast at e4
      exact e4
  have hrun : ∀ (l : List CutOrientation) (acc : List Solution), (∀ o ∈ l, o ≠ .any) →
      ∃ more, l.foldlM (tryOrientation inst σ fuel b items) acc = .ok (acc ++ more)
        ∧ more.map (fun s => s.bins.map (·.firstCutOrientation)) = l.map (fun o => [o])
        ∧ ∀ s ∈ more, ∀ bin ∈ s.bins, bin.numberOfStagesReal
          ≤ if decide (bin.firstCutOrientation = .vertical) = v then max (k : Int) 1
            else (k : Int) + 1 := by
    intro l
    induction l with
    | nil => intro acc _; exact ⟨[], by rw [List.append_nil]; rfl, rfl, by simp⟩
    | cons o l ih =>
      intro acc ho
      obtain ⟨s, bin, e1, e2, e3, e4⟩ := hone o (ho o (by simp))
      obtain ⟨more, m1, m2, m3⟩ := ih (acc ++ [s]) (fun o' h => ho o' (by simp [h]))
      refine ⟨s :: more, ?_, ?_, ?_⟩
      · rw [foldlM_cons_ok]
        refine ⟨acc ++ [s], ?_, by rw [m1]; simp⟩
        unfold tryOrientation
        rw [e1]
      · rw [List.map_cons, List.map_cons, m2, e2, List.map_singleton, e3]
      · intro s' hs' bin' hb'
        rcases List.mem_cons.mp hs' with rfl | hs'
        · rw [e2, List.mem_singleton] at hb'
          rw [hb', e3]
          exact e4
        · exact m3 s' hs' bin' hb'
  obtain ⟨more, m1, m2, m3⟩ := hrun (orientations inst) [] (fun o ho => (orientations_ok o ho).1)
  refine ⟨more, by unfold buildGuillotineSolutions; rw [m1, List.nil_append], ?_, m3⟩
  rw [m2]
  unfold orientations
  cases inst.parameters.firstStageOrientation <;> rfl

/-- **C117**: of the solutions that are rebuilt, the one with the fewest stages is returned; without
any, the empty solution. -/
theorem guillotine_solution_best (h : buildGuillotineSolutions inst σ fuel b items = .ok sols) :
    ∃ s, buildGuillotineSolution inst σ fuel b items = .ok s
      ∧ (sols = [] → s = .init inst)
      ∧ (sols ≠ [] → s ∈ sols)
      ∧ (sols.length ≤ 2 → ∀ s' ∈ sols, s.numberOfStages ≤ s'.numberOfStages) := by
  unfold buildGuillotineSolution
  rw [h]
  match sols with
  | [] => exact ⟨_, rfl, fun _ => rfl, fun h => absurd rfl h, fun _ s' hs' => by cases hs'⟩
  | [s] =>
    refine ⟨_, rfl, (fun h => by cases h), fun _ => by simp, fun _ s' hs' => ?_⟩
    rw [List.mem_singleton] at hs'
    rw [hs']
  | s0 :: s1 :: l =>
    refine ⟨_, rfl, (fun h => by cases h), fun _ => ?_, fun hl s' hs' => ?_⟩
    · split_ifs <;> simp
    · have hnil : l = [] := by
        cases l with
        | nil => rfl
        | cons a l => simp at hl
      subst hnil
      simp only [List.mem_cons, List.not_mem_nil, or_false] at hs'
      split_ifs
      · rcases hs' with rfl | rfl
        · exact le_refl _
        · assumption
      · rcases hs' with rfl | rfl
        · omega
        · exact le_refl _

end

end PackingSolver.Guil
