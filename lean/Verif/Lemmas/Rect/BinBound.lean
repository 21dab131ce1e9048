import Verif.Lemmas.Rect.Clautiaux

/-!
# The strategy of Clautiaux et al.

Lemmas: the loop stops, and its bound never exceeds the number of bins of a packing.
-/

namespace PackingSolver.Rect.DffLemmas

open Dff _root_.PackingSolver.Rect.Spec

variable {inst : Instance}

theorem modified_binTypes (inst : Instance) (d : Int) :
    (modifiedInstance inst d).binTypes ≠ [] := by
  simp [modifiedInstance]

theorem modified_positive (h : Positive inst) (hn : inst.binTypes ≠ []) (d : Int) :
    Positive (modifiedInstance inst d) := by
  have hb := bin0 h hn
  constructor
  · intro it hit
    rcases List.mem_append.1 (show it ∈ dummyItems (inst.binType 0) d ++ doubledItems inst from hit)
      with hit | hit
    · unfold dummyItems at hit
      split_ifs at hit
      all_goals first
        | (cases hit; done)
        | (rw [List.mem_singleton] at hit; subst hit; dsimp only; omega)
    · obtain ⟨i, hi, hit⟩ := List.mem_flatMap.1 hit
      have := h.items i hi
      split_ifs at hit
      · rw [List.mem_singleton] at hit
        subst hit
        dsimp only
        omega
      · rcases List.mem_cons.1 hit with rfl | hit
        · dsimp only
          omega
        · rw [List.mem_singleton] at hit
          subst hit
          dsimp only
          omega
  · intro b hbm
    have e : b = (modifiedInstance inst d).binType 0 := by
      have : b ∈ [modifiedBin inst d] := hbm
      rw [List.mem_singleton] at this
      exact this
    have hdim := modifiedBin_dims inst d
    rw [e]
    omega

/-- The result of a call is a valid bound of its instance. -/
def ValidCall (m : Nat) (r : Option (Except Err Int)) : Prop :=
  ∀ b, r = some (.ok b) → b ≤ m

theorem clautiauxLoop_le (h : Positive inst) (hn : inst.binTypes ≠ [])
    {bins : List (List PlacedItem)} (hp : FullPacking inst bins) (h1 : 1 ≤ bins.length)
    {rec : Instance → Option (Except Err Int)}
    (hrec : ∀ inst' bins', Positive inst' → inst'.binTypes ≠ [] → FullPacking inst' bins' →
      1 ≤ bins'.length → ValidCall bins'.length (rec inst'))
    (passes : Nat) : ∀ (bound : Int), bound ≤ bins.length →
      ValidCall bins.length (clautiauxLoop rec inst passes bound) := by
  induction passes with
  | zero => intro bound _ b hb; cases hb
  | succ passes ih =>
    intro bound hbound b hb
    unfold clautiauxLoop at hb
    obtain ⟨bins', hp', hlen⟩ := modified_full h hn hp hbound
    have hv := hrec _ bins' (modified_positive h hn bound) (modified_binTypes inst bound) hp'
      (by omega)
    cases hr : rec (modifiedInstance inst bound) with
    | none => rw [hr] at hb; cases hb
    | some r =>
      rw [hr] at hb
      cases r with
      | error e => cases hb
      | ok v =>
        dsimp only at hb
        have hv' := hv v hr
        have hv2 : (v - 1).tdiv 2 + 1 ≤ bins.length := by
          rw [hlen] at hv'
          have h3 : (v - 1).tdiv 2 ≤ (bins.length : Int) - 1 := by
            by_cases hv0 : 0 ≤ v - 1
            · rw [Int.tdiv_eq_ediv_of_nonneg hv0]
              push_cast at hv'
              omega
            · have : (v - 1).tdiv 2 ≤ 0 := by
                have e : v - 1 = -(-(v - 1)) := by ring
                rw [e, Int.neg_tdiv, Int.tdiv_eq_ediv_of_nonneg (by omega)]
                omega
              omega
          omega
        split_ifs at hb
        · cases hb; exact hbound
        · cases hb; exact hv2
        · exact ih _ hv2 b hb

theorem binBound_le {undef : Except Err Int} (passes depth : Nat) :
    ∀ (inst : Instance) (bins : List (List PlacedItem)), Positive inst → inst.binTypes ≠ [] →
      FullPacking inst bins → 1 ≤ bins.length → (∀ v, undef = .ok v → v ≤ 0) →
      ValidCall bins.length (binBound undef passes depth inst) := by
  induction depth with
  | zero => intro inst bins _ _ _ _ _ b hb; cases hb
  | succ depth ih =>
    intro inst bins h hn hp h1 hu b hb
    have hsweep : ∀ v, sweepBins undef inst = .ok v → v ≤ bins.length := fun v hv =>
      sweepBins_le h hn (fun v hv => (hu v hv).trans (by positivity)) hp hv
    unfold binBound at hb
    by_cases ho : inst.allItemTypesOriented = true
    · rw [if_pos ho] at hb
      exact hsweep b (Option.some.inj hb)
    · rw [if_neg ho] at hb
      cases hc : clautiauxLoop (binBound undef passes depth) inst passes 0 with
      | none => rw [hc] at hb; cases hb
      | some r =>
        rw [hc] at hb
        cases r with
        | error e => cases hb
        | ok c =>
          dsimp only at hb
          have hc' := clautiauxLoop_le h hn hp h1
            (fun inst' bins' a1 a2 a3 a4 => ih inst' bins' a1 a2 a3 a4 hu) passes 0
            (by positivity) c hc
          obtain ⟨v, hv, hb⟩ := bind_ok.1 (Option.some.inj hb)
          cases hb
          exact max_le (hsweep v hv) hc'

/-! ## The loop stops -/

/-- The call ends without an error. -/
def Ends (r : Option (Except Err Int)) : Prop := ∃ b, r = some (.ok b)

theorem clautiauxLoop_ends_square {rec : Instance → Option (Except Err Int)}
    (hsq : (inst.binType 0).x = (inst.binType 0).y) (hrec : ∀ d, Ends (rec (modifiedInstance inst d)))
    {passes : Nat} (hpass : 1 ≤ passes) (bound : Int) :
    Ends (clautiauxLoop rec inst passes bound) := by
  obtain ⟨p, rfl⟩ : ∃ p, passes = p + 1 := ⟨passes - 1, by omega⟩
  obtain ⟨b, hb⟩ := hrec bound
  unfold clautiauxLoop
  rw [hb]
  dsimp only
  rw [if_pos hsq]
  split_ifs
  · exact ⟨_, rfl⟩
  · exact ⟨_, rfl⟩

theorem clautiauxLoop_ends (h : Positive inst) (hn : inst.binTypes ≠ [])
    {bins : List (List PlacedItem)} (hp : FullPacking inst bins) (h1 : 1 ≤ bins.length)
    {rec : Instance → Option (Except Err Int)}
    (hrec : ∀ inst' bins', Positive inst' → inst'.binTypes ≠ [] → FullPacking inst' bins' →
      1 ≤ bins'.length → ValidCall bins'.length (rec inst'))
    (hends : ∀ d, Ends (rec (modifiedInstance inst d))) (passes : Nat) :
    ∀ (bound : Int), bound ≤ bins.length → bins.length - bound < passes →
      Ends (clautiauxLoop rec inst passes bound) := by
  induction passes with
  | zero => intro bound h2 h3; omega
  | succ passes ih =>
    intro bound hbound hlt
    obtain ⟨b, hb⟩ := hends bound
    have hle : ∀ v, clautiauxLoop rec inst 1 bound = some (.ok v) → v ≤ bins.length :=
      clautiauxLoop_le h hn hp h1 hrec 1 bound hbound
    obtain ⟨bins', hp', hlen⟩ := modified_full h hn hp hbound
    have hv := hrec _ bins' (modified_positive h hn bound) (modified_binTypes inst bound) hp'
      (by omega) b hb
    unfold clautiauxLoop
    rw [hb]
    dsimp only
    split_ifs with h2 h3
    · exact ⟨_, rfl⟩
    · exact ⟨_, rfl⟩
    · apply ih
      · rw [hlen] at hv
        by_cases hv0 : 0 ≤ b - 1
        · rw [Int.tdiv_eq_ediv_of_nonneg hv0]
          push_cast at hv
          omega
        · have : (b - 1).tdiv 2 ≤ 0 := by
            have e : b - 1 = -(-(b - 1)) := by ring
            rw [e, Int.neg_tdiv, Int.tdiv_eq_ediv_of_nonneg (by omega)]
            omega
          omega
      · push_cast at hlt
        omega

theorem binBound_oriented {u : Int} (h : Positive inst) (hn : inst.binTypes ≠ [])
    (ho : inst.allItemTypesOriented = true) (passes depth : Nat) :
    Ends (binBound (.ok u) passes (depth + 1) inst) := by
  unfold binBound
  rw [if_pos ho]
  obtain ⟨v, hv⟩ := sweepBins_ok (u := u) h hn
  exact ⟨v, by rw [hv]⟩

theorem doubled_oriented (inst : Instance) : ∀ it ∈ doubledItems inst, it.oriented = true := by
  intro it hit
  obtain ⟨i, hi, hit⟩ := List.mem_flatMap.1 hit
  split_ifs at hit
  · rw [List.mem_singleton] at hit
    subst hit
    rfl
  · rcases List.mem_cons.1 hit with rfl | hit
    · rfl
    · rw [List.mem_singleton] at hit
      subst hit
      rfl

theorem binBound_square {u : Int} (h : Positive inst) (hn : inst.binTypes ≠ [])
    (hsq : (inst.binType 0).x = (inst.binType 0).y) {passes : Nat} (hpass : 1 ≤ passes)
    (depth : Nat) : Ends (binBound (.ok u) passes (depth + 2) inst) := by
  by_cases ho : inst.allItemTypesOriented = true
  · exact binBound_oriented h hn ho passes (depth + 1)
  · have hends : ∀ d, Ends (binBound (.ok u) passes (depth + 1) (modifiedInstance inst d)) := by
      intro d
      apply binBound_oriented (modified_positive h hn d) (modified_binTypes inst d)
      have e : (modifiedInstance inst d).itemTypes = doubledItems inst := by
        show dummyItems (inst.binType 0) d ++ doubledItems inst = _
        unfold dummyItems
        rw [if_pos hsq]
        rfl
      unfold Instance.allItemTypesOriented
      rw [e, List.all_eq_true]
      exact doubled_oriented inst
    obtain ⟨c, hc⟩ := clautiauxLoop_ends_square hsq hends hpass 0
    obtain ⟨v, hv⟩ := sweepBins_ok (u := u) h hn
    unfold binBound
    rw [if_neg ho, hc]
    dsimp only
    rw [hv]
    exact ⟨_, rfl⟩

theorem binBound_ends {u : Int} (hu : u ≤ 0) (h : Positive inst) (hn : inst.binTypes ≠ [])
    {bins : List (List PlacedItem)} (hp : FullPacking inst bins) (h1 : 1 ≤ bins.length)
    {passes : Nat} (hpass : bins.length < passes) (depth : Nat) :
    Ends (binBound (.ok u) passes (depth + 3) inst) := by
  by_cases ho : inst.allItemTypesOriented = true
  · exact binBound_oriented h hn ho passes (depth + 2)
  · have hends : ∀ d, Ends (binBound (.ok u) passes (depth + 2) (modifiedInstance inst d)) := by
      intro d
      apply binBound_square (modified_positive h hn d) (modified_binTypes inst d) ?_ (by omega)
      rw [(modifiedBin_dims inst d).1, (modifiedBin_dims inst d).2]
    obtain ⟨c, hc⟩ := clautiauxLoop_ends h hn hp h1
      (fun inst' bins' a1 a2 a3 a4 => binBound_le passes (depth + 2) inst' bins' a1 a2 a3 a4
        (fun v hv => by cases hv; exact hu)) hends passes 0 (by positivity) (by omega)
    obtain ⟨v, hv⟩ := sweepBins_ok (u := u) h hn
    unfold binBound
    rw [if_neg ho, hc]
    dsimp only
    rw [hv]
    exact ⟨_, rfl⟩

end PackingSolver.Rect.DffLemmas
