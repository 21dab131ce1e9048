import Verif.Model.Basic
import Verif.Lemmas.Describe
import Mathlib.Data.List.GetD
import Mathlib.Tactic.Linarith

/-!
# Schedules of resource consumptions as functions of the consumptions given
-/

namespace PackingSolver

open Spec

theorem getD_modify_self {α : Type} (l : List α) (f : α → α) (d : α) {m : Nat} (h : m < l.length) :
    (l.modify m f).getD m d = f (l.getD m d) := by
  simp [List.getD_eq_getElem?_getD, h]

theorem getD_modify_ne {α : Type} (l : List α) (f : α → α) (d : α) {m r : Nat} (h : r ≠ m) :
    (l.modify m f).getD r d = l.getD r d := by
  rw [List.getD_eq_getElem?_getD, List.getElem?_modify, List.getD_eq_getElem?_getD]
  cases l[r]? with
  | none => rfl
  | some x => simp [Ne.symm h]

/-- The consumptions stored for an item type. -/
def schedOf (R : Resource) (j : Nat) : List ℚ := R.itemConsumptions.getD j []

theorem schedOf_add (R : Resource) (j' c : Nat) (q : ℚ) (j : Nat) :
    schedOf (R.addConsumption j' c q) j
      = if j = j' then (growTo 0 (c + 1) (schedOf R j')).set c q else schedOf R j := by
  have e1 : ∀ (l : List (List ℚ)) (i : Nat),
      (if j' ≥ l.length then growTo [] (j' + 1) l else l).getD i [] = l.getD i [] := by
    intro l i
    by_cases h : j' ≥ l.length
    · rw [if_pos h, List.getD_eq_getElem?_getD, List.getD_eq_getElem?_getD]
      unfold growTo
      rw [List.getElem?_append]
      by_cases hi : i < l.length
      · rw [if_pos hi]
      · rw [if_neg hi, List.getElem?_replicate, List.getElem?_eq_none (by omega : l.length ≤ i)]
        split_ifs <;> rfl
    · rw [if_neg h]
  have e2 : ∀ (s : List ℚ), (if c ≥ s.length then growTo 0 (c + 1) s else s) = growTo 0 (c + 1) s := by
    intro s
    by_cases h : c ≥ s.length
    · rw [if_pos h]
    · rw [if_neg h]; unfold growTo
      rw [show c + 1 - s.length = 0 by omega]; simp
  have hl : j' < (if j' ≥ R.itemConsumptions.length then growTo [] (j' + 1) R.itemConsumptions
      else R.itemConsumptions).length := by
    split_ifs with h
    · unfold growTo; simp; omega
    · omega
  unfold schedOf Resource.addConsumption
  simp only [e1, e2]
  by_cases hj : j = j'
  · subst hj
    rw [if_pos rfl, List.getD_eq_getElem?_getD, List.getElem?_set, if_pos rfl, if_pos hl]; rfl
  · rw [if_neg hj, List.getD_eq_getElem?_getD, List.getElem?_set, if_neg (fun e => hj e.symm),
      ← List.getD_eq_getElem?_getD, e1]

/-- The schedule written by consumptions given in turn. -/
def writeAll (l : List (Nat × ℚ)) : List ℚ :=
  l.foldl (fun s p => (growTo 0 (p.1 + 1) s).set p.1 p.2) []

theorem writeAll_snoc (l : List (Nat × ℚ)) (p : Nat × ℚ) :
    writeAll (l ++ [p]) = (growTo 0 (p.1 + 1) (writeAll l)).set p.1 p.2 := by
  unfold writeAll; rw [List.foldl_append]; rfl

theorem maxCopy_snoc (l : List (Nat × ℚ)) (p : Nat × ℚ) :
    maxCopy (l ++ [p]) = max (maxCopy l) p.1 := by
  unfold maxCopy
  induction l with
  | nil => simp
  | cons a l ih => simp only [List.cons_append, List.map_cons, List.foldr_cons]; rw [ih]; omega

theorem writeAll_spec (l : List (Nat × ℚ)) :
    (writeAll l).length = (if l = [] then 0 else maxCopy l + 1)
    ∧ ∀ c, (writeAll l).getD c 0
      = ((l.filter (fun p => decide (p.1 = c))).getLast?.map (·.2)).getD 0 := by
  induction l using List.reverseRecOn with
  | nil => exact ⟨rfl, fun c => by simp [writeAll]⟩
  | append_singleton l p ih =>
    rw [writeAll_snoc]
    have hg : ∀ c, (growTo 0 (p.1 + 1) (writeAll l)).getD c 0 = (writeAll l).getD c 0 := by
      intro c
      unfold growTo
      rw [List.getD_eq_getElem?_getD, List.getD_eq_getElem?_getD, List.getElem?_append]
      by_cases hi : c < (writeAll l).length
      · rw [if_pos hi]
      · rw [if_neg hi, List.getElem?_replicate, List.getElem?_eq_none (by omega : _ ≤ c)]
        split_ifs <;> rfl
    have hlen : (growTo 0 (p.1 + 1) (writeAll l)).length = max (p.1 + 1) (writeAll l).length := by
      unfold growTo; simp; omega
    refine ⟨?_, ?_⟩
    · rw [List.length_set, hlen, ih.1, maxCopy_snoc,
        if_neg (List.append_ne_nil_of_right_ne_nil l (List.cons_ne_nil p []))]
      by_cases hl : l = []
      · subst hl; simp [maxCopy]
      · rw [if_neg hl]; omega
    · intro c
      rw [List.filter_append]
      by_cases hc : p.1 = c
      · subst hc
        rw [List.getD_eq_getElem?_getD, List.getElem?_set, if_pos rfl, if_pos (by rw [hlen]; omega)]
        simp
      · rw [List.getD_eq_getElem?_getD, List.getElem?_set, if_neg hc, ← List.getD_eq_getElem?_getD, hg,
          ih.2]
        simp [hc]

/-- The consumption read from a schedule written in turn is the one given. -/
theorem itemConsumption_of_schedule {R : Resource} {j : Nat} {l : List (Nat × ℚ)}
    (h : schedOf R j = writeAll l) (c : Nat) : R.itemConsumption j c = consumptionOf l c := by
  obtain ⟨hlen, hget⟩ := writeAll_spec l
  unfold schedOf at h
  unfold Resource.itemConsumption consumptionOf
  by_cases hl : l = []
  · rw [if_pos hl]
    have : R.itemConsumptions.getD j [] = [] := by
      rw [h, hl]; rfl
    simp only [this]
    split_ifs <;> rfl
  · rw [if_neg hl]
    rw [if_neg hl] at hlen
    have hj : ¬ j ≥ R.itemConsumptions.length := by
      intro hj
      rw [List.getD_eq_default _ _ hj] at h
      rw [← h] at hlen
      simp at hlen
    rw [if_neg hj]
    simp only [h]
    have hne : writeAll l ≠ [] := by
      intro e; rw [e] at hlen; simp at hlen
    rw [if_neg (by simp [hne])]
    by_cases hc : c < (writeAll l).length
    · rw [if_pos hc, hget, Nat.min_eq_left (by omega)]
    · rw [if_neg hc, Nat.min_eq_right (by omega), ← hget]
      have e : (writeAll l).length - 1 = maxCopy l := by omega
      rw [← e, List.getLastD_eq_getLast?, List.getLast?_eq_getElem?, List.getD_eq_getElem?_getD]

end PackingSolver
