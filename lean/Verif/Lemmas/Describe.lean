import Verif.Spec.Describe
import Mathlib.Data.List.Induction
import Mathlib.Tactic.Common

/-!
# Lists of types under construction

A list that grows by `adds` and whose entries are changed by `upd`, as a function of the history.
-/

namespace PackingSolver

open Spec

variable {O T D α : Type} (adds : O → Option D) (upd : O → Nat → Option (T → T)) (mk : D → T)

/-- The changes of entry `i` made by a history, applied to the initial entry. -/
def entryOf (ops : List O) (i : Nat) (d : D) : T :=
  (ops.filterMap fun op => upd op i).foldl (fun t f => f t) (mk d)

/-- The list is the one described by the history, and the history does not mention entries that do not
exist. -/
structure Described (ops : List O) (l : List T) : Prop where
  length : l.length = (allGiven adds ops).length
  entry : ∀ i d, (allGiven adds ops)[i]? = some d → l[i]? = some (entryOf upd mk ops i d)
  fresh : ∀ op ∈ ops, ∀ i, (allGiven adds ops).length ≤ i → upd op i = none

variable {adds upd mk}

theorem described_nil : Described adds upd mk [] [] :=
  ⟨rfl, fun i d h => by simp [allGiven] at h, fun _ h => by simp at h⟩

theorem entryOf_fresh {ops : List O} {l : List T} (h : Described adds upd mk ops l) {i : Nat}
    (hi : l.length ≤ i) (d : D) : entryOf upd mk ops i d = mk d := by
  unfold entryOf
  have : (ops.filterMap fun op => upd op i) = [] := by
    rw [List.filterMap_eq_nil_iff]
    intro op hop
    exact h.fresh op hop i (by rw [← h.length]; exact hi)
  rw [this]; rfl

theorem entryOf_snoc (ops : List O) (op : O) (i : Nat) (d : D) :
    entryOf upd mk (ops ++ [op]) i d
      = ((upd op i).getD id) (entryOf upd mk ops i d) := by
  unfold entryOf
  rw [List.filterMap_append, List.foldl_append]
  cases h : upd op i <;> simp [h]

/-- A call that adds an entry. -/
theorem described_add {ops : List O} {l : List T} (h : Described adds upd mk ops l) {op : O} {d : D}
    (ha : adds op = some d) (hu : ∀ i, upd op i = none) :
    Described adds upd mk (ops ++ [op]) (l ++ [mk d]) := by
  have e : allGiven adds (ops ++ [op]) = allGiven adds ops ++ [d] := by
    simp [allGiven, List.filterMap_append, ha]
  refine ⟨by rw [e]; simp [h.length], ?_, ?_⟩
  · intro i d' hd
    rw [e] at hd
    rw [entryOf_snoc, hu]
    by_cases hi : i < (allGiven adds ops).length
    · rw [List.getElem?_append_left hi] at hd
      rw [List.getElem?_append_left (by rw [h.length]; exact hi)]
      exact h.entry i d' hd
    · rw [List.getElem?_append_right (by omega)] at hd
      have hi' : i = (allGiven adds ops).length := by
        by_contra hne
        rw [List.getElem?_eq_none (by simp; omega)] at hd
        cases hd
      subst hi'
      simp at hd
      subst hd
      rw [← h.length, entryOf_fresh h (Nat.le_refl _)]
      simp
  · intro op' hop i hi
    rw [e, List.length_append, List.length_singleton] at hi
    rw [List.mem_append, List.mem_singleton] at hop
    rcases hop with hop | rfl
    · exact h.fresh op' hop i (by omega)
    · exact hu i

/-- A call that changes entries that exist. -/
theorem described_upd {ops : List O} {l l' : List T} (h : Described adds upd mk ops l) {op : O}
    (ha : adds op = none) (hlen : l'.length = l.length)
    (hl : ∀ i, l'[i]? = l[i]?.map ((upd op i).getD id)) (hf : ∀ i, l.length ≤ i → upd op i = none) :
    Described adds upd mk (ops ++ [op]) l' := by
  have e : allGiven adds (ops ++ [op]) = allGiven adds ops := by
    simp [allGiven, List.filterMap_append, ha]
  refine ⟨by rw [e, hlen, h.length], ?_, ?_⟩
  · intro i d hd
    rw [e] at hd
    rw [entryOf_snoc, hl, h.entry i d hd]
    rfl
  · intro op' hop i hi
    rw [e] at hi
    rw [List.mem_append, List.mem_singleton] at hop
    rcases hop with hop | rfl
    · exact h.fresh op' hop i hi
    · exact hf i (by rw [h.length]; exact hi)

/-- A call that changes nothing. -/
theorem described_skip {ops : List O} {l : List T} (h : Described adds upd mk ops l) {op : O}
    (ha : adds op = none) (hu : ∀ i, upd op i = none) : Described adds upd mk (ops ++ [op]) l :=
  described_upd h ha rfl (fun i => by rw [hu]; simp) (fun i _ => hu i)

/-- A call that changes entry `k`. -/
theorem described_set {ops : List O} {l : List T} (h : Described adds upd mk ops l) {op : O} {k : Nat}
    {f : T → T} {t : T} (ha : adds op = none) (hu : ∀ i, upd op i = if i = k then some f else none)
    (hk : l[k]? = some t) : Described adds upd mk (ops ++ [op]) (l.set k (f t)) := by
  have hlt : k < l.length := by
    by_contra hc
    rw [List.getElem?_eq_none (by omega)] at hk
    cases hk
  refine described_upd h ha (by simp) ?_ ?_
  · intro i
    by_cases hi : i = k
    · subst hi
      rw [List.getElem?_set_self hlt, hk, hu, if_pos rfl]; rfl
    · rw [List.getElem?_set_ne (fun e => hi e.symm), hu, if_neg hi]; simp
  · intro i hi
    rw [hu, if_neg (by omega)]

/-! ## Attributes -/

theorem lastGiven_snoc (g : O → Option α) (ops : List O) (op : O) :
    lastGiven g (ops ++ [op]) = (g op).or (lastGiven g ops) := by
  unfold lastGiven
  rw [List.filterMap_append]
  cases h : g op <;> simp [h]

theorem allGiven_snoc (g : O → Option α) (ops : List O) (op : O) :
    allGiven g (ops ++ [op]) = allGiven g ops ++ (g op).toList := by
  unfold allGiven
  rw [List.filterMap_append]
  cases h : g op <;> simp [h]

/-- An attribute that every change either sets to a given value or leaves as it is. -/
theorem entryOf_last (A : T → α) (g : O → Option α) (P : T → Prop) (i : Nat) (d : D) (hP : P (mk d))
    (h : ∀ op f, upd op i = some f → ∀ t, P t → P (f t) ∧ A (f t) = (g op).getD (A t))
    (h0 : ∀ op, upd op i = none → g op = none) (ops : List O) :
    P (entryOf upd mk ops i d)
    ∧ A (entryOf upd mk ops i d) = (lastGiven g ops).getD (A (mk d)) := by
  induction ops using List.reverseRecOn with
  | nil => exact ⟨hP, rfl⟩
  | append_singleton ops op ih =>
    rw [entryOf_snoc, lastGiven_snoc]
    cases hu : upd op i with
    | none => rw [h0 op hu]; exact ⟨ih.1, by simpa using ih.2⟩
    | some f =>
      obtain ⟨h1, h2⟩ := h op f hu _ ih.1
      refine ⟨h1, ?_⟩
      change A (f _) = _
      rw [h2, ih.2]
      cases g op <;> rfl

/-- An attribute to which every change appends something. -/
theorem entryOf_all {β : Type} (A : T → List β) (g : O → Option β) (i : Nat) (d : D)
    (h : ∀ op f, upd op i = some f → ∀ t, A (f t) = A t ++ (g op).toList)
    (h0 : ∀ op, upd op i = none → g op = none) (ops : List O) :
    A (entryOf upd mk ops i d) = A (mk d) ++ allGiven g ops := by
  induction ops using List.reverseRecOn with
  | nil => simp [entryOf, allGiven]
  | append_singleton ops op ih =>
    rw [entryOf_snoc]
    unfold allGiven at ih ⊢
    rw [List.filterMap_append]
    cases hu : upd op i with
    | none => rw [List.filterMap_cons, h0 op hu]; simpa using ih
    | some f =>
      change A (f _) = _
      rw [h op f hu, ih, List.append_assoc]
      congr 1

end PackingSolver
