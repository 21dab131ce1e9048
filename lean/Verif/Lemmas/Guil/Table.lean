import Verif.Model.Guil.Hypergraph
import Verif.Spec.GuillotinePattern
import Verif.Lemmas.Except
import Verif.Lemmas.Guil.InstStacks
import Mathlib.Tactic.Linarith
import Mathlib.Tactic.Ring

/-!
# Lemmas about tables indexed by boxes
-/

namespace PackingSolver.Guil

open Guil.Spec

/-- The box `a × b` belongs to a table for `W × H`. -/
def InTable (W H a b : Int) : Prop := 0 ≤ a ∧ a ≤ W ∧ 0 ≤ b ∧ b ≤ H

/-- The table has the right size. -/
def IsTable {α : Type} (W H : Int) (tbl : List α) : Prop :=
  tbl.length = ((W + 1) * (H + 1)).toNat

/-- The entry of a box. -/
def entry {α : Type} (d : α) (W : Int) (tbl : List α) (a b : Int) : α :=
  tbl.getD (cellIndex W a b).toNat d

theorem cell_range {W H a b : Int} (h : InTable W H a b) :
    0 ≤ cellIndex W a b ∧ cellIndex W a b < (W + 1) * (H + 1) := by
  obtain ⟨h1, h2, h3, h4⟩ := h
  unfold cellIndex
  constructor
  · have : 0 ≤ (W + 1) * b := mul_nonneg (by omega) h3
    omega
  · have : (W + 1) * b ≤ (W + 1) * H := mul_le_mul_of_nonneg_left h4 (by omega)
    have e : (W + 1) * (H + 1) = (W + 1) * H + (W + 1) := by ring
    omega

theorem cell_inj {W H a b a' b' : Int} (h : InTable W H a b) (h' : InTable W H a' b')
    (e : (cellIndex W a b).toNat = (cellIndex W a' b').toNat) : a = a' ∧ b = b' := by
  have e1 : cellIndex W a b = cellIndex W a' b' := by
    have := (cell_range h).1
    have := (cell_range h').1
    omega
  obtain ⟨h1, h2, h3, h4⟩ := h
  obtain ⟨h1', h2', h3', h4'⟩ := h'
  unfold cellIndex at e1
  have hb : b = b' := by
    rcases lt_trichotomy b b' with hlt | heq | hgt
    · exfalso
      have : (W + 1) * (b + 1) ≤ (W + 1) * b' := mul_le_mul_of_nonneg_left (by omega) (by omega)
      have e : (W + 1) * (b + 1) = (W + 1) * b + (W + 1) := by ring
      omega
    · exact heq
    · exfalso
      have : (W + 1) * (b' + 1) ≤ (W + 1) * b := mul_le_mul_of_nonneg_left (by omega) (by omega)
      have e : (W + 1) * (b' + 1) = (W + 1) * b' + (W + 1) := by ring
      omega
  subst hb
  exact ⟨by omega, rfl⟩

section
variable {α : Type} {d : α} {W H : Int} {tbl : List α}

theorem cell_lt (ht : IsTable W H tbl) {a b : Int} (h : InTable W H a b) :
    (cellIndex W a b).toNat < tbl.length := by
  have := cell_range h
  unfold IsTable at ht
  omega

theorem read_ok (d : α) (ht : IsTable W H tbl) {a b : Int} (h : InTable W H a b) :
    tableRead tbl W a b = .ok (entry d W tbl a b) := by
  unfold tableRead entry
  rw [if_pos (cell_range h).1, List.getElem?_eq_getElem (cell_lt ht h)]
  simp [List.getD_eq_getElem?_getD, List.getElem?_eq_getElem (cell_lt ht h)]

theorem entryIs_entry (d : α) (ht : IsTable W H tbl) {a b : Int} (h : InTable W H a b) :
    EntryIs tbl W a b (entry d W tbl a b) := by
  unfold EntryIs entry
  have h1 := cell_range h
  have h2 := cell_lt ht h
  unfold cellIndex at h1 h2 ⊢
  refine ⟨h1.1, ?_⟩
  rw [List.getElem?_eq_getElem h2, List.getD_eq_getElem?_getD, List.getElem?_eq_getElem h2]
  rfl

theorem entryIs_unique {a b : Int} {v v' : α} (h : EntryIs tbl W a b v) (h' : EntryIs tbl W a b v') :
    v = v' := by
  have := h.2.symm.trans h'.2
  exact Option.some.inj this

theorem entry_of_entryIs {a b : Int} {v : α} (h : EntryIs tbl W a b v) : entry d W tbl a b = v := by
  unfold entry cellIndex
  rw [List.getD_eq_getElem?_getD, h.2]
  rfl

theorem isTable_raise [Max α] (ht : IsTable W H tbl) (a b : Int) (v : α) :
    IsTable W H (tableRaise tbl W a b v) := by
  unfold IsTable tableRaise at *
  rw [List.length_modify, ht]

theorem entry_raise_same [Max α] (ht : IsTable W H tbl) {a b : Int} (h : InTable W H a b) (v : α) :
    entry d W (tableRaise tbl W a b v) a b = max (entry d W tbl a b) v := by
  have h2 := cell_lt ht h
  unfold entry tableRaise
  simp [List.getD_eq_getElem?_getD, List.getElem?_eq_getElem h2]

theorem entry_raise_other [Max α] {a b a' b' : Int} (h : InTable W H a b)
    (h' : InTable W H a' b') (hne : ¬ (a = a' ∧ b = b')) (v : α) :
    entry d W (tableRaise tbl W a b v) a' b' = entry d W tbl a' b' := by
  have h2 : (cellIndex W a b).toNat ≠ (cellIndex W a' b').toNat := fun e => hne (cell_inj h h' e)
  unfold entry tableRaise
  simp [List.getD_eq_getElem?_getD, h2]

end

/-- The entry of `w × h` was raised to the maximum of itself and the values in `S`, and nothing
else has changed. -/
structure RaisedBy {α : Type} [LinearOrder α] (d : α) (W H w h : Int) (S : α → Prop)
    (t0 t1 : List α) : Prop where
  table : IsTable W H t1
  other : ∀ a b, InTable W H a b → ¬ (w = a ∧ h = b) → entry d W t1 a b = entry d W t0 a b
  start : entry d W t0 w h ≤ entry d W t1 w h
  ge : ∀ v, S v → v ≤ entry d W t1 w h
  attained : entry d W t1 w h = entry d W t0 w h ∨ S (entry d W t1 w h)

section
variable {α : Type} [LinearOrder α] {d : α} {W H w h : Int} {t0 t1 t2 : List α} {S S' : α → Prop}

theorem RaisedBy.refl (ht : IsTable W H t0) : RaisedBy d W H w h (fun _ => False) t0 t0 :=
  ⟨ht, fun _ _ _ _ => rfl, le_refl _, fun _ h => h.elim, Or.inl rfl⟩

theorem RaisedBy.raise (ht : IsTable W H t0) (hin : InTable W H w h) (v : α) :
    RaisedBy d W H w h (fun x => x = v) t0 (tableRaise t0 W w h v) where
  table := isTable_raise ht _ _ _
  other := fun _ _ h1 h2 => entry_raise_other hin h1 h2 v
  start := by rw [entry_raise_same ht hin]; exact le_max_left _ _
  ge := by rintro x rfl; rw [entry_raise_same ht hin]; exact le_max_right _ _
  attained := by
    rw [entry_raise_same ht hin]
    rcases le_total (entry d W t0 w h) v with h1 | h1
    · exact Or.inr (max_eq_right h1)
    · exact Or.inl (max_eq_left h1)

theorem RaisedBy.trans (h1 : RaisedBy d W H w h S t0 t1) (h2 : RaisedBy d W H w h S' t1 t2) :
    RaisedBy d W H w h (fun v => S v ∨ S' v) t0 t2 where
  table := h2.table
  other := fun a b hi hn => (h2.other a b hi hn).trans (h1.other a b hi hn)
  start := le_trans h1.start h2.start
  ge := by
    rintro v (hv | hv)
    · exact le_trans (h1.ge v hv) h2.start
    · exact h2.ge v hv
  attained := by
    rcases h2.attained with e | e
    · rw [e]
      rcases h1.attained with e' | e'
      · exact Or.inl e'
      · exact Or.inr (Or.inl e')
    · exact Or.inr (Or.inr e)

theorem RaisedBy.congr (h1 : RaisedBy d W H w h S t0 t1) (e : ∀ v, S v ↔ S' v) :
    RaisedBy d W H w h S' t0 t1 :=
  ⟨h1.table, h1.other, h1.start, fun v hv => h1.ge v ((e v).mpr hv),
    h1.attained.imp id (fun x => (e _).mp x)⟩

/-- A loop whose iteration `k` raises the entry to at least `f k`, read from other entries. -/
theorem raisedBy_loop {ε : Type} {n : Nat} {step : List α → Nat → Except ε (List α)}
    (f : Nat → α) (ht : IsTable W H t0)
    (hstep : ∀ k t1 S, k < n → RaisedBy d W H w h S t0 t1 →
      ∃ t2, step t1 k = .ok t2 ∧ RaisedBy d W H w h (fun x => x = f k) t1 t2) :
    ∃ t1, (List.range n).foldlM step t0 = .ok t1
      ∧ RaisedBy d W H w h (fun v => ∃ k, k < n ∧ v = f k) t0 t1 := by
  refine foldlM_range_ok (P := fun k t1 => RaisedBy d W H w h (fun v => ∃ i, i < k ∧ v = f i) t0 t1)
    ((RaisedBy.refl ht).congr fun v => ?_) ?_
  · constructor
    · intro h; exact h.elim
    · rintro ⟨i, hi, _⟩; omega
  · intro k t1 hk h1
    obtain ⟨t2, e2, h2⟩ := hstep k t1 _ hk h1
    refine ⟨t2, e2, (h1.trans h2).congr fun v => ?_⟩
    constructor
    · rintro (⟨i, hi, e⟩ | e)
      · exact ⟨i, by omega, e⟩
      · exact ⟨k, by omega, e⟩
    · rintro ⟨i, hi, e⟩
      by_cases hik : i = k
      · exact Or.inr (hik ▸ e)
      · exact Or.inl ⟨i, by omega, e⟩

end

end PackingSolver.Guil
