import Verif.Spec.Bulk
import Verif.Lemmas.Rect.Scales

/-! Helper lemmas about the calls that set a field of all types at once. -/

namespace PackingSolver.BulkLemmas

open PackingSolver.Spec

theorem foldl_max {α : Type} (f : α → Int) (l : List α) (m : Int) :
    m ≤ l.foldl (fun m t => max m (f t)) m
    ∧ (∀ t ∈ l, f t ≤ l.foldl (fun m t => max m (f t)) m)
    ∧ (l.foldl (fun m t => max m (f t)) m = m ∨ ∃ t ∈ l, l.foldl (fun m t => max m (f t)) m = f t) := by
  induction l generalizing m with
  | nil => simp
  | cons a l ih =>
    obtain ⟨h1, h2, h3⟩ := ih (max m (f a))
    rw [List.foldl_cons]
    refine ⟨by omega, ?_, ?_⟩
    · intro t ht
      rcases List.mem_cons.mp ht with rfl | ht
      · omega
      · exact h2 t ht
    · rcases h3 with h3 | ⟨t, ht, h3⟩
      · rcases max_choice m (f a) with h4 | h4
        · left; omega
        · right; exact ⟨a, by simp, by omega⟩
      · right; exact ⟨t, by simp [ht], h3⟩

/-- The number of copies computed by `set_item_types_infinite_copies`. -/
theorem least_cover {α : Type} (f : α → Int) (l : List α) {a : Int} (ha : 0 < a)
    (hl : ∃ t ∈ l, 0 < f t) :
    IsLeastCover (l.map f) a ((l.foldl (fun m t => max m (f t)) 0 - 1).tdiv a + 1) := by
  obtain ⟨h1, h2, h3⟩ := foldl_max f l 0
  obtain ⟨t, ht, h0⟩ := hl
  have h4 := h2 t ht
  generalize l.foldl (fun m t => max m (f t)) 0 = m at *
  have key : ∀ c, (m - 1).tdiv a + 1 ≤ c ↔ m ≤ c * a := by
    intro c
    rw [Int.tdiv_eq_ediv_of_nonneg (by omega)]
    have h : (m - 1) / a < c ↔ m - 1 < c * a := Int.ediv_lt_iff_lt_mul ha
    omega
  constructor
  · intro s hs
    obtain ⟨u, hu, rfl⟩ := List.mem_map.mp hs
    exact le_trans (h2 u hu) ((key _).mp (le_refl _))
  · intro c' hc
    rw [key]
    rcases h3 with h3 | ⟨u, hu, h3⟩
    · omega
    · rw [h3]; exact hc _ (List.mem_map.mpr ⟨u, hu, rfl⟩)

theorem getD_map_lt {α : Type} {f : α → α} {l : List α} {i : Nat} (d : α) (h : i < l.length) :
    (l.map f).getD i d = f (l.getD i d) := by
  rw [List.getD_eq_getElem _ _ (by simpa using h), List.getD_eq_getElem _ _ h, List.getElem_map]

theorem foldl_add_int {α : Type} (f : α → Int) (l : List α) (a : Int) :
    l.foldl (fun acc i => acc + f i) a = a + (l.map f).sum := by
  induction l generalizing a with
  | nil => simp
  | cons x l ih => rw [List.foldl_cons, ih, List.map_cons, List.sum_cons]; ring

/-- A valid row is not longer than all copies along their longest sides. -/
theorem row_le {α : Type} (its : List α) (d : α) (copies longest : α → Int) (r : Row)
    (sides : Nat → List Int)
    (hr : r.Valid its.length (fun i => copies (its.getD i d)) sides)
    (hm : ∀ t ∈ its, 0 ≤ longest t)
    (hs : ∀ i < its.length, ∀ s ∈ sides i, s ≤ longest (its.getD i d)) :
    r.length ≤ (its.map fun t => copies t * longest t).sum := by
  have h1 : r.length ≤ ((r.items.map (·.1)).map fun i => longest (its.getD i d)).sum := by
    unfold Row.length
    rw [List.map_map]
    apply List.sum_le_sum
    intro p hp
    obtain ⟨h2, h3⟩ := hr.side p hp
    exact hs _ h2 _ h3
  refine le_trans h1 ?_
  rw [Rect.ScaleLemmas.sum_count _ (List.range its.length) _ List.nodup_range (by
    intro i hi hn
    obtain ⟨p, hp, rfl⟩ := List.mem_map.mp hi
    exact absurd (List.mem_range.mpr (hr.side p hp).1) hn)]
  have e : (its.map fun t => copies t * longest t)
      = (List.range its.length).map fun i => copies (its.getD i d) * longest (its.getD i d) := by
    apply List.ext_getElem
    · simp
    · intro i h1 h2
      simp only [List.getElem_map, List.getElem_range]
      rw [List.getD_eq_getElem _ _ (by simpa using h1)]
  rw [e]
  apply List.sum_le_sum
  intro i hi
  have hi' := List.mem_range.mp hi
  rw [mul_comm]
  refine mul_le_mul_of_nonneg_right (hr.copies i hi') (hm _ ?_)
  rw [List.getD_eq_getElem _ _ hi']
  exact List.getElem_mem _

end PackingSolver.BulkLemmas
