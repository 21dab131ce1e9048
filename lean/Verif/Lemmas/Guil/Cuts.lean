import Mathlib.Tactic.Linarith
import Mathlib.Tactic.Ring
import Verif.Spec.Guillotine

/-!
# Lemmas: guillotine patterns
-/

namespace PackingSolver.Guil

open Spec

variable {ct : Int}

theorem cuts_inside {k : Nat} {v : Bool} {R : Region} {L : List Region} (hct : 0 ≤ ct)
    (h : Cuts ct k v R L) : ∀ P ∈ L, P.Inside R ∧ P.Nonempty := by
  induction h with
  | piece hR =>
    intro P hP
    rw [List.mem_singleton] at hP
    subst hP
    exact ⟨⟨le_refl _, le_refl _, le_refl _, le_refl _⟩, hR⟩
  | @cut k v R p L L' h1 h2 _ _ ih1 ih2 =>
    intro P hP
    rcases List.mem_append.mp hP with h | h
    · obtain ⟨⟨a, b, c, d⟩, hn⟩ := ih1 P h
      refine ⟨?_, hn⟩
      cases v <;> simp [Region.before, Region.low, Region.high, Region.Inside] at * <;>
        (refine ⟨?_, ?_, ?_, ?_⟩ <;> omega)
    · obtain ⟨⟨a, b, c, d⟩, hn⟩ := ih2 P h
      refine ⟨?_, hn⟩
      cases v <;> simp [Region.after, Region.low, Region.high, Region.Inside] at * <;>
        (refine ⟨?_, ?_, ?_, ?_⟩ <;> omega)
  | @last k v R p L h1 h2 h3 _ ih =>
    intro P hP
    obtain ⟨⟨a, b, c, d⟩, hn⟩ := ih P hP
    refine ⟨?_, hn⟩
    cases v <;> simp [Region.before, Region.low, Region.high, Region.Inside] at * <;>
      (refine ⟨?_, ?_, ?_, ?_⟩ <;> omega)

theorem cuts_apart {k : Nat} {v : Bool} {R : Region} {L : List Region} (hct : 0 ≤ ct)
    (h : Cuts ct k v R L) : L.Pairwise (Region.Apart ct) := by
  induction h with
  | piece hR => simp
  | @cut k v R p L L' h1 h2 c1 c2 ih1 ih2 =>
    rw [List.pairwise_append]
    refine ⟨ih1, ih2, ?_⟩
    intro P hP Q hQ
    obtain ⟨⟨a, b, c, d⟩, _⟩ := cuts_inside hct c1 P hP
    obtain ⟨⟨a', b', c', d'⟩, _⟩ := cuts_inside hct c2 Q hQ
    cases v <;> simp [Region.before, Region.after, Region.Apart] at * <;> omega
  | last _ _ _ _ ih => exact ih

theorem cuts_region {k : Nat} {v : Bool} {R : Region} {L : List Region} (hct : 0 ≤ ct)
    (h : Cuts ct k v R L) : R.Nonempty := by
  induction h with
  | piece hR => exact hR
  | @cut k v R p L L' h1 h2 c1 c2 ih1 ih2 =>
    obtain ⟨a, b⟩ := ih1
    obtain ⟨a', b'⟩ := ih2
    cases v <;> simp [Region.before, Region.after, Region.low, Region.high, Region.Nonempty] at * <;>
      constructor <;> omega
  | @last k v R p L h1 h2 h3 c ih =>
    obtain ⟨a, b⟩ := ih
    cases v <;> simp [Region.before, Region.low, Region.high, Region.Nonempty] at * <;>
      constructor <;> omega

theorem cuts_area {k : Nat} {v : Bool} {R : Region} {L : List Region} (hct : 0 ≤ ct)
    (h : Cuts ct k v R L) : (L.map Region.area).sum ≤ R.area := by
  induction h with
  | piece hR => simp
  | @cut k v R p L L' h1 h2 c1 c2 ih1 ih2 =>
    rw [List.map_append, List.sum_append]
    have hR := cuts_region hct (Cuts.cut h1 h2 c1 c2)
    obtain ⟨ha, hb⟩ := hR
    refine le_trans (add_le_add ih1 ih2) ?_
    cases v <;> simp [Region.before, Region.after, Region.low, Region.high, Region.area] at * <;>
      nlinarith
  | @last k v R p L h1 h2 h3 c ih =>
    obtain ⟨ha, hb⟩ := cuts_region hct (Cuts.last h1 h2 h3 c)
    refine le_trans ih ?_
    cases v <;> simp [Region.before, Region.low, Region.high, Region.area] at * <;> nlinarith

theorem cuts_area_eq {k : Nat} {v : Bool} {R : Region} {L : List Region}
    (h : Cuts 0 k v R L) : (L.map Region.area).sum = R.area := by
  induction h with
  | piece hR => simp
  | @cut k v R p L L' h1 h2 c1 c2 ih1 ih2 =>
    rw [List.map_append, List.sum_append, ih1, ih2]
    cases v <;> simp [Region.before, Region.after, Region.area] <;> ring
  | @last k v R p L h1 h2 h3 c ih =>
    rw [ih]
    have hp : p = R.high v := by omega
    subst hp
    cases v <;> simp [Region.before, Region.high, Region.area]

theorem cuts_mono {k : Nat} {v : Bool} {R : Region} {L : List Region}
    (h : Cuts ct k v R L) : ∀ {k' : Nat}, k ≤ k' → Cuts ct k' v R L := by
  induction h with
  | piece hR => intro k' _; exact .piece hR
  | cut h1 h2 c1 c2 ih1 ih2 =>
    intro k' hk
    obtain ⟨j, rfl⟩ : ∃ j, k' = j + 1 := ⟨k' - 1, by omega⟩
    exact .cut h1 h2 (ih1 (by omega)) (ih2 hk)
  | last h1 h2 h3 c ih =>
    intro k' hk
    obtain ⟨j, rfl⟩ : ∃ j, k' = j + 1 := ⟨k' - 1, by omega⟩
    exact .last h1 h2 h3 (ih (by omega))

/-- Without stages nothing is cut. -/
theorem cuts_zero {k : Nat} {v : Bool} {R : Region} {L : List Region}
    (h : Cuts ct k v R L) (hk : k = 0) : L = [R] ∧ R.Nonempty := by
  cases h with
  | piece hR => exact ⟨rfl, hR⟩
  | cut => omega
  | last => omega

end PackingSolver.Guil
