import Verif.Spec.GuillotineSort
import Mathlib.Tactic.Ring
import Mathlib.Tactic.Linarith
import Mathlib.Tactic.FieldSimp
import Mathlib.Algebra.Order.Field.Basic
import Mathlib.Data.List.Lex

/-!
# Lemmas: the comparison of subplates
-/

namespace PackingSolver.Guil.SortSubplates

theorem mul128_spec {x y : Nat} (hx : x < 2 ^ 64) (hy : y < 2 ^ 64) :
    (mul128 x y).1 * 2 ^ 64 + (mul128 x y).2 = x * y ∧ (mul128 x y).2 < 2 ^ 64 := by
  have ex : x = hi32 x * 2 ^ 32 + lo32 x := by unfold hi32 lo32; omega
  have ey : y = hi32 y * 2 ^ 32 + lo32 y := by unfold hi32 lo32; omega
  have hx0 : lo32 x < 2 ^ 32 := by unfold lo32; omega
  have hy0 : lo32 y < 2 ^ 32 := by unfold lo32; omega
  have hx1 : hi32 x < 2 ^ 32 := by unfold hi32; omega
  have hy1 : hi32 y < 2 ^ 32 := by unfold hi32; omega
  have hb : ∀ a b : Nat, a < 2 ^ 32 → b < 2 ^ 32 → a * b ≤ (2 ^ 32 - 1) * (2 ^ 32 - 1) :=
    fun a b ha hb => Nat.mul_le_mul (by omega) (by omega)
  have b00 := hb _ _ hx0 hy0
  have b01 := hb _ _ hx0 hy1
  have b10 := hb _ _ hx1 hy0
  have b11 := hb _ _ hx1 hy1
  have hxy : x * y = hi32 x * hi32 y * 2 ^ 64 + (lo32 x * hi32 y + hi32 x * lo32 y) * 2 ^ 32
      + lo32 x * lo32 y := by
    conv_lhs => rw [ex, ey]
    ring
  unfold mul128
  dsimp only
  rw [hxy]
  generalize lo32 x * lo32 y = p00 at *
  generalize lo32 x * hi32 y = p01 at *
  generalize hi32 x * lo32 y = p10 at *
  generalize hi32 x * hi32 y = p11 at *
  unfold lo32 hi32 word
  norm_num only at *
  omega

theorem toWord_eq {x : Int} (h0 : 0 ≤ x) (h1 : x < 2 ^ 64) : toWord x < 2 ^ 64 ∧ (toWord x : Int) = x := by
  unfold toWord word
  norm_num only at *
  omega

theorem mulLess_iff {a b c d : Int} (ha : 0 ≤ a ∧ a < 2 ^ 64) (hb : 0 ≤ b ∧ b < 2 ^ 64)
    (hc : 0 ≤ c ∧ c < 2 ^ 64) (hd : 0 ≤ d ∧ d < 2 ^ 64) :
    mulLess a b c d = true ↔ a * b < c * d := by
  obtain ⟨a1, a2⟩ := toWord_eq ha.1 ha.2
  obtain ⟨b1, b2⟩ := toWord_eq hb.1 hb.2
  obtain ⟨c1, c2⟩ := toWord_eq hc.1 hc.2
  obtain ⟨d1, d2⟩ := toWord_eq hd.1 hd.2
  obtain ⟨l1, l2⟩ := mul128_spec a1 b1
  obtain ⟨r1, r2⟩ := mul128_spec c1 d1
  have hl : a * b = ((mul128 (toWord a) (toWord b)).1 * 2 ^ 64
      + (mul128 (toWord a) (toWord b)).2 : Nat) := by
    rw [l1]; push_cast; rw [a2, b2]
  have hr : c * d = ((mul128 (toWord c) (toWord d)).1 * 2 ^ 64
      + (mul128 (toWord c) (toWord d)).2 : Nat) := by
    rw [r1]; push_cast; rw [c2, d2]
  rw [hl, hr]
  unfold mulLess
  dsimp only
  simp only [Bool.or_eq_true, Bool.and_eq_true, decide_eq_true_eq]
  generalize mul128 (toWord a) (toWord b) = p at *
  generalize mul128 (toWord c) (toWord d) = q at *
  obtain ⟨p1, p2⟩ := p
  obtain ⟨q1, q2⟩ := q
  dsimp only at *
  norm_num only at *
  omega

open Guil.Spec

theorem comesBefore_iff {a b : NodeLengths} (ha : Measured a) (hb : Measured b) :
    ∀ cs, comesBefore cs a b = true ↔ WorthMore cs a b := by
  intro cs
  unfold WorthMore
  induction cs with
  | nil => simp [comesBefore]
  | cons c cs ih =>
    rw [List.map_cons, List.map_cons, List.cons_lt_cons_iff]
    have key : ∀ x y : Int, ((if x ≠ y then decide (x > y) else comesBefore cs a b) = true
        ↔ (y : ℚ) < x ∨ (y : ℚ) = x ∧ List.map (worth b) cs < List.map (worth a) cs) := by
      intro x y
      have c1 : ((y : ℚ) < x) ↔ y < x := Int.cast_lt
      have c2 : ((y : ℚ) = x) ↔ y = x := Int.cast_inj
      rw [c1, c2, ← ih]
      by_cases h : x = y
      · subst h; simp
      · rw [if_pos h, decide_eq_true_eq]
        constructor
        · exact fun h => .inl h
        · rintro (h' | ⟨h', -⟩)
          · exact h'
          · exact absurd h'.symm h
    cases c with
    | length1 => exact key _ _
    | length2 => exact key _ _
    | waste =>
      have := key (-a.waste) (-b.waste)
      push_cast at this
      refine Iff.trans ?_ this
      rw [show comesBefore (.waste :: cs) a b = (if a.waste ≠ b.waste
        then decide (a.waste < b.waste) else comesBefore cs a b) from rfl]
      by_cases h : a.waste = b.waste
      · rw [h]; simp
      · rw [if_pos h, if_pos (by omega)]
        simp
    | density =>
      obtain ⟨⟨w1, w2⟩, ⟨r1, r2⟩⟩ := ha
      obtain ⟨⟨w3, w4⟩, ⟨r3, r4⟩⟩ := hb
      have m1 := mulLess_iff (a := a.waste) (b := b.area) (c := b.waste) (d := a.area)
        ⟨w1, by omega⟩ ⟨by omega, by omega⟩ ⟨w3, by omega⟩ ⟨by omega, by omega⟩
      have m2 := mulLess_iff (a := b.waste) (b := a.area) (c := a.waste) (d := b.area)
        ⟨w3, by omega⟩ ⟨by omega, by omega⟩ ⟨w1, by omega⟩ ⟨by omega, by omega⟩
      have qa : (0 : ℚ) < a.area := by exact_mod_cast r1
      have qb : (0 : ℚ) < b.area := by exact_mod_cast r3
      have hv : ∀ x : NodeLengths, (0 : ℚ) < x.area →
          worth x .density = 1 - x.waste / x.area := by
        intro x hx
        unfold worth
        rw [sub_div, div_self hx.ne']
      have d1 : worth b .density < worth a .density ↔ a.waste * b.area < b.waste * a.area := by
        rw [hv a qa, hv b qb, sub_lt_sub_iff_left, div_lt_div_iff₀ qa qb]
        exact_mod_cast Iff.rfl
      have d2 : worth b .density = worth a .density ↔ b.waste * a.area = a.waste * b.area := by
        rw [hv a qa, hv b qb, sub_right_inj, div_eq_div_iff qb.ne' qa.ne']
        exact_mod_cast Iff.rfl
      rw [d1, d2, ← ih, show comesBefore (.density :: cs) a b
        = (if mulLess a.waste b.area b.waste a.area then true
          else if mulLess b.waste a.area a.waste b.area then false else comesBefore cs a b) from rfl]
      by_cases h1 : mulLess a.waste b.area b.waste a.area = true
      · rw [if_pos h1]
        simp only [true_iff]
        exact .inl (m1.mp h1)
      · rw [if_neg h1]
        by_cases h2 : mulLess b.waste a.area a.waste b.area = true
        · rw [if_pos h2]
          have := m2.mp h2
          constructor
          · intro h; cases h
          · rintro (h | ⟨h, -⟩) <;> omega
        · rw [if_neg h2]
          have n1 : ¬ a.waste * b.area < b.waste * a.area := fun h => h1 (m1.mpr h)
          have n2 : ¬ b.waste * a.area < a.waste * b.area := fun h => h2 (m2.mpr h)
          constructor
          · exact fun h => .inr ⟨by omega, h⟩
          · rintro (h | ⟨-, h⟩)
            · exact absurd h n1
            · exact h

end PackingSolver.Guil.SortSubplates
