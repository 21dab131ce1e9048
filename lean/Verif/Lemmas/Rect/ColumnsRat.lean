import Verif.Lemmas.Rect.Columns
import Mathlib.Data.Rat.Floor

/-!
# The two-dimensional inequality with rational coefficients
-/

namespace PackingSolver.Rect.Columns

variable {α : Type}

theorem common_den (f : α → ℚ) (L : List α) :
    ∃ D : Nat, 0 < D ∧ ∀ a ∈ L, ∃ z : Int, (D : ℚ) * f a = z := by
  induction L with
  | nil => exact ⟨1, one_pos, by simp⟩
  | cons a L ih =>
    obtain ⟨D, hD, h⟩ := ih
    refine ⟨D * (f a).den, Nat.mul_pos hD (f a).den_pos, ?_⟩
    intro b hb
    rcases List.mem_cons.1 hb with rfl | hb
    · refine ⟨D * (f b).num, ?_⟩
      have := Rat.mul_den_eq_num (f b)
      push_cast
      rw [← this]
      ring
    · obtain ⟨z, hz⟩ := h b hb
      refine ⟨z * (f a).den, ?_⟩
      push_cast
      rw [← hz]
      ring

/-- `D` times a coefficient, as an integer. -/
def scaled (D : Nat) (f : α → ℚ) (a : α) : Int := ⌊(D : ℚ) * f a⌋

theorem scaled_eq {D : Nat} {f : α → ℚ} {L : List α}
    (h : ∀ a ∈ L, ∃ z : Int, (D : ℚ) * f a = z) {a : α} (ha : a ∈ L) :
    (scaled D f a : ℚ) = D * f a := by
  obtain ⟨z, hz⟩ := h a ha
  unfold scaled
  rw [hz, Int.floor_intCast]

theorem scaled_sum {D : Nat} {f : α → ℚ} {L : List α}
    (h : ∀ a ∈ L, ∃ z : Int, (D : ℚ) * f a = z) (c : List α) (hc : ∀ a ∈ c, a ∈ L) :
    (((c.map (scaled D f)).sum : Int) : ℚ) = D * (c.map f).sum := by
  induction c with
  | nil => simp
  | cons a c ih =>
    rw [List.map_cons, List.sum_cons, List.map_cons, List.sum_cons]
    push_cast
    rw [ih fun b hb => hc b (by simp [hb]), scaled_eq h (hc a (by simp))]
    ring

/-- `product_bound` with rational coefficients. -/
theorem product_bound_rat (x y w h : α → Int) (W H : Int) (f g : α → ℚ) (F G : ℚ)
    (hH : 0 ≤ H) (hW : 0 ≤ W)
    (L : List α) (hw : ∀ a ∈ L, 0 < w a) (hh : ∀ a ∈ L, 0 < h a)
    (hin : ∀ a ∈ L, 0 ≤ x a ∧ x a + w a ≤ W ∧ 0 ≤ y a ∧ y a + h a ≤ H)
    (hsep : L.Pairwise fun a b => x a + w a ≤ x b ∨ x b + w b ≤ x a ∨ y a + h a ≤ y b ∨
      y b + h b ≤ y a)
    (hg0 : ∀ a ∈ L, 0 ≤ g a)
    (hf : ∀ c : List α, c.Subperm L → (c.map w).sum ≤ W → (c.map f).sum ≤ F)
    (hg : ∀ c : List α, c.Subperm L → (c.map h).sum ≤ H → (c.map g).sum ≤ G) :
    (L.map fun a => f a * g a).sum ≤ F * G := by
  obtain ⟨D, hD, hDf⟩ := common_den f L
  obtain ⟨E, hE, hEg⟩ := common_den g L
  have hDq : (0 : ℚ) < D := by exact_mod_cast hD
  have hEq : (0 : ℚ) < E := by exact_mod_cast hE
  have hF0 : 0 ≤ F := by simpa using hf [] List.nil_subperm (by simpa using hW)
  have hG0 : 0 ≤ G := by simpa using hg [] List.nil_subperm (by simpa using hH)
  have key := product_bound x y w h W H (scaled D f) (scaled E g) ⌊(D : ℚ) * F⌋ ⌊(E : ℚ) * G⌋
    hH hW L hw hh hin hsep
    (fun a ha => by
      unfold scaled
      exact Int.floor_nonneg.2 (mul_nonneg hEq.le (hg0 a ha)))
    (fun c hc hs => by
      rw [Int.le_floor, scaled_sum hDf c fun a ha => hc.subset ha]
      exact mul_le_mul_of_nonneg_left (hf c hc hs) hDq.le)
    (fun c hc hs => by
      rw [Int.le_floor, scaled_sum hEg c fun a ha => hc.subset ha]
      exact mul_le_mul_of_nonneg_left (hg c hc hs) hEq.le)
  have e : ∀ c : List α, (∀ a ∈ c, a ∈ L) →
      (((c.map fun a => scaled D f a * scaled E g a).sum : Int) : ℚ)
        = D * E * (c.map fun a => f a * g a).sum := by
    intro c
    induction c with
    | nil => simp
    | cons a c ih =>
      intro hc
      rw [List.map_cons, List.sum_cons, List.map_cons, List.sum_cons]
      push_cast
      rw [ih fun b hb => hc b (by simp [hb]), scaled_eq hDf (hc a (by simp)),
        scaled_eq hEg (hc a (by simp))]
      ring
  have key' : (((L.map fun a => scaled D f a * scaled E g a).sum : Int) : ℚ)
      ≤ ((⌊(D : ℚ) * F⌋ * ⌊(E : ℚ) * G⌋ : Int) : ℚ) := by exact_mod_cast key
  rw [e L fun a ha => ha] at key'
  have h1 : ((⌊(D : ℚ) * F⌋ * ⌊(E : ℚ) * G⌋ : Int) : ℚ) ≤ (D * F) * (E * G) := by
    push_cast
    have h2 : (0 : ℚ) ≤ (⌊(E : ℚ) * G⌋ : Int) := by
      exact_mod_cast Int.floor_nonneg.2 (mul_nonneg hEq.le hG0)
    exact mul_le_mul (Int.floor_le _) (Int.floor_le _) h2 (mul_nonneg hDq.le hF0)
  have h3 : (D * E : ℚ) * (L.map fun a => f a * g a).sum ≤ (D * E) * (F * G) := by
    linarith
  exact le_of_mul_le_mul_left h3 (mul_pos hDq hEq)

end PackingSolver.Rect.Columns
