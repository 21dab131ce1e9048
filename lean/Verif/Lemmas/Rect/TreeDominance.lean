import Verif.Lemmas.Rect.TreeRank

/-! Helper lemmas: the dominance test of the rectangle branching scheme. -/

namespace PackingSolver.Rect.TreeSearch

open Rect.Spec

/-- A skyline listed from the top, down to 0. -/
def Down : List UncoveredItem → Int → Prop
  | [], b => b = 0
  | u :: us, b => u.ye = b ∧ u.ys < u.ye ∧ Down us u.ys

theorem down_of_tiles (l : List UncoveredItem) : ∀ (acc : List UncoveredItem) (a b : Int),
    Down acc a → Tiles a l b → Down (l.reverse ++ acc) b := by
  induction l with
  | nil => intro acc a b h1 h2; cases h2; exact h1
  | cons u l ih =>
    intro acc a b h1 h2
    obtain ⟨e1, e2, e3⟩ := h2
    rw [List.reverse_cons, List.append_assoc]
    exact ih (u :: acc) u.ye b ⟨rfl, e2, by rw [e1]; exact h1⟩ e3

theorem Down.nonneg {l : List UncoveredItem} : ∀ {b : Int}, Down l b → 0 ≤ b := by
  induction l with
  | nil => intro b h; exact le_of_eq h.symm
  | cons u l ih => intro b h; have := ih h.2.2; obtain ⟨h1, h2, -⟩ := h; omega

theorem Down.mem {l : List UncoveredItem} : ∀ {b : Int}, Down l b → ∀ u ∈ l,
    u.ye ≤ b ∧ u.ys < u.ye ∧ 0 ≤ u.ys := by
  induction l with
  | nil => intro b _ u hu; cases hu
  | cons v l ih =>
    intro b h u hu
    obtain ⟨h1, h2, h3⟩ := h
    rcases List.mem_cons.mp hu with rfl | hu
    · exact ⟨by omega, h2, h3.nonneg⟩
    · have := ih h3 u hu
      exact ⟨by omega, this.2⟩

theorem mem_frontier {u : UncoveredItem} {r : List UncoveredItem} {x : Int} {p : UncoveredItem × Int} :
    p ∈ frontier (u :: r) x ↔ p = (u, x) ∨ p ∈ frontier r (r.headD default).xeDominance := by
  unfold frontier
  rw [List.mem_cons]
  cases r with
  | nil => simp
  | cons v r => simp

theorem frontier_mem {l : List UncoveredItem} {x : Int} {p : UncoveredItem × Int} (h : p ∈ frontier l x) :
    p.1 ∈ l := by
  cases l with
  | nil => cases h
  | cons u r =>
    rcases List.mem_cons.mp h with rfl | h
    · exact List.mem_cons_self
    · obtain ⟨v, hv, rfl⟩ := List.mem_map.mp h
      exact List.mem_cons_of_mem _ hv

theorem dominatesLoop_step {fuel : Nat} {u1 u2 : UncoveredItem} {r1 r2 : List UncoveredItem}
    {x1 x2 : Int} (hx : ¬ x1 > x2) (hs : ¬ (r1 = [] ∧ r2 = [])) :
    dominatesLoop false (fuel + 1) x1 (u1 :: r1) x2 (u2 :: r2)
      = if u1.ys = u2.ys then
          if r1.isEmpty || r2.isEmpty then none
          else dominatesLoop false fuel (r1.headD default).xeDominance r1
            (r2.headD default).xeDominance r2
        else if u1.ys < u2.ys then
          if r2.isEmpty then none
          else dominatesLoop false fuel x1 (u1 :: r1) (r2.headD default).xeDominance r2
        else
          if r1.isEmpty then none
          else dominatesLoop false fuel (r1.headD default).xeDominance r1 x2 (u2 :: r2) := by
  conv_lhs => unfold dominatesLoop
  rw [if_neg hx]
  cases r1 <;> cases r2 <;> first | (exact absurd ⟨rfl, rfl⟩ hs) | rfl

theorem dominatesLoop_iff (fuel : Nat) : ∀ (u1 u2 : UncoveredItem) (r1 r2 : List UncoveredItem)
    (x1 x2 b1 b2 : Int), Down (u1 :: r1) b1 → Down (u2 :: r2) b2 → RowsMeet u1 u2 →
    (u1 :: r1).length + (u2 :: r2).length ≤ fuel + 1 →
    ∃ r, dominatesLoop false fuel x1 (u1 :: r1) x2 (u2 :: r2) = some r
      ∧ (r = true ↔ LeftOf (frontier (u1 :: r1) x1) (frontier (u2 :: r2) x2)) := by
  induction fuel with
  | zero => intro u1 u2 r1 r2 x1 x2 b1 b2 _ _ _ hf; simp at hf; omega
  | succ fuel ih =>
    intro u1 u2 r1 r2 x1 x2 b1 b2 d1 d2 hm hf
    by_cases hx : x1 > x2
    · unfold dominatesLoop
      rw [if_pos hx]
      refine ⟨false, rfl, by simp, fun h => ?_⟩
      have := h (u1, x1) List.mem_cons_self (u2, x2) List.mem_cons_self hm
      simp at this
      omega
    obtain ⟨y1, z1, t1⟩ := d1
    obtain ⟨y2, z2, t2⟩ := d2
    have n1 := t1.nonneg
    have n2 := t2.nonneg
    have key1 : ∀ p ∈ frontier r1 (r1.headD default).xeDominance, p.1.ye ≤ u1.ys :=
      fun p hp => (t1.mem p.1 (frontier_mem hp)).1
    have key2 : ∀ p ∈ frontier r2 (r2.headD default).xeDominance, p.1.ye ≤ u2.ys :=
      fun p hp => (t2.mem p.1 (frontier_mem hp)).1
    have zero : ∀ {l : List UncoveredItem} {b : Int}, Down l b → 0 < b → ∃ v r, l = v :: r := by
      intro l b h hb
      cases l with
      | nil => have : b = 0 := h; omega
      | cons v r => exact ⟨v, r, rfl⟩
    by_cases hs : r1 = [] ∧ r2 = []
    · unfold dominatesLoop
      rw [if_neg hx]
      obtain ⟨rfl, rfl⟩ := hs
      refine ⟨true, rfl, ?_⟩
      simp [LeftOf, frontier]
      intro _
      omega
    rw [dominatesLoop_step hx hs]
    by_cases he : u1.ys = u2.ys
    · rw [if_pos he]
      have hpos : 0 < u1.ys := by
        by_contra hz
        have h1 : u1.ys = 0 := by omega
        refine hs ⟨?_, ?_⟩
        · cases r1 with
          | nil => rfl
          | cons v r => obtain ⟨a, b, c⟩ := t1; have := c.nonneg; omega
        · cases r2 with
          | nil => rfl
          | cons v r => obtain ⟨a, b, c⟩ := t2; have := c.nonneg; omega
      obtain ⟨v1, s1, rfl⟩ := zero t1 hpos
      obtain ⟨v2, s2, rfl⟩ := zero t2 (by omega)
      rw [if_neg (by simp)]
      obtain ⟨r, e, hr⟩ := ih v1 v2 s1 s2 v1.xeDominance v2.xeDominance u1.ys u2.ys t1 t2
        ⟨by have := t1.1; have := t1.2.1; have := t2.1; omega,
         by have := t2.1; have := t2.2.1; have := t1.1; omega⟩ (by simp at hf ⊢; omega)
      refine ⟨r, e, hr.trans ⟨fun h => ?_, fun h => ?_⟩⟩
      · intro p hp q hq hpq
        rcases mem_frontier.mp hp with rfl | hp
        · rcases mem_frontier.mp hq with rfl | hq
          · show x1 ≤ x2; omega
          · have := key2 q hq; have := hpq.1; dsimp only at this; omega
        · rcases mem_frontier.mp hq with rfl | hq
          · have := key1 p hp; have := hpq.2; dsimp only at this; omega
          · exact h p hp q hq hpq
      · intro p hp q hq hpq
        exact h p (mem_frontier.mpr (Or.inr hp)) q (mem_frontier.mpr (Or.inr hq)) hpq
    · rw [if_neg he]
      by_cases hl : u1.ys < u2.ys
      · rw [if_pos hl]
        obtain ⟨v2, s2, rfl⟩ := zero t2 (by omega)
        rw [if_neg (by simp)]
        obtain ⟨r, e, hr⟩ := ih u1 v2 r1 s2 x1 v2.xeDominance b1 u2.ys ⟨y1, z1, t1⟩ t2
          ⟨by have := t2.1; omega, by have := t2.1; have := t2.2.1; have := hm.2; omega⟩
          (by simp at hf ⊢; omega)
        refine ⟨r, e, hr.trans ⟨fun h => ?_, fun h => ?_⟩⟩
        · intro p hp q hq hpq
          rcases mem_frontier.mp hq with rfl | hq
          · rcases mem_frontier.mp hp with rfl | hp
            · show x1 ≤ x2; omega
            · have := key1 p hp; have := hpq.2; dsimp only at this; omega
          · exact h p hp q hq hpq
        · intro p hp q hq hpq
          exact h p hp q (mem_frontier.mpr (Or.inr hq)) hpq
      · rw [if_neg hl]
        obtain ⟨v1, s1, rfl⟩ := zero t1 (by omega)
        rw [if_neg (by simp)]
        obtain ⟨r, e, hr⟩ := ih v1 u2 s1 r2 v1.xeDominance x2 u1.ys b2 t1 ⟨y2, z2, t2⟩
          ⟨by have := t1.1; have := t1.2.1; have := hm.1; omega, by have := t1.1; omega⟩
          (by simp at hf ⊢; omega)
        refine ⟨r, e, hr.trans ⟨fun h => ?_, fun h => ?_⟩⟩
        · intro p hp q hq hpq
          rcases mem_frontier.mp hp with rfl | hp
          · rcases mem_frontier.mp hq with rfl | hq
            · show x1 ≤ x2; omega
            · have := key2 q hq; have := hpq.1; dsimp only at this; omega
          · exact h p hp q hq hpq
        · intro p hp q hq hpq
          exact h p (mem_frontier.mpr (Or.inr hp)) q hq hpq

/-- The loop on two skylines. -/
theorem dominates_skylines {l1 l2 : List UncoveredItem} {y1 y2 : Int} (h1 : Tiles 0 l1 y1)
    (h2 : Tiles 0 l2 y2) (p1 : 0 < y1) (p2 : 0 < y2) (hm : RowsMeet (l1.reverse.headD default)
      (l2.reverse.headD default)) :
    ∃ r, dominatesLoop false (l1.reverse.length + l2.reverse.length) (l1.reverse.headD default).xe
        l1.reverse (l2.reverse.headD default).xeDominance l2.reverse = some r
      ∧ (r = true ↔ LeftOf (frontier l1.reverse (l1.reverse.headD default).xe)
        (frontier l2.reverse (l2.reverse.headD default).xeDominance)) := by
  have d1 := down_of_tiles l1 [] 0 y1 rfl h1
  have d2 := down_of_tiles l2 [] 0 y2 rfl h2
  rw [List.append_nil] at d1 d2
  generalize l1.reverse = k1 at *
  generalize l2.reverse = k2 at *
  cases k1 with
  | nil => have : y1 = 0 := d1; omega
  | cons u1 r1 =>
    cases k2 with
    | nil => have : y2 = 0 := d2; omega
    | cons u2 r2 =>
      exact dominatesLoop_iff _ u1 u2 r1 r2 _ _ y1 y2 d1 d2 hm (by simp)

end PackingSolver.Rect.TreeSearch
