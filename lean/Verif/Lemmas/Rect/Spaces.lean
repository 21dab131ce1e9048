import Verif.Model.Rect.MaximalSpaces
import Verif.Spec.RectSolution
import Mathlib.Data.List.Perm.Basic

/-! Helper lemmas: cutting and filtering empty spaces. -/

namespace PackingSolver.Rect.MaximalSpaces

open Rect.Spec

/-! ## Removal by exchange with the last element -/

theorem moveLast_perm {α : Type} (l : List α) : (moveLast l).Perm l := by
  unfold moveLast
  cases h : l.getLast? with
  | none => rw [List.getLast?_eq_none_iff.mp h]
  | some z =>
    obtain ⟨m, rfl⟩ := List.getLast?_eq_some_iff.mp h
    dsimp only
    rw [List.dropLast_concat]
    exact (List.perm_append_singleton z m).symm

theorem mem_moveLast {α : Type} {l : List α} {a : α} : a ∈ moveLast l ↔ a ∈ l :=
  (moveLast_perm l).mem_iff

theorem swapFilterLoop_perm {α : Type} (p : α → Bool) : ∀ (n : Nat) (kept todo : List α),
    todo.length ≤ n → (swapFilterLoop p n kept todo).Perm (kept ++ todo.filter p)
  | 0, kept, todo, h => by
    rw [List.length_eq_zero_iff.mp (Nat.le_zero.mp h)]
    simp [swapFilterLoop]
  | n + 1, kept, [], _ => by simp [swapFilterLoop]
  | n + 1, kept, a :: todo, h => by
    unfold swapFilterLoop
    have hl : todo.length ≤ n := by simpa using h
    by_cases ha : p a = true
    · rw [if_pos ha, List.filter_cons_of_pos ha]
      have := swapFilterLoop_perm p n (kept ++ [a]) todo hl
      rw [List.append_assoc] at this
      exact this
    · rw [if_neg ha, List.filter_cons_of_neg ha]
      refine (swapFilterLoop_perm p n kept (moveLast todo)
        (by rw [(moveLast_perm todo).length_eq]; exact hl)).trans ?_
      exact List.Perm.append_left _ ((moveLast_perm todo).filter p)

theorem mem_swapFilter {α : Type} {p : α → Bool} {l : List α} {a : α} :
    a ∈ swapFilter p l ↔ a ∈ l ∧ p a = true := by
  unfold swapFilter
  rw [(swapFilterLoop_perm p l.length [] l (le_refl _)).mem_iff, List.nil_append, List.mem_filter]

theorem swapFilter_perm {α : Type} (p : α → Bool) (l : List α) :
    (swapFilter p l).Perm (l.filter p) := swapFilterLoop_perm p l.length [] l (le_refl _)

/-! ## Spaces as rectangles -/

/-- The rectangle of a space. -/
def Space.rect (s : Space) : Placed := ⟨s.x, s.y, s.w, s.h⟩

/-- A rectangle lies in a space. -/
def Within (q : Placed) (s : Space) : Prop :=
  s.x ≤ q.x ∧ s.y ≤ q.y ∧ q.x + q.w ≤ s.x + s.w ∧ q.y + q.h ≤ s.y + s.h

theorem Within.trans {q : Placed} {s t : Space} (h : Within q s) (h2 : Within s.rect t) :
    Within q t := by
  unfold Within Space.rect at *
  dsimp only at *
  omega

theorem within_refl (s : Space) : Within s.rect s := ⟨le_refl _, le_refl _, le_refl _, le_refl _⟩

theorem overlaps_false {s : Space} {x y w h : Int} :
    overlaps s x y w h = false ↔ Separated s.rect ⟨x, y, w, h⟩ := by
  unfold overlaps Separated Space.rect Space.xe Space.ye
  dsimp only
  rw [Bool.and_eq_false_iff, Bool.and_eq_false_iff, Bool.and_eq_false_iff]
  simp only [decide_eq_false_iff_not]
  omega

theorem contains_iff {s t : Space} : s.contains t = true ↔ Within t.rect s := by
  unfold Space.contains Within Space.rect Space.xe Space.ye
  simp only [Bool.and_eq_true, decide_eq_true_eq]
  omega

/-- A rectangle inside a separated space is separated. -/
theorem Within.separated {q r : Placed} {s : Space} (h : Within q s) (hs : Separated s.rect r) :
    Separated q r := by
  unfold Within Separated Space.rect at *
  dsimp only at *
  omega

theorem Within.inside {q : Placed} {s : Space} {W H : Int} (h : Within q s)
    (hs : Inside W H s.rect) : Inside W H q := by
  unfold Within Inside Space.rect at *
  dsimp only at *
  omega

theorem mem_cuts {s c : Space} {x y w h : Int} (hc : c ∈ cuts s x y w h) (h1 : 0 ≤ s.w) (h2 : 0 ≤ s.h)
    (ho : overlaps s x y w h = true) :
    Within c.rect s ∧ 0 ≤ c.w ∧ 0 ≤ c.h ∧ overlaps c x y w h = false := by
  rw [overlaps_false]
  unfold overlaps Space.xe Space.ye at ho
  simp only [Bool.and_eq_true, decide_eq_true_eq] at ho
  unfold cuts Space.xe Space.ye at hc
  unfold Within Separated Space.rect
  simp only [List.mem_append] at hc
  rcases hc with ((hc | hc) | hc) | hc <;> split_ifs at hc with h0 <;>
    first
    | (exact absurd hc List.not_mem_nil)
    | (rw [List.mem_singleton] at hc; subst hc; dsimp only; omega)

theorem cuts_length (s : Space) (x y w h : Int) : (cuts s x y w h).length ≤ 4 := by
  unfold cuts
  simp only [List.length_append]
  split_ifs <;> simp

/-- What remains of a space covers every rectangle of positive sides away from the cut. -/
theorem cuts_cover {s : Space} {x y w h : Int} {q : Placed} (hq : Within q s) (h1 : 0 < q.w)
    (h2 : 0 < q.h) (hs : Separated q ⟨x, y, w, h⟩) :
    ∃ c ∈ cuts s x y w h, Within q c ∧ 0 < c.w ∧ 0 < c.h := by
  unfold Within at hq
  unfold Separated at hs
  dsimp only at hs
  unfold cuts Space.xe Space.ye
  simp only [List.mem_append]
  rcases hs with hs | hs | hs | hs
  · refine ⟨⟨s.x, s.y, x - s.x, s.h⟩, Or.inl (Or.inl (Or.inl ?_)), ?_⟩
    · rw [if_pos (by omega)]; exact List.mem_singleton.mpr rfl
    · unfold Within; dsimp only; omega
  · refine ⟨⟨x + w, s.y, s.x + s.w - (x + w), s.h⟩, Or.inl (Or.inl (Or.inr ?_)), ?_⟩
    · rw [if_pos (by omega)]; exact List.mem_singleton.mpr rfl
    · unfold Within; dsimp only; omega
  · refine ⟨⟨s.x, s.y, s.w, y - s.y⟩, Or.inl (Or.inr ?_), ?_⟩
    · rw [if_pos (by omega)]; exact List.mem_singleton.mpr rfl
    · unfold Within; dsimp only; omega
  · refine ⟨⟨s.x, y + h, s.w, s.y + s.h - (y + h)⟩, Or.inr ?_, ?_⟩
    · rw [if_pos (by omega)]; exact List.mem_singleton.mpr rfl
    · unfold Within; dsimp only; omega

/-- Some space of the list covers the rectangle. -/
def Covered (l : List Space) (q : Placed) : Prop := ∃ s ∈ l, Within q s

/-- Spaces added one after the other. -/
theorem addSpaces_sub (kept : List Space) : ∀ (l todo : List Space) {e : Space},
    e ∈ l.foldl (addSpace kept) todo → e ∈ todo ∨ e ∈ l
  | [], _, _, h => Or.inl h
  | c :: l, todo, e, h => by
    rcases addSpaces_sub kept l _ h with h | h
    · unfold addSpace at h
      split_ifs at h
      · exact Or.inl h
      · exact Or.inl h
      · rcases List.mem_append.mp h with h | h
        · exact Or.inl h
        · rw [List.mem_singleton] at h; subst h; exact Or.inr (by simp)
    · exact Or.inr (List.mem_cons_of_mem _ h)

theorem addSpaces_mono (kept : List Space) : ∀ (l todo : List Space) {e : Space},
    e ∈ todo → e ∈ l.foldl (addSpace kept) todo
  | [], _, _, h => h
  | c :: l, todo, e, h => by
    apply addSpaces_mono kept l
    unfold addSpace
    split_ifs
    · exact h
    · exact h
    · exact List.mem_append_left _ h

theorem addSpaces_cover (kept : List Space) : ∀ (l todo : List Space) {c : Space} {q : Placed},
    c ∈ l → 0 < c.w → 0 < c.h → Within q c → Covered (kept ++ l.foldl (addSpace kept) todo) q
  | [], _, _, _, h, _, _, _ => absurd h List.not_mem_nil
  | a :: l, todo, c, q, h, h1, h2, hq => by
    rcases List.mem_cons.mp h with rfl | h
    · by_cases hz : c.w = 0 ∨ c.h = 0
      · omega
      · by_cases ha : ((kept ++ todo).any fun e => e.contains c) = true
        · obtain ⟨e, he, hc⟩ := List.any_eq_true.mp ha
          have hqe := hq.trans (contains_iff.mp hc)
          rcases List.mem_append.mp he with he | he
          · exact ⟨e, List.mem_append_left _ he, hqe⟩
          · exact ⟨e, List.mem_append_right _ (addSpaces_mono kept (c :: l) todo he), hqe⟩
        · refine ⟨c, List.mem_append_right _ ?_, hq⟩
          apply addSpaces_mono kept l
          unfold addSpace
          rw [if_neg hz, if_neg ha]
          simp
    · exact addSpaces_cover kept l _ h h1 h2 hq

/-- Steps the loop needs for a list of spaces. -/
def work (x y w h : Int) (l : List Space) : Nat :=
  (l.map fun s => if overlaps s x y w h then 5 else 1).sum

theorem work_append (x y w h : Int) (l l' : List Space) :
    work x y w h (l ++ l') = work x y w h l + work x y w h l' := by
  unfold work; rw [List.map_append, List.sum_append]

theorem work_perm {x y w h : Int} {l l' : List Space} (hp : l.Perm l') :
    work x y w h l = work x y w h l' := (hp.map _).sum_eq

theorem work_le (x y w h : Int) : ∀ l : List Space, work x y w h l ≤ 5 * l.length
  | [] => by simp [work]
  | s :: l => by
    have := work_le x y w h l
    unfold work at this ⊢
    rw [List.map_cons, List.sum_cons, List.length_cons]
    split_ifs <;> omega

theorem work_addSpaces (x y w h : Int) (kept : List Space) : ∀ l todo : List Space,
    (∀ c ∈ l, overlaps c x y w h = false) →
    work x y w h (l.foldl (addSpace kept) todo) ≤ work x y w h todo + l.length
  | [], _, _ => by simp
  | c :: l, todo, hl => by
    have h1 := work_addSpaces x y w h kept l (addSpace kept todo c)
      (fun e he => hl e (List.mem_cons_of_mem _ he))
    have h2 : work x y w h (addSpace kept todo c) ≤ work x y w h todo + 1 := by
      unfold addSpace
      split_ifs
      · omega
      · omega
      · rw [work_append]
        have : work x y w h [c] = 1 := by
          unfold work
          rw [List.map_singleton, List.sum_singleton, if_neg]
          rw [hl c (by simp)]; exact Bool.false_ne_true
        omega
    rw [List.foldl_cons, List.length_cons]
    omega

/-- The loop removes what overlaps and loses nothing else. -/
theorem cutLoop_spec (x y w h : Int) : ∀ (n : Nat) (kept todo : List Space),
    work x y w h todo ≤ n → (∀ s ∈ todo, 0 ≤ s.w ∧ 0 ≤ s.h) →
    (∀ s ∈ kept, overlaps s x y w h = false) →
    (∀ s ∈ cutLoop x y w h n kept todo, overlaps s x y w h = false
      ∧ (s ∈ kept ∨ (0 ≤ s.w ∧ 0 ≤ s.h ∧ ∃ t ∈ todo, Within s.rect t)))
    ∧ ∀ q : Placed, 0 < q.w → 0 < q.h → Separated q ⟨x, y, w, h⟩ → Covered (kept ++ todo) q →
      Covered (cutLoop x y w h n kept todo) q
  | 0, kept, todo, hw, _, hk => by
    have : todo = [] := by
      cases todo with
      | nil => rfl
      | cons s l =>
        unfold work at hw
        rw [List.map_cons, List.sum_cons] at hw
        split_ifs at hw <;> omega
    subst this
    unfold cutLoop
    rw [List.append_nil]
    exact ⟨fun s hs => ⟨hk s hs, Or.inl hs⟩, fun q _ _ _ h => h⟩
  | n + 1, kept, [], _, _, hk => by
    unfold cutLoop
    rw [List.append_nil]
    exact ⟨fun s hs => ⟨hk s hs, Or.inl hs⟩, fun q _ _ _ h => h⟩
  | n + 1, kept, s :: todo, hw, hp, hk => by
    have hw' : (if overlaps s x y w h = true then 5 else 1) + work x y w h todo ≤ n + 1 := by
      unfold work at hw ⊢
      rw [List.map_cons, List.sum_cons] at hw
      exact hw
    unfold cutLoop
    by_cases ho : overlaps s x y w h = true
    · rw [if_pos ho] at hw'
      rw [if_neg (by rw [ho]; simp)]
      have hs := hp s (by simp)
      have hcut := fun c (hc : c ∈ cuts s x y w h) => mem_cuts hc hs.1 hs.2 ho
      have hlen := cuts_length s x y w h
      have hwork := work_addSpaces x y w h kept (cuts s x y w h) (moveLast todo)
        (fun c hc => (hcut c hc).2.2.2)
      rw [work_perm (moveLast_perm todo)] at hwork
      obtain ⟨a1, a2⟩ := cutLoop_spec x y w h n kept
        ((cuts s x y w h).foldl (addSpace kept) (moveLast todo)) (by omega) (by
          intro e he
          rcases addSpaces_sub kept _ _ he with he | he
          · exact hp e (List.mem_cons_of_mem _ (mem_moveLast.mp he))
          · exact ⟨(hcut e he).2.1, (hcut e he).2.2.1⟩) hk
      refine ⟨fun e he => ⟨(a1 e he).1, ?_⟩, fun q h1 h2 h3 h4 => a2 q h1 h2 h3 ?_⟩
      · rcases (a1 e he).2 with h | ⟨p1, p2, t, ht, hwt⟩
        · exact Or.inl h
        · refine Or.inr ⟨p1, p2, ?_⟩
          rcases addSpaces_sub kept _ _ ht with ht | ht
          · exact ⟨t, List.mem_cons_of_mem _ (mem_moveLast.mp ht), hwt⟩
          · exact ⟨s, by simp, hwt.trans (hcut t ht).1⟩
      · obtain ⟨e, he, hqe⟩ := h4
        rcases List.mem_append.mp he with he | he
        · exact ⟨e, List.mem_append_left _ he, hqe⟩
        · rcases List.mem_cons.mp he with rfl | he
          · obtain ⟨c, hc, hqc, c1, c2⟩ := cuts_cover hqe h1 h2 h3
            exact addSpaces_cover kept _ _ hc c1 c2 hqc
          · exact ⟨e, List.mem_append_right _
              (addSpaces_mono kept _ _ (mem_moveLast.mpr he)), hqe⟩
    · rw [if_neg ho] at hw'
      have hof : overlaps s x y w h = false := by simpa using ho
      rw [if_pos (by rw [hof]; rfl)]
      obtain ⟨a1, a2⟩ := cutLoop_spec x y w h n (kept ++ [s]) todo (by omega)
        (fun e he => hp e (List.mem_cons_of_mem _ he)) (by
          intro e he
          rcases List.mem_append.mp he with he | he
          · exact hk e he
          · rw [List.mem_singleton.mp he]; exact hof)
      rw [List.append_assoc] at a2
      refine ⟨fun e he => ⟨(a1 e he).1, ?_⟩, a2⟩
      rcases (a1 e he).2 with h | ⟨p1, p2, t, ht, hwt⟩
      · rcases List.mem_append.mp h with h | h
        · exact Or.inl h
        · rw [List.mem_singleton] at h; subst h
          exact Or.inr ⟨(hp e (by simp)).1, (hp e (by simp)).2, e, by simp, within_refl e⟩
      · exact Or.inr ⟨p1, p2, t, List.mem_cons_of_mem _ ht, hwt⟩

/-- Cutting a rectangle out of a list of spaces. -/
theorem cutSpaces_spec {l : List Space} (x y w h : Int) (hp : ∀ s ∈ l, 0 ≤ s.w ∧ 0 ≤ s.h) :
    (∀ s ∈ cutSpaces l x y w h, Separated s.rect ⟨x, y, w, h⟩ ∧ 0 ≤ s.w ∧ 0 ≤ s.h
      ∧ ∃ t ∈ l, Within s.rect t)
    ∧ ∀ q : Placed, 0 < q.w → 0 < q.h → Separated q ⟨x, y, w, h⟩ → Covered l q →
      Covered (cutSpaces l x y w h) q := by
  obtain ⟨a1, a2⟩ := cutLoop_spec x y w h (5 * l.length) [] l (work_le x y w h l) hp (by simp)
  refine ⟨fun s hs => ?_, fun q h1 h2 h3 h4 => a2 q h1 h2 h3 h4⟩
  obtain ⟨b1, b2⟩ := a1 s hs
  rcases b2 with b2 | ⟨p1, p2, b3⟩
  · exact absurd b2 List.not_mem_nil
  · exact ⟨overlaps_false.mp b1, p1, p2, b3⟩

end PackingSolver.Rect.MaximalSpaces
