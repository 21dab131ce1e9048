import Verif.Model.Box.MaximalSpaces
import Verif.Lemmas.Rect.Spaces
import Verif.Spec.BoxSolution

/-! Helper lemmas: cutting empty spaces of boxes. -/

namespace PackingSolver.Box.MaximalSpaces

open Box.Spec
open Rect.MaximalSpaces (moveLast swapFilter moveLast_perm mem_moveLast mem_swapFilter)

/-- A box at a corner. -/
def boxAt (c : Corner) (b : Dims) : Placed := ⟨c.x, c.y, c.z, b.x, b.y, b.z⟩

/-! ## Spaces as boxes -/

/-- The box of a space. -/
def Space.rect (s : Space) : Placed := ⟨s.x, s.y, s.z, s.dx, s.dy, s.dz⟩

/-- A box lies in a space. -/
def Within (q : Placed) (s : Space) : Prop :=
  s.x ≤ q.x ∧ s.y ≤ q.y ∧ s.z ≤ q.z ∧ q.x + q.dx ≤ s.x + s.dx ∧ q.y + q.dy ≤ s.y + s.dy
    ∧ q.z + q.dz ≤ s.z + s.dz

theorem Within.trans {q : Placed} {s t : Space} (h : Within q s) (h2 : Within s.rect t) :
    Within q t := by
  unfold Within Space.rect at *
  dsimp only at *
  omega

theorem within_refl (s : Space) : Within s.rect s :=
  ⟨le_refl _, le_refl _, le_refl _, le_refl _, le_refl _, le_refl _⟩

theorem overlaps_false {s : Space} {k : Corner} {b : Dims} :
    overlaps s k b = false ↔ Separated s.rect (boxAt k b) := by
  unfold overlaps Separated Space.rect boxAt Space.xe Space.ye Space.ze
  dsimp only
  simp only [Bool.and_eq_false_iff, decide_eq_false_iff_not]
  omega

theorem contains_iff {s t : Space} : s.contains t = true ↔ Within t.rect s := by
  unfold Space.contains Within Space.rect Space.xe Space.ye Space.ze
  simp only [Bool.and_eq_true, decide_eq_true_eq]
  omega

/-- A box inside a separated space is separated. -/
theorem Within.separated {q r : Placed} {s : Space} (h : Within q s) (hs : Separated s.rect r) :
    Separated q r := by
  unfold Within Separated Space.rect at *
  dsimp only at *
  omega

theorem Within.inside {q : Placed} {s : Space} {bin : Dims} (h : Within q s)
    (hs : Inside bin s.rect) : Inside bin q := by
  unfold Within Inside Space.rect at *
  dsimp only at *
  omega

theorem mem_cuts {s c : Space} {k : Corner} {b : Dims} (hc : c ∈ cuts s k b) (h1 : 0 ≤ s.dx)
    (h2 : 0 ≤ s.dy) (h3 : 0 ≤ s.dz) (ho : overlaps s k b = true) :
    Within c.rect s ∧ 0 ≤ c.dx ∧ 0 ≤ c.dy ∧ 0 ≤ c.dz ∧ overlaps c k b = false := by
  rw [overlaps_false]
  unfold overlaps Space.xe Space.ye Space.ze at ho
  simp only [Bool.and_eq_true, decide_eq_true_eq] at ho
  unfold cuts Space.xe Space.ye Space.ze at hc
  unfold Within Separated Space.rect boxAt
  simp only [List.mem_append] at hc
  rcases hc with ((((hc | hc) | hc) | hc) | hc) | hc <;> split_ifs at hc with h0 <;>
    first
    | (exact absurd hc List.not_mem_nil)
    | (rw [List.mem_singleton] at hc; subst hc; dsimp only; omega)

theorem cuts_length (s : Space) (k : Corner) (b : Dims) : (cuts s k b).length ≤ 6 := by
  have h : ∀ (p : Prop) [Decidable p] (e : Space), (if p then [e] else []).length ≤ 1 := by
    intro p _ e; split_ifs <;> simp
  unfold cuts
  simp only [List.length_append]
  exact Nat.add_le_add (Nat.add_le_add (Nat.add_le_add (Nat.add_le_add (Nat.add_le_add (h _ _)
    (h _ _)) (h _ _)) (h _ _)) (h _ _)) (h _ _)

/-- What remains of a space covers every box of positive sides away from the cut. -/
theorem cuts_cover {s : Space} {k : Corner} {b : Dims} {q : Placed} (hq : Within q s)
    (h1 : 0 < q.dx) (h2 : 0 < q.dy) (h3 : 0 < q.dz) (hs : Separated q (boxAt k b)) :
    ∃ c ∈ cuts s k b, Within q c ∧ 0 < c.dx ∧ 0 < c.dy ∧ 0 < c.dz := by
  unfold Within at hq
  unfold Separated boxAt at hs
  dsimp only at hs
  unfold cuts Space.xe Space.ye Space.ze
  simp only [List.mem_append]
  rcases hs with hs | hs | hs | hs | hs | hs
  · refine ⟨⟨s.x, s.y, s.z, k.x - s.x, s.dy, s.dz⟩,
      Or.inl (Or.inl (Or.inl (Or.inl (Or.inl ?_)))), ?_⟩
    · rw [if_pos (by omega)]; exact List.mem_singleton.mpr rfl
    · unfold Within; dsimp only; omega
  · refine ⟨⟨k.x + b.x, s.y, s.z, s.x + s.dx - (k.x + b.x), s.dy, s.dz⟩,
      Or.inl (Or.inl (Or.inl (Or.inl (Or.inr ?_)))), ?_⟩
    · rw [if_pos (by omega)]; exact List.mem_singleton.mpr rfl
    · unfold Within; dsimp only; omega
  · refine ⟨⟨s.x, s.y, s.z, s.dx, k.y - s.y, s.dz⟩, Or.inl (Or.inl (Or.inl (Or.inr ?_))), ?_⟩
    · rw [if_pos (by omega)]; exact List.mem_singleton.mpr rfl
    · unfold Within; dsimp only; omega
  · refine ⟨⟨s.x, k.y + b.y, s.z, s.dx, s.y + s.dy - (k.y + b.y), s.dz⟩,
      Or.inl (Or.inl (Or.inr ?_)), ?_⟩
    · rw [if_pos (by omega)]; exact List.mem_singleton.mpr rfl
    · unfold Within; dsimp only; omega
  · refine ⟨⟨s.x, s.y, s.z, s.dx, s.dy, k.z - s.z⟩, Or.inl (Or.inr ?_), ?_⟩
    · rw [if_pos (by omega)]; exact List.mem_singleton.mpr rfl
    · unfold Within; dsimp only; omega
  · refine ⟨⟨s.x, s.y, k.z + b.z, s.dx, s.dy, s.z + s.dz - (k.z + b.z)⟩, Or.inr ?_, ?_⟩
    · rw [if_pos (by omega)]; exact List.mem_singleton.mpr rfl
    · unfold Within; dsimp only; omega

/-- Some space of the list covers the box. -/
def Covered (l : List Space) (q : Placed) : Prop := ∃ s ∈ l, Within q s

/-- Spaces added one after the other. -/
theorem addSpaces_sub (kept : List Space) : ∀ (l todo : List Space) {e : Space},
    e ∈ l.foldl (addSpace kept) todo → e ∈ todo ∨ e ∈ l
  | [], _, _, h => Or.inl h
  | c :: l, todo, e, h => by
    rcases addSpaces_sub kept l _ h with h | h
    · unfold addSpace at h
      split_ifs at h
      · exact Or.inl h
      · exact Or.inl h
      · rcases List.mem_append.mp h with h | h
        · exact Or.inl h
        · rw [List.mem_singleton] at h; subst h; exact Or.inr (by simp)
    · exact Or.inr (List.mem_cons_of_mem _ h)

theorem addSpaces_mono (kept : List Space) : ∀ (l todo : List Space) {e : Space},
    e ∈ todo → e ∈ l.foldl (addSpace kept) todo
  | [], _, _, h => h
  | c :: l, todo, e, h => by
    apply addSpaces_mono kept l
    unfold addSpace
    split_ifs
    · exact h
    · exact h
    · exact List.mem_append_left _ h

theorem addSpaces_cover (kept : List Space) : ∀ (l todo : List Space) {c : Space} {q : Placed},
    c ∈ l → 0 < c.dx → 0 < c.dy → 0 < c.dz → Within q c → Covered (kept ++ l.foldl (addSpace kept) todo) q
  | [], _, _, _, h, _, _, _, _ => absurd h List.not_mem_nil
  | a :: l, todo, c, q, h, h1, h2, h3, hq => by
    rcases List.mem_cons.mp h with rfl | h
    · by_cases hz : c.dx = 0 ∨ c.dy = 0 ∨ c.dz = 0
      · omega
      · by_cases ha : ((kept ++ todo).any fun e => e.contains c) = true
        · obtain ⟨e, he, hc⟩ := List.any_eq_true.mp ha
          have hqe := hq.trans (contains_iff.mp hc)
          rcases List.mem_append.mp he with he | he
          · exact ⟨e, List.mem_append_left _ he, hqe⟩
          · exact ⟨e, List.mem_append_right _ (addSpaces_mono kept (c :: l) todo he), hqe⟩
        · refine ⟨c, List.mem_append_right _ ?_, hq⟩
          apply addSpaces_mono kept l
          unfold addSpace
          rw [if_neg hz, if_neg ha]
          simp
    · exact addSpaces_cover kept l _ h h1 h2 h3 hq

/-- Steps the loop needs for a list of spaces. -/
def work (k : Corner) (b : Dims) (l : List Space) : Nat :=
  (l.map fun s => if overlaps s k b then 7 else 1).sum

theorem work_append (k : Corner) (b : Dims) (l l' : List Space) :
    work k b (l ++ l') = work k b l + work k b l' := by
  unfold work; rw [List.map_append, List.sum_append]

theorem work_perm {k : Corner} {b : Dims} {l l' : List Space} (hp : l.Perm l') :
    work k b l = work k b l' := (hp.map _).sum_eq

theorem work_le (k : Corner) (b : Dims) : ∀ l : List Space, work k b l ≤ 7 * l.length
  | [] => by simp [work]
  | s :: l => by
    have := work_le k b l
    unfold work at this ⊢
    rw [List.map_cons, List.sum_cons, List.length_cons]
    split_ifs <;> omega

theorem work_addSpaces (k : Corner) (b : Dims) (kept : List Space) : ∀ l todo : List Space,
    (∀ c ∈ l, overlaps c k b = false) →
    work k b (l.foldl (addSpace kept) todo) ≤ work k b todo + l.length
  | [], _, _ => by simp
  | c :: l, todo, hl => by
    have h1 := work_addSpaces k b kept l (addSpace kept todo c)
      (fun e he => hl e (List.mem_cons_of_mem _ he))
    have h2 : work k b (addSpace kept todo c) ≤ work k b todo + 1 := by
      unfold addSpace
      split_ifs
      · omega
      · omega
      · rw [work_append]
        have : work k b [c] = 1 := by
          unfold work
          rw [List.map_singleton, List.sum_singleton, if_neg]
          rw [hl c (by simp)]; exact Bool.false_ne_true
        omega
    rw [List.foldl_cons, List.length_cons]
    omega

/-- The loop removes what overlaps and loses nothing else. -/
theorem cutLoop_spec (k : Corner) (b : Dims) : ∀ (n : Nat) (kept todo : List Space),
    work k b todo ≤ n → (∀ s ∈ todo, 0 ≤ s.dx ∧ 0 ≤ s.dy ∧ 0 ≤ s.dz) →
    (∀ s ∈ kept, overlaps s k b = false) →
    (∀ s ∈ cutLoop k b n kept todo, overlaps s k b = false
      ∧ (s ∈ kept ∨ (0 ≤ s.dx ∧ 0 ≤ s.dy ∧ 0 ≤ s.dz ∧ ∃ t ∈ todo, Within s.rect t)))
    ∧ ∀ q : Placed, 0 < q.dx → 0 < q.dy → 0 < q.dz → Separated q (boxAt k b) → Covered (kept ++ todo) q →
      Covered (cutLoop k b n kept todo) q
  | 0, kept, todo, hw, _, hk => by
    have : todo = [] := by
      cases todo with
      | nil => rfl
      | cons s l =>
        unfold work at hw
        rw [List.map_cons, List.sum_cons] at hw
        split_ifs at hw <;> omega
    subst this
    unfold cutLoop
    rw [List.append_nil]
    exact ⟨fun s hs => ⟨hk s hs, Or.inl hs⟩, fun q _ _ _ _ h => h⟩
  | n + 1, kept, [], _, _, hk => by
    unfold cutLoop
    rw [List.append_nil]
    exact ⟨fun s hs => ⟨hk s hs, Or.inl hs⟩, fun q _ _ _ _ h => h⟩
  | n + 1, kept, s :: todo, hw, hp, hk => by
    have hw' : (if overlaps s k b = true then 7 else 1) + work k b todo ≤ n + 1 := by
      unfold work at hw ⊢
      rw [List.map_cons, List.sum_cons] at hw
      exact hw
    unfold cutLoop
    by_cases ho : overlaps s k b = true
    · rw [if_pos ho] at hw'
      rw [if_neg (by rw [ho]; simp)]
      have hs := hp s (by simp)
      have hcut := fun c (hc : c ∈ cuts s k b) => mem_cuts hc hs.1 hs.2.1 hs.2.2 ho
      have hlen := cuts_length s k b
      have hwork := work_addSpaces k b kept (cuts s k b) (moveLast todo)
        (fun c hc => (hcut c hc).2.2.2.2)
      rw [work_perm (moveLast_perm todo)] at hwork
      obtain ⟨a1, a2⟩ := cutLoop_spec k b n kept
        ((cuts s k b).foldl (addSpace kept) (moveLast todo)) (by omega) (by
          intro e he
          rcases addSpaces_sub kept _ _ he with he | he
          · exact hp e (List.mem_cons_of_mem _ (mem_moveLast.mp he))
          · exact ⟨(hcut e he).2.1, (hcut e he).2.2.1, (hcut e he).2.2.2.1⟩) hk
      refine ⟨fun e he => ⟨(a1 e he).1, ?_⟩, fun q h1 h2 h0 h3 h4 => a2 q h1 h2 h0 h3 ?_⟩
      · rcases (a1 e he).2 with h | ⟨p1, p2, p3, t, ht, hwt⟩
        · exact Or.inl h
        · refine Or.inr ⟨p1, p2, p3, ?_⟩
          rcases addSpaces_sub kept _ _ ht with ht | ht
          · exact ⟨t, List.mem_cons_of_mem _ (mem_moveLast.mp ht), hwt⟩
          · exact ⟨s, by simp, hwt.trans (hcut t ht).1⟩
      · obtain ⟨e, he, hqe⟩ := h4
        rcases List.mem_append.mp he with he | he
        · exact ⟨e, List.mem_append_left _ he, hqe⟩
        · rcases List.mem_cons.mp he with rfl | he
          · obtain ⟨c, hc, hqc, c1, c2, c3⟩ := cuts_cover hqe h1 h2 h0 h3
            exact addSpaces_cover kept _ _ hc c1 c2 c3 hqc
          · exact ⟨e, List.mem_append_right _
              (addSpaces_mono kept _ _ (mem_moveLast.mpr he)), hqe⟩
    · rw [if_neg ho] at hw'
      have hof : overlaps s k b = false := by simpa using ho
      rw [if_pos (by rw [hof]; rfl)]
      obtain ⟨a1, a2⟩ := cutLoop_spec k b n (kept ++ [s]) todo (by omega)
        (fun e he => hp e (List.mem_cons_of_mem _ he)) (by
          intro e he
          rcases List.mem_append.mp he with he | he
          · exact hk e he
          · rw [List.mem_singleton.mp he]; exact hof)
      rw [List.append_assoc] at a2
      refine ⟨fun e he => ⟨(a1 e he).1, ?_⟩, a2⟩
      rcases (a1 e he).2 with h | ⟨p1, p2, p3, t, ht, hwt⟩
      · rcases List.mem_append.mp h with h | h
        · exact Or.inl h
        · rw [List.mem_singleton] at h; subst h
          exact Or.inr ⟨(hp e (by simp)).1, (hp e (by simp)).2.1, (hp e (by simp)).2.2, e, by simp, within_refl e⟩
      · exact Or.inr ⟨p1, p2, p3, t, List.mem_cons_of_mem _ ht, hwt⟩

/-- Cutting a box out of a list of spaces. -/
theorem cutSpaces_spec {l : List Space} (k : Corner) (b : Dims) (hp : ∀ s ∈ l, 0 ≤ s.dx ∧ 0 ≤ s.dy ∧ 0 ≤ s.dz) :
    (∀ s ∈ cutSpaces l k b, Separated s.rect (boxAt k b) ∧ 0 ≤ s.dx ∧ 0 ≤ s.dy ∧ 0 ≤ s.dz
      ∧ ∃ t ∈ l, Within s.rect t)
    ∧ ∀ q : Placed, 0 < q.dx → 0 < q.dy → 0 < q.dz → Separated q (boxAt k b) → Covered l q →
      Covered (cutSpaces l k b) q := by
  obtain ⟨a1, a2⟩ := cutLoop_spec k b (7 * l.length) [] l (work_le k b l) hp (by simp)
  refine ⟨fun s hs => ?_, fun q h1 h2 h0 h3 h4 => a2 q h1 h2 h0 h3 h4⟩
  obtain ⟨b1, b2⟩ := a1 s hs
  rcases b2 with b2 | ⟨p1, p2, p3, b3⟩
  · exact absurd b2 List.not_mem_nil
  · exact ⟨overlaps_false.mp b1, p1, p2, p3, b3⟩

end PackingSolver.Box.MaximalSpaces
