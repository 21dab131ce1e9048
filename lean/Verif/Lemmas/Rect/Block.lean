import Verif.Spec.RectBlock
import Mathlib.Tactic.Linarith
import Mathlib.Tactic.Ring

/-!
# Lemmas about blocks of rectangles
-/

namespace PackingSolver.Rect

open PackingSolver.Rect.Spec

namespace Block

/-- Number of copies of an item type in a list of numbers of copies. -/
def cnt (l : List (Nat × Int)) (i : Nat) : Int := (l.map fun p => if p.1 = i then p.2 else 0).sum

@[simp] theorem cnt_nil (i : Nat) : cnt [] i = 0 := rfl

@[simp] theorem cnt_cons (p : Nat × Int) (l : List (Nat × Int)) (i : Nat) :
    cnt (p :: l) i = (if p.1 = i then p.2 else 0) + cnt l i := by simp [cnt]

theorem cnt_merge : ∀ (n : Nat) (as bs : List (Nat × Int)), as.length + bs.length ≤ n →
    ∀ i, cnt (mergeCopiesLoop n as bs) i = cnt as i + cnt bs i := by
  intro n
  induction n with
  | zero =>
    intro as bs h i
    have ha : as = [] := List.length_eq_zero_iff.mp (by omega)
    have hb : bs = [] := List.length_eq_zero_iff.mp (by omega)
    subst ha; subst hb; rfl
  | succ n ih =>
    intro as bs h i
    cases as with
    | nil =>
      cases bs with
      | nil => rfl
      | cons b bs =>
        simp only [List.length_nil, List.length_cons] at h
        simp only [mergeCopiesLoop, cnt_cons, cnt_nil]
        rw [ih [] bs (by simp only [List.length_nil]; omega)]; simp
    | cons a as =>
      cases bs with
      | nil =>
        simp only [List.length_nil, List.length_cons] at h
        simp only [mergeCopiesLoop, cnt_cons, cnt_nil]
        rw [ih as [] (by simp only [List.length_nil]; omega)]; simp
      | cons b bs =>
        simp only [List.length_cons] at h
        unfold mergeCopiesLoop
        by_cases h1 : a.1 < b.1
        · rw [if_pos h1, cnt_cons, ih as (b :: bs) (by simp only [List.length_cons]; omega),
            cnt_cons a as]; ring
        · rw [if_neg h1]
          by_cases h2 : a.1 > b.1
          · rw [if_pos h2, cnt_cons, ih (a :: as) bs (by simp only [List.length_cons]; omega),
              cnt_cons b bs]; ring
          · rw [if_neg h2, cnt_cons, ih as bs (by omega), cnt_cons, cnt_cons]
            have e : a.1 = b.1 := by omega
            rw [← e]; dsimp only
            split <;> ring

theorem sum_merge : ∀ (n : Nat) (as bs : List (Nat × Int)), as.length + bs.length ≤ n →
    ((mergeCopiesLoop n as bs).map fun p => p.2).sum
      = (as.map fun p => p.2).sum + (bs.map fun p => p.2).sum := by
  intro n
  induction n with
  | zero =>
    intro as bs h
    have ha : as = [] := List.length_eq_zero_iff.mp (by omega)
    have hb : bs = [] := List.length_eq_zero_iff.mp (by omega)
    subst ha; subst hb; rfl
  | succ n ih =>
    intro as bs h
    cases as with
    | nil =>
      cases bs with
      | nil => rfl
      | cons b bs =>
        simp only [List.length_nil, List.length_cons] at h
        simp only [mergeCopiesLoop, List.map_cons, List.sum_cons]
        rw [ih [] bs (by simp only [List.length_nil]; omega)]; simp
    | cons a as =>
      cases bs with
      | nil =>
        simp only [List.length_nil, List.length_cons] at h
        simp only [mergeCopiesLoop, List.map_cons, List.sum_cons]
        rw [ih as [] (by simp only [List.length_nil]; omega)]; simp
      | cons b bs =>
        simp only [List.length_cons] at h
        unfold mergeCopiesLoop
        by_cases h1 : a.1 < b.1
        · rw [if_pos h1, List.map_cons, List.sum_cons,
            ih as (b :: bs) (by simp only [List.length_cons]; omega)]
          simp only [List.map_cons, List.sum_cons]; ring
        · rw [if_neg h1]
          by_cases h2 : a.1 > b.1
          · rw [if_pos h2, List.map_cons, List.sum_cons,
              ih (a :: as) bs (by simp only [List.length_cons]; omega)]
            simp only [List.map_cons, List.sum_cons]; ring
          · rw [if_neg h2, List.map_cons, List.sum_cons, ih as bs (by omega)]
            simp only [List.map_cons, List.sum_cons]; ring

theorem key_mem_merge : ∀ (n : Nat) (as bs : List (Nat × Int)) (p : Nat × Int),
    p ∈ mergeCopiesLoop n as bs → (∃ q ∈ as, q.1 = p.1) ∨ ∃ q ∈ bs, q.1 = p.1 := by
  intro n
  induction n with
  | zero => intro as bs p h; simp [mergeCopiesLoop] at h
  | succ n ih =>
    intro as bs p h
    cases as with
    | nil =>
      cases bs with
      | nil => simp [mergeCopiesLoop] at h
      | cons b bs =>
        simp only [mergeCopiesLoop, List.mem_cons] at h
        rcases h with h | h
        · exact .inr ⟨b, by simp, by rw [h]⟩
        · rcases ih _ _ _ h with ⟨q, hq, e⟩ | ⟨q, hq, e⟩
          · simp at hq
          · exact .inr ⟨q, List.mem_cons_of_mem _ hq, e⟩
    | cons a as =>
      cases bs with
      | nil =>
        simp only [mergeCopiesLoop, List.mem_cons] at h
        rcases h with h | h
        · exact .inl ⟨a, by simp, by rw [h]⟩
        · rcases ih _ _ _ h with ⟨q, hq, e⟩ | ⟨q, hq, e⟩
          · exact .inl ⟨q, List.mem_cons_of_mem _ hq, e⟩
          · simp at hq
      | cons b bs =>
        unfold mergeCopiesLoop at h
        by_cases h1 : a.1 < b.1
        · rw [if_pos h1] at h
          rcases List.mem_cons.mp h with h | h
          · exact .inl ⟨a, by simp, by rw [h]⟩
          · rcases ih _ _ _ h with ⟨q, hq, e⟩ | ⟨q, hq, e⟩
            · exact .inl ⟨q, List.mem_cons_of_mem _ hq, e⟩
            · exact .inr ⟨q, hq, e⟩
        · rw [if_neg h1] at h
          by_cases h2 : a.1 > b.1
          · rw [if_pos h2] at h
            rcases List.mem_cons.mp h with h | h
            · exact .inr ⟨b, by simp, by rw [h]⟩
            · rcases ih _ _ _ h with ⟨q, hq, e⟩ | ⟨q, hq, e⟩
              · exact .inl ⟨q, hq, e⟩
              · exact .inr ⟨q, List.mem_cons_of_mem _ hq, e⟩
          · rw [if_neg h2] at h
            rcases List.mem_cons.mp h with h | h
            · exact .inl ⟨a, by simp, by rw [h]⟩
            · rcases ih _ _ _ h with ⟨q, hq, e⟩ | ⟨q, hq, e⟩
              · exact .inl ⟨q, List.mem_cons_of_mem _ hq, e⟩
              · exact .inr ⟨q, List.mem_cons_of_mem _ hq, e⟩

/-- Increasing ids. -/
abbrev Incr (l : List (Nat × Int)) : Prop := l.Pairwise fun p q => p.1 < q.1

/-- Positive numbers of copies. -/
abbrev Pos (l : List (Nat × Int)) : Prop := ∀ p ∈ l, 0 < p.2

theorem incr_merge : ∀ (n : Nat) (as bs : List (Nat × Int)), Incr as → Incr bs →
    Incr (mergeCopiesLoop n as bs) := by
  intro n
  induction n with
  | zero => intro as bs _ _; exact List.Pairwise.nil
  | succ n ih =>
    intro as bs ha hb
    cases as with
    | nil =>
      cases bs with
      | nil => exact List.Pairwise.nil
      | cons b bs =>
        have hb' := List.pairwise_cons.mp hb
        refine List.pairwise_cons.mpr ⟨?_, ih _ _ ha hb'.2⟩
        intro p hp
        rcases key_mem_merge _ _ _ _ hp with ⟨q, hq, e⟩ | ⟨q, hq, e⟩
        · simp at hq
        · rw [← e]; exact hb'.1 q hq
    | cons a as =>
      have ha' := List.pairwise_cons.mp ha
      cases bs with
      | nil =>
        refine List.pairwise_cons.mpr ⟨?_, ih _ _ ha'.2 hb⟩
        intro p hp
        rcases key_mem_merge _ _ _ _ hp with ⟨q, hq, e⟩ | ⟨q, hq, e⟩
        · rw [← e]; exact ha'.1 q hq
        · simp at hq
      | cons b bs =>
        have hb' := List.pairwise_cons.mp hb
        unfold mergeCopiesLoop
        by_cases h1 : a.1 < b.1
        · rw [if_pos h1]
          refine List.pairwise_cons.mpr ⟨?_, ih _ _ ha'.2 hb⟩
          intro p hp
          rcases key_mem_merge _ _ _ _ hp with ⟨q, hq, e⟩ | ⟨q, hq, e⟩
          · rw [← e]; exact ha'.1 q hq
          · rw [← e]
            rcases List.mem_cons.mp hq with hq | hq
            · rw [hq]; exact h1
            · exact lt_trans h1 (hb'.1 q hq)
        · rw [if_neg h1]
          by_cases h2 : a.1 > b.1
          · rw [if_pos h2]
            refine List.pairwise_cons.mpr ⟨?_, ih _ _ ha hb'.2⟩
            intro p hp
            rcases key_mem_merge _ _ _ _ hp with ⟨q, hq, e⟩ | ⟨q, hq, e⟩
            · rw [← e]
              rcases List.mem_cons.mp hq with hq | hq
              · rw [hq]; exact h2
              · exact lt_trans h2 (ha'.1 q hq)
            · rw [← e]; exact hb'.1 q hq
          · rw [if_neg h2]
            refine List.pairwise_cons.mpr ⟨?_, ih _ _ ha'.2 hb'.2⟩
            intro p hp
            have e' : a.1 = b.1 := by omega
            rcases key_mem_merge _ _ _ _ hp with ⟨q, hq, e⟩ | ⟨q, hq, e⟩
            · rw [← e]; exact ha'.1 q hq
            · rw [← e]
              show a.1 < q.1
              rw [e']; exact hb'.1 q hq

theorem pos_merge : ∀ (n : Nat) (as bs : List (Nat × Int)), Pos as → Pos bs →
    Pos (mergeCopiesLoop n as bs) := by
  intro n
  induction n with
  | zero => intro as bs _ _ p hp; simp [mergeCopiesLoop] at hp
  | succ n ih =>
    intro as bs ha hb p hp
    cases as with
    | nil =>
      cases bs with
      | nil => simp [mergeCopiesLoop] at hp
      | cons b bs =>
        rcases List.mem_cons.mp hp with h | h
        · rw [h]; exact hb b (by simp)
        · exact ih _ _ ha (fun q hq => hb q (List.mem_cons_of_mem _ hq)) p h
    | cons a as =>
      have ha' : Pos as := fun q hq => ha q (List.mem_cons_of_mem _ hq)
      cases bs with
      | nil =>
        rcases List.mem_cons.mp hp with h | h
        · rw [h]; exact ha a (by simp)
        · exact ih _ _ ha' hb p h
      | cons b bs =>
        have hb' : Pos bs := fun q hq => hb q (List.mem_cons_of_mem _ hq)
        unfold mergeCopiesLoop at hp
        by_cases h1 : a.1 < b.1
        · rw [if_pos h1] at hp
          rcases List.mem_cons.mp hp with h | h
          · rw [h]; exact ha a (by simp)
          · exact ih _ _ ha' hb p h
        · rw [if_neg h1] at hp
          by_cases h2 : a.1 > b.1
          · rw [if_pos h2] at hp
            rcases List.mem_cons.mp hp with h | h
            · rw [h]; exact hb b (by simp)
            · exact ih _ _ ha hb' p h
          · rw [if_neg h2] at hp
            rcases List.mem_cons.mp hp with h | h
            · rw [h]
              have h3 := ha a (by simp)
              have h4 := hb b (by simp)
              show 0 < a.2 + b.2
              omega
            · exact ih _ _ ha' hb' p h

theorem cnt_eq_zero {l : List (Nat × Int)} {i : Nat} (h : ∀ p ∈ l, p.1 ≠ i) : cnt l i = 0 := by
  induction l with
  | nil => rfl
  | cons p l ih =>
    rw [cnt_cons, if_neg (h p (by simp)), ih (fun q hq => h q (List.mem_cons_of_mem _ hq))]; rfl

/-- In a list with increasing ids and positive numbers the entries are the item types with a
positive count. -/
theorem mem_iff_cnt {l : List (Nat × Int)} (hs : Incr l) (hp : Pos l) (i : Nat) (c : Int) :
    (i, c) ∈ l ↔ c = cnt l i ∧ 0 < c := by
  induction l with
  | nil => simp only [List.not_mem_nil, cnt_nil, false_iff]; omega
  | cons p l ih =>
    have hs' := List.pairwise_cons.mp hs
    have hp' : Pos l := fun q hq => hp q (List.mem_cons_of_mem _ hq)
    have ih := ih hs'.2 hp'
    rw [List.mem_cons, cnt_cons]
    by_cases e : p.1 = i
    · have hz : cnt l i = 0 := cnt_eq_zero (fun q hq => by have := hs'.1 q hq; omega)
      rw [if_pos e, hz]
      constructor
      · rintro (h | h)
        · have h2 : c = p.2 := by rw [← h]
          have := hp p (by simp)
          exact ⟨by omega, by omega⟩
        · have := hs'.1 _ h
          simp only at this; omega
      · rintro ⟨h1, _⟩
        left
        exact Prod.ext e.symm (by simpa using h1)
    · rw [if_neg e, zero_add, ← ih]
      constructor
      · rintro (h | h)
        · exact absurd (by rw [← h]) e
        · exact h
      · exact fun h => .inr h

/-! ## Validity -/

/-- What the generated blocks satisfy. -/
structure Inv (inst : Instance) (bt : BinType) (b : Block) : Prop where
  exist : ∀ p ∈ b.items, p.itemTypeId < inst.numberOfItemTypes
  rotation : ∀ p ∈ b.items, p.rotate = true → (inst.itemType p.itemTypeId).oriented = false
  inside : ∀ p ∈ b.items, Inside b.x b.y (occupies inst p)
  startsX : ∃ p ∈ b.items, p.x = 0
  startsY : ∃ p ∈ b.items, p.y = 0
  touchesX : ∃ p ∈ b.items, rightEnd inst p = b.x
  touchesY : ∃ p ∈ b.items, upperEnd inst p = b.y
  separated : b.items.Pairwise fun p q => Separated (occupies inst p) (occupies inst q)
  area : b.itemArea
    = (b.items.map fun p => (inst.itemType p.itemTypeId).x * (inst.itemType p.itemTypeId).y).sum
  profit : b.itemProfit = itemsProfit inst b.items
  weight : b.weight = binWeight inst b.items
  number : b.numberOfItems = (b.items.length : Int)
  incr : Incr b.itemCopies
  pos : Pos b.itemCopies
  cnt : ∀ i, cnt b.itemCopies i = count b.items i
  copies : ∀ p ∈ b.itemCopies, p.2 ≤ (inst.itemType p.1).copies
  total : b.numberOfItems = (b.itemCopies.map fun p => p.2).sum
  fitX : b.x ≤ bt.x
  fitY : b.y ≤ bt.y
  posX : 0 < b.x
  posY : 0 < b.y

theorem count_nonneg (l : List PlacedItem) (i : Nat) : 0 ≤ count l i := Int.natCast_nonneg _

theorem Inv.listed {inst : Instance} {bt : BinType} {b : Block} (h : Inv inst bt b) (i : Nat)
    (c : Int) : (i, c) ∈ b.itemCopies ↔ c = count b.items i ∧ 0 < c := by
  rw [mem_iff_cnt h.incr h.pos, h.cnt]

theorem Inv.withinCopies {inst : Instance} {bt : BinType} {b : Block} (h : Inv inst bt b)
    (hp : ∀ i, i < inst.numberOfItemTypes → 0 ≤ (inst.itemType i).copies) :
    WithinCopies inst b.items := by
  intro i hi
  by_cases h0 : 0 < count b.items i
  · exact h.copies _ ((h.listed i _).mpr ⟨rfl, h0⟩)
  · have := hp i hi
    omega

theorem Inv.ok {inst : Instance} {bt : BinType} {b : Block} (h : Inv inst bt b)
    (hp : ∀ i, i < inst.numberOfItemTypes → 0 ≤ (inst.itemType i).copies) : BlockOk inst b :=
  ⟨h.exist, h.rotation, h.inside, h.startsX, h.startsY, h.touchesX, h.touchesY, h.separated, h.withinCopies hp, h.area,
    h.profit, h.weight, h.number, h.listed, h.incr⟩

theorem sum_const_int {α : Type} (l : List α) (f : α → Int) (c : Int) (h : ∀ a ∈ l, f a = c) :
    (l.map f).sum = l.length * c := by
  induction l with
  | nil => simp
  | cons a l ih =>
    rw [List.map_cons, List.sum_cons, h a (by simp), ih (fun b hb => h b (List.mem_cons_of_mem _ hb)),
      List.length_cons]
    push_cast; ring

theorem sum_const_rat {α : Type} (l : List α) (f : α → ℚ) (c : ℚ) (h : ∀ a ∈ l, f a = c) :
    (l.map f).sum = l.length * c := by
  induction l with
  | nil => simp
  | cons a l ih =>
    rw [List.map_cons, List.sum_cons, h a (by simp), ih (fun b hb => h b (List.mem_cons_of_mem _ hb)),
      List.length_cons]
    push_cast; ring

/-- The items of a grid. -/
def grid (i : Nat) (rotate : Bool) (bx by' : Int) (cx cy : Nat) : List PlacedItem :=
  (List.range cx).flatMap fun (a : Nat) => (List.range cy).map fun (b : Nat) =>
    ⟨i, a * bx, b * by', rotate⟩

theorem mem_grid {i : Nat} {rotate : Bool} {bx by' : Int} {cx cy : Nat} {p : PlacedItem} :
    p ∈ grid i rotate bx by' cx cy ↔
      ∃ a < cx, ∃ b < cy, p = ⟨i, a * bx, b * by', rotate⟩ := by
  simp only [grid, List.mem_flatMap, List.mem_range, List.mem_map]
  constructor
  · rintro ⟨a, ha, b, hb, e⟩; exact ⟨a, ha, b, hb, e.symm⟩
  · rintro ⟨a, ha, b, hb, e⟩; exact ⟨a, ha, b, hb, e.symm⟩

theorem length_grid (i : Nat) (rotate : Bool) (bx by' : Int) (cx cy : Nat) :
    (grid i rotate bx by' cx cy).length = cx * cy := by
  unfold grid
  rw [List.length_flatMap]
  simp

theorem count_grid (i : Nat) (rotate : Bool) (bx by' : Int) (cx cy j : Nat) :
    count (grid i rotate bx by' cx cy) j = if i = j then ((cx * cy : Nat) : Int) else 0 := by
  unfold count
  by_cases e : i = j
  · rw [if_pos e, List.countP_eq_length.mpr, length_grid]
    intro p hp
    obtain ⟨a, _, b, _, rfl⟩ := mem_grid.mp hp
    simpa using e
  · rw [if_neg e, List.countP_eq_zero.mpr]; · rfl
    intro p hp
    obtain ⟨a, _, b, _, rfl⟩ := mem_grid.mp hp
    simpa using e

theorem mul_step {a b : Nat} {w : Int} (hw : 0 < w) (h : a < b) :
    (a : Int) * w + w ≤ (b : Int) * w := by
  have h1 : (a : Int) + 1 ≤ b := by exact_mod_cast h
  nlinarith

theorem separated_grid (inst : Instance) (i : Nat) (rotate : Bool) (cx cy : Nat)
    (hx : 0 < (inst.itemType i).width rotate) (hy : 0 < (inst.itemType i).height rotate) :
    (grid i rotate ((inst.itemType i).width rotate) ((inst.itemType i).height rotate) cx cy).Pairwise
      fun p q => Separated (occupies inst p) (occupies inst q) := by
  unfold grid
  rw [List.pairwise_flatMap]
  constructor
  · intro a _
    rw [List.pairwise_map]
    refine List.Pairwise.imp ?_ List.pairwise_lt_range
    intro b b' hb
    exact .inr (.inr (.inl (mul_step hy hb)))
  · refine List.Pairwise.imp ?_ List.pairwise_lt_range
    intro a a' ha p hp q hq
    obtain ⟨b, _, rfl⟩ := List.mem_map.mp hp
    obtain ⟨b', _, rfl⟩ := List.mem_map.mp hq
    exact .inl (mul_step hx ha)

theorem width_mul_height (t : ItemType) (r : Bool) : t.width r * t.height r = t.x * t.y := by
  cases r
  · rfl
  · show t.y * t.x = _; ring

theorem inv_simple {inst : Instance} {bt : BinType} {i : Nat} {rotate : Bool} {cx cy : Nat}
    (hi : i < inst.numberOfItemTypes) (hr : rotate = true → (inst.itemType i).oriented = false)
    (hx : 0 < (inst.itemType i).width rotate) (hy : 0 < (inst.itemType i).height rotate)
    (h1 : 1 ≤ cx) (h2 : 1 ≤ cy) (hc : ((cx * cy : Nat) : Int) ≤ (inst.itemType i).copies)
    (hfx : (cx : Int) * (inst.itemType i).width rotate ≤ bt.x)
    (hfy : (cy : Int) * (inst.itemType i).height rotate ≤ bt.y) :
    Inv inst bt (simple inst i rotate cx cy) := by
  have hitems : (simple inst i rotate cx cy).items
      = grid i rotate ((inst.itemType i).width rotate) ((inst.itemType i).height rotate) cx cy := rfl
  have hpos : 0 < cx * cy := Nat.mul_pos h1 h2
  refine ⟨?_, ?_, ?_, ?_, ?_, ?_, ?_, ?_, ?_, ?_, ?_, ?_, ?_, ?_, ?_, ?_, ?_, hfx, hfy, ?_, ?_⟩
  · intro p hp
    rw [hitems] at hp
    obtain ⟨a, _, b, _, rfl⟩ := mem_grid.mp hp
    exact hi
  · intro p hp
    rw [hitems] at hp
    obtain ⟨a, _, b, _, rfl⟩ := mem_grid.mp hp
    exact hr
  · intro p hp
    rw [hitems] at hp
    obtain ⟨a, ha, b, hb, rfl⟩ := mem_grid.mp hp
    exact ⟨mul_nonneg (Int.natCast_nonneg _) hx.le, mul_step hx ha,
      mul_nonneg (Int.natCast_nonneg _) hy.le, mul_step hy hb⟩
  · exact ⟨_, by rw [hitems]; exact mem_grid.mpr ⟨0, h1, 0, h2, rfl⟩, by simp⟩
  · exact ⟨_, by rw [hitems]; exact mem_grid.mpr ⟨0, h1, 0, h2, rfl⟩, by simp⟩
  · refine ⟨⟨i, ((cx - 1 : Nat) : Int) * (inst.itemType i).width rotate,
      ((cy - 1 : Nat) : Int) * (inst.itemType i).height rotate, rotate⟩, ?_, ?_⟩
    · rw [hitems]; exact mem_grid.mpr ⟨cx - 1, by omega, cy - 1, by omega, rfl⟩
    · show ((cx - 1 : Nat) : Int) * (inst.itemType i).width rotate
        + (inst.itemType i).width rotate = cx * (inst.itemType i).width rotate
      push_cast [h1]; ring
  · refine ⟨⟨i, ((cx - 1 : Nat) : Int) * (inst.itemType i).width rotate,
      ((cy - 1 : Nat) : Int) * (inst.itemType i).height rotate, rotate⟩, ?_, ?_⟩
    · rw [hitems]; exact mem_grid.mpr ⟨cx - 1, by omega, cy - 1, by omega, rfl⟩
    · show ((cy - 1 : Nat) : Int) * (inst.itemType i).height rotate
        + (inst.itemType i).height rotate = cy * (inst.itemType i).height rotate
      push_cast [h2]; ring
  · rw [hitems]; exact separated_grid inst i rotate cx cy hx hy
  · rw [hitems, sum_const_int _ _ ((inst.itemType i).x * (inst.itemType i).y), length_grid]
    · show (cx : Int) * cy * (inst.itemType i).area = _
      unfold ItemType.area; push_cast; ring
    · intro p hp
      obtain ⟨a, _, b, _, rfl⟩ := mem_grid.mp hp
      rfl
  · unfold itemsProfit
    rw [hitems, sum_const_rat _ _ (inst.itemType i).profit, length_grid]
    · show ((cx * cy : Int) : ℚ) * (inst.itemType i).profit = _
      push_cast; ring
    · intro p hp
      obtain ⟨a, _, b, _, rfl⟩ := mem_grid.mp hp
      rfl
  · unfold binWeight
    rw [hitems, sum_const_rat _ _ (inst.itemType i).weight, length_grid]
    · show ((cx * cy : Int) : ℚ) * (inst.itemType i).weight = _
      push_cast; ring
    · intro p hp
      obtain ⟨a, _, b, _, rfl⟩ := mem_grid.mp hp
      rfl
  · rw [hitems, length_grid]; show (cx : Int) * cy = _; push_cast; ring
  · exact List.pairwise_singleton _ _
  · intro p hp
    rw [show p = (i, (cx : Int) * cy) from List.mem_singleton.mp hp]
    show (0 : Int) < (cx : Int) * cy
    exact_mod_cast hpos
  · intro j
    rw [hitems, count_grid]
    show Block.cnt [(i, (cx : Int) * cy)] j = _
    simp
  · intro p hp
    rw [show p = (i, (cx : Int) * cy) from List.mem_singleton.mp hp]
    show (cx : Int) * cy ≤ (inst.itemType i).copies
    exact_mod_cast hc
  · show (cx : Int) * cy = ([(i, (cx : Int) * cy)].map fun p => p.2).sum
    simp
  · exact mul_pos (by exact_mod_cast h1) hx
  · exact mul_pos (by exact_mod_cast h2) hy

/-- The second block's items in a combination. -/
def shift (dx dy : Int) (p : PlacedItem) : PlacedItem := { p with x := p.x + dx, y := p.y + dy }

theorem combine_items (a b : Block) (d : Bool) : (combine a b d).items
    = a.items ++ b.items.map (shift (if d then a.x else 0) (if d then 0 else a.y)) := by
  unfold combine
  dsimp only
  congr 1
  apply List.map_congr_left
  intro p _
  cases d <;> simp [shift]

theorem occupies_shift (inst : Instance) (dx dy : Int) (p : PlacedItem) :
    occupies inst (shift dx dy p)
      = ⟨(occupies inst p).x + dx, (occupies inst p).y + dy, (occupies inst p).w,
          (occupies inst p).h⟩ := rfl

theorem separated_shift {r s : Placed} {dx dy : Int} (h : Separated r s) :
    Separated ⟨r.x + dx, r.y + dy, r.w, r.h⟩ ⟨s.x + dx, s.y + dy, s.w, s.h⟩ := by
  unfold Separated at *
  dsimp only
  omega

theorem count_append (l l' : List PlacedItem) (i : Nat) :
    count (l ++ l') i = count l i + count l' i := by
  unfold count; rw [List.countP_append]; push_cast; rfl

theorem count_map_type {f : PlacedItem → PlacedItem} (hf : ∀ p, (f p).itemTypeId = p.itemTypeId)
    (l : List PlacedItem) (i : Nat) : count (l.map f) i = count l i := by
  unfold count
  rw [List.countP_map]
  congr 2
  funext p
  simp [hf]

theorem inv_combine {inst : Instance} {bt : BinType} {a b : Block} (d : Bool)
    (ha : Inv inst bt a) (hb : Inv inst bt b) (hx : (combine a b d).x ≤ bt.x)
    (hy : (combine a b d).y ≤ bt.y) (hc : validCopies inst a.itemCopies b.itemCopies = true) :
    Inv inst bt (combine a b d) := by
  have hX : (combine a b d).x = if d then a.x + b.x else max a.x b.x := rfl
  have hY : (combine a b d).y = if d then max a.y b.y else a.y + b.y := rfl
  have hax := ha.posX
  have hay := ha.posY
  have hbx := hb.posX
  have hby := hb.posY
  have hmem : ∀ p ∈ (combine a b d).items, p ∈ a.items
      ∨ ∃ q ∈ b.items, p = shift (if d then a.x else 0) (if d then 0 else a.y) q := by
    intro p hp
    rw [combine_items] at hp
    rcases List.mem_append.mp hp with h | h
    · exact .inl h
    · obtain ⟨q, hq, e⟩ := List.mem_map.mp h
      exact .inr ⟨q, hq, e.symm⟩
  refine ⟨?_, ?_, ?_, ?_, ?_, ?_, ?_, ?_, ?_, ?_, ?_, ?_, ?_, ?_, ?_, ?_, ?_, hx, hy, ?_, ?_⟩
  · intro p hp
    rcases hmem p hp with h | ⟨q, hq, rfl⟩
    · exact ha.exist p h
    · exact hb.exist q hq
  · intro p hp
    rcases hmem p hp with h | ⟨q, hq, rfl⟩
    · exact ha.rotation p h
    · exact hb.rotation q hq
  · intro p hp
    rw [hX, hY]
    rcases hmem p hp with h | ⟨q, hq, rfl⟩
    · have := ha.inside p h
      unfold Inside at *
      cases d
      · simp only [Bool.false_eq_true, if_false]; omega
      · simp only [if_true]; omega
    · have := hb.inside q hq
      rw [occupies_shift]
      unfold Inside at *
      cases d
      · simp only [Bool.false_eq_true, if_false]; omega
      · simp only [if_true]; omega
  · obtain ⟨p, hp, e⟩ := ha.startsX
    exact ⟨p, by rw [combine_items]; exact List.mem_append_left _ hp, e⟩
  · obtain ⟨p, hp, e⟩ := ha.startsY
    exact ⟨p, by rw [combine_items]; exact List.mem_append_left _ hp, e⟩
  · rw [hX, combine_items]
    cases d
    · simp only [Bool.false_eq_true, if_false]
      by_cases hle : a.x ≤ b.x
      · obtain ⟨p, hp, e⟩ := hb.touchesX
        refine ⟨shift 0 a.y p, List.mem_append_right _ (List.mem_map_of_mem hp), ?_⟩
        rw [max_eq_right hle, ← e]
        show (occupies inst p).x + 0 + (occupies inst p).w = (occupies inst p).x + (occupies inst p).w
        omega
      · obtain ⟨p, hp, e⟩ := ha.touchesX
        exact ⟨p, List.mem_append_left _ hp, by rw [max_eq_left (by omega)]; exact e⟩
    · simp only [if_true]
      obtain ⟨p, hp, e⟩ := hb.touchesX
      refine ⟨shift a.x 0 p, List.mem_append_right _ (List.mem_map_of_mem hp), ?_⟩
      rw [← e]
      show (occupies inst p).x + a.x + (occupies inst p).w
        = a.x + ((occupies inst p).x + (occupies inst p).w)
      omega
  · rw [hY, combine_items]
    cases d
    · simp only [Bool.false_eq_true, if_false]
      obtain ⟨p, hp, e⟩ := hb.touchesY
      refine ⟨shift 0 a.y p, List.mem_append_right _ (List.mem_map_of_mem hp), ?_⟩
      rw [← e]
      show (occupies inst p).y + a.y + (occupies inst p).h
        = a.y + ((occupies inst p).y + (occupies inst p).h)
      omega
    · simp only [if_true]
      by_cases hle : a.y ≤ b.y
      · obtain ⟨p, hp, e⟩ := hb.touchesY
        refine ⟨shift a.x 0 p, List.mem_append_right _ (List.mem_map_of_mem hp), ?_⟩
        rw [max_eq_right hle, ← e]
        show (occupies inst p).y + 0 + (occupies inst p).h = (occupies inst p).y + (occupies inst p).h
        omega
      · obtain ⟨p, hp, e⟩ := ha.touchesY
        exact ⟨p, List.mem_append_left _ hp, by rw [max_eq_left (by omega)]; exact e⟩
  · rw [combine_items, List.pairwise_append]
    refine ⟨ha.separated, ?_, ?_⟩
    · rw [List.pairwise_map]
      exact hb.separated.imp fun h => by rw [occupies_shift, occupies_shift]; exact separated_shift h
    · intro p hp q hq
      obtain ⟨q', hq', rfl⟩ := List.mem_map.mp hq
      have h1 := ha.inside p hp
      have h2 := hb.inside q' hq'
      rw [occupies_shift]
      unfold Inside at *
      unfold Separated
      cases d
      · simp only [Bool.false_eq_true, if_false]; omega
      · simp only [if_true]; omega
  · rw [combine_items, List.map_append, List.sum_append, List.map_map]
    show a.itemArea + b.itemArea = _
    rw [ha.area, hb.area]; rfl
  · unfold itemsProfit
    rw [combine_items, List.map_append, List.sum_append, List.map_map]
    show a.itemProfit + b.itemProfit = _
    rw [ha.profit, hb.profit]; rfl
  · unfold binWeight
    rw [combine_items, List.map_append, List.sum_append, List.map_map]
    show a.weight + b.weight = _
    rw [ha.weight, hb.weight]; rfl
  · rw [combine_items, List.length_append, List.length_map]
    show a.numberOfItems + b.numberOfItems = _
    rw [ha.number, hb.number]; push_cast; rfl
  · exact incr_merge _ _ _ ha.incr hb.incr
  · exact pos_merge _ _ _ ha.pos hb.pos
  · intro i
    rw [combine_items, count_append, count_map_type (f := shift _ _) (fun _ => rfl), ← ha.cnt, ← hb.cnt]
    exact cnt_merge _ _ _ (le_refl _) i
  · intro p hp
    have := List.all_eq_true.mp hc p hp
    simpa using this
  · show a.numberOfItems + b.numberOfItems = ((mergeCopies a.itemCopies b.itemCopies).map _).sum
    rw [ha.total, hb.total]
    exact (sum_merge _ _ _ (le_refl _)).symm
  · rw [hX]
    cases d
    · simp only [Bool.false_eq_true, if_false]; omega
    · simp only [if_true]; omega
  · rw [hY]
    cases d
    · simp only [Bool.false_eq_true, if_false]; omega
    · simp only [if_true]; omega

end Block

end PackingSolver.Rect
