import Verif.Lemmas.Box.Block
import Verif.Lemmas.Rect.ReachLengths

/-!
# Lemmas about reachable lengths of boxes
-/

namespace PackingSolver.Box

open PackingSolver.Box.Spec
open Rect (Tab tab_init tab_steps chain card_filter_range)

/-! ## The tables -/

/-- The totals attained by the first `k` item types. -/
def AttainedBy (inst : Instance) (d : Axis) (k : Nat) (v : Int) : Prop :=
  ∃ l : List (Nat × Rotation),
    (∀ p ∈ l, p.1 < k ∧ p.2 ∈ (inst.itemType p.1).rotations)
    ∧ (∀ i, ((l.countP fun p => p.1 = i : Nat) : Int) ≤ max 0 (inst.itemType i).copies)
    ∧ v = (l.map fun p => lengthAlong inst d p.1 p.2).sum

/-- No item has a negative side in a rotation allowed. -/
def NonnegSides (inst : Instance) : Prop :=
  ∀ i, i < inst.numberOfItemTypes → ∀ r ∈ (inst.itemType i).rotations, ∀ d,
    0 ≤ lengthAlong inst d i r

theorem attainedBy_nonneg {inst : Instance} (h : NonnegSides inst) {d : Axis} {k : Nat} {v : Int}
    (hk : k ≤ inst.numberOfItemTypes) (hv : AttainedBy inst d k v) : 0 ≤ v := by
  obtain ⟨l, h1, _, rfl⟩ := hv
  apply List.sum_nonneg
  intro x hx
  obtain ⟨p, hp, rfl⟩ := List.mem_map.mp hx
  exact h _ (lt_of_lt_of_le (h1 p hp).1 hk) _ (h1 p hp).2 d

/-- A list of lengths of rotations. -/
theorem exists_rotations {f : Rotation → Int} {rs : List Rotation} :
    ∀ xs : List Int, (∀ x ∈ xs, x ∈ rs.map f) → ∃ ys : List Rotation, (∀ y ∈ ys, y ∈ rs)
      ∧ xs = ys.map f := by
  intro xs
  induction xs with
  | nil => intro _; exact ⟨[], by simp, rfl⟩
  | cons x xs ih =>
    intro hx
    obtain ⟨ys, h1, rfl⟩ := ih fun y hy => hx y (List.mem_cons_of_mem _ hy)
    obtain ⟨r, hr, rfl⟩ := List.mem_map.mp (hx x (by simp))
    refine ⟨r :: ys, ?_, rfl⟩
    intro y hy
    rcases List.mem_cons.mp hy with rfl | hy
    · exact hr
    · exact h1 y hy

theorem tab_reachTable_take {inst : Instance} (hn : NonnegSides inst) (d : Axis) (max : Nat) :
    ∀ k, k ≤ inst.numberOfItemTypes → Tab max (AttainedBy inst d k)
      ((inst.itemTypes.take k).foldl (fun r t => Rect.reachItem r t.copies
        (t.rotations.map fun rot => (t.box.rotate rot).along d))
        (true :: List.replicate max false)) := by
  intro k
  induction k with
  | zero =>
    intro _
    refine (tab_init max).congr fun v => ?_
    constructor
    · rintro rfl; exact ⟨[], by simp, by simp, by simp⟩
    · rintro ⟨l, h1, _, hv⟩
      cases l with
      | nil => simpa using hv
      | cons p l => exact absurd (h1 p (by simp)).1 (by omega)
  | succ k ih =>
    intro hk
    have hk' : k < inst.itemTypes.length := hk
    have ih := ih (by omega)
    rw [OneDim.take_succ_getD inst.itemTypes k default hk', List.foldl_append, List.foldl_cons,
      List.foldl_nil]
    have hf : (fun rot => ((inst.itemType k).box.rotate rot).along d)
        = fun rot => lengthAlong inst d k rot := by
      funext rot; rw [lengthAlong_rotate]
    have hL : ∀ s ∈ (inst.itemType k).rotations.map
        (fun rot => ((inst.itemType k).box.rotate rot).along d), 0 ≤ s := by
      intro s hs
      rw [hf] at hs
      obtain ⟨r, hr, rfl⟩ := List.mem_map.mp hs
      exact hn k hk r hr d
    refine (tab_steps ih _ hL (fun v hv => attainedBy_nonneg hn (by omega) hv)
      (inst.itemType k).copies.toNat).congr fun v => ?_
    constructor
    · rintro ⟨xs, hl, hx, l, h1, h2, h3⟩
      rw [hf] at hx
      obtain ⟨ys, hy, rfl⟩ := exists_rotations xs hx
      rw [List.length_map] at hl
      refine ⟨ys.map (fun r => (k, r)) ++ l, ?_, ?_, ?_⟩
      · intro p hp
        rcases List.mem_append.mp hp with hp | hp
        · obtain ⟨r, hr, rfl⟩ := List.mem_map.mp hp
          exact ⟨by show k < k + 1; omega, hy r hr⟩
        · exact ⟨by have := (h1 p hp).1; omega, (h1 p hp).2⟩
      · intro i
        rw [List.countP_append, List.countP_map]
        by_cases e : i = k
        · subst e
          have z : l.countP (fun p => decide (p.1 = i)) = 0 := by
            rw [List.countP_eq_zero]
            intro p hp
            have := (h1 p hp).1
            simp; omega
          rw [z]
          have := List.countP_le_length (p := (fun p : Nat × Rotation => decide (p.1 = i))
            ∘ fun r => (i, r)) (l := ys)
          omega
        · have z : ys.countP ((fun p : Nat × Rotation => decide (p.1 = i)) ∘ fun r => (k, r)) = 0 := by
            rw [List.countP_eq_zero]
            intro r _
            simp; omega
          rw [z, zero_add]; exact h2 i
      · rw [List.map_append, List.sum_append, List.map_map, ← h3]
        have : (ys.map ((fun p : Nat × Rotation => lengthAlong inst d p.1 p.2) ∘ fun r => (k, r))).sum
            = (ys.map fun rot => lengthAlong inst d k rot).sum := rfl
        rw [this]; ring
    · rintro ⟨l, h1, h2, h3⟩
      have hperm := List.filter_append_perm (fun p : Nat × Rotation => decide (p.1 = k)) l
      refine ⟨(l.filter fun p => decide (p.1 = k)).map fun p => lengthAlong inst d k p.2, ?_, ?_,
        l.filter (fun p => !decide (p.1 = k)), ?_, ?_, ?_⟩
      · rw [List.length_map, ← List.countP_eq_length_filter]
        have := h2 k
        omega
      · intro x hx
        rw [hf]
        obtain ⟨p, hp, rfl⟩ := List.mem_map.mp hx
        obtain ⟨hp, e⟩ := List.mem_filter.mp hp
        rw [decide_eq_true_iff] at e
        refine List.mem_map.mpr ⟨p.2, ?_, rfl⟩
        rw [← e]; exact (h1 p hp).2
      · intro p hp
        obtain ⟨hp, e⟩ := List.mem_filter.mp hp
        have hne : p.1 ≠ k := by simpa using e
        have := (h1 p hp).1
        exact ⟨by omega, (h1 p hp).2⟩
      · intro i
        refine le_trans ?_ (h2 i)
        have := (List.filter_sublist (l := l) (p := fun p => !decide (p.1 = k))).countP_le
          (p := fun p : Nat × Rotation => decide (p.1 = i))
        exact_mod_cast this
      · rw [h3, ← (hperm.map fun p : Nat × Rotation => lengthAlong inst d p.1 p.2).sum_eq,
          List.map_append, List.sum_append]
        have : (l.filter fun p => decide (p.1 = k)).map (fun p => lengthAlong inst d p.1 p.2)
            = (l.filter fun p => decide (p.1 = k)).map fun p => lengthAlong inst d k p.2 := by
          apply List.map_congr_left
          intro p hp
          have e := (List.mem_filter.mp hp).2
          rw [decide_eq_true_iff] at e
          rw [e]
        rw [this]; ring

theorem tab_reachTable {inst : Instance} (hn : NonnegSides inst) (d : Axis) (max : Nat) :
    Tab max (Attained inst d) (reachTable inst d max) := by
  have := tab_reachTable_take hn d max inst.numberOfItemTypes (le_refl _)
  rw [show inst.itemTypes.take inst.numberOfItemTypes = inst.itemTypes from List.take_length] at this
  exact this

theorem largestSide_ge {inst : Instance} (d : Axis) {b : BinType} (hb : b ∈ inst.binTypes) :
    b.box.along d ≤ largestSide inst d := by
  unfold largestSide
  suffices H : ∀ (l : List BinType) (m : Int),
      m ≤ l.foldl (fun m b => max m (b.box.along d)) m
      ∧ ∀ b ∈ l, b.box.along d ≤ l.foldl (fun m b => max m (b.box.along d)) m from (H _ _).2 b hb
  intro l
  induction l with
  | nil => intro m; simp
  | cons c l ih =>
    intro m
    rw [List.foldl_cons]
    obtain ⟨i1, i2⟩ := ih (max m (c.box.along d))
    refine ⟨le_trans (le_max_left _ _) i1, ?_⟩
    intro b hb
    rcases List.mem_cons.mp hb with rfl | hb
    · exact le_trans (le_max_right _ _) i1
    · exact i2 b hb

theorem attained_zero (inst : Instance) (d : Axis) : Attained inst d 0 :=
  ⟨[], by simp, by simp, by simp⟩

/-! ## Pushing the items of a packing along an axis -/

/-- Intervals given by functions of an index are disjoint, or their objects are separated for
another reason. -/
def Sep (x w : Nat → Int) (O : Nat → Nat → Prop) (n : Nat) : Prop :=
  ∀ i < n, ∀ j < n, i ≠ j → x i + w i ≤ x j ∨ x j + w j ≤ x i ∨ O i j

theorem push (n : Nat) (w : Nat → Int) (O : Nat → Nat → Prop) :
    ∀ (N : Nat) (x : Nat → Int), (∀ i < n, 0 ≤ x i) → Sep x w O n →
    (∑ i ∈ Finset.range n, (x i).toNat) = N →
    ∃ x' : Nat → Int, (∀ i < n, 0 ≤ x' i) ∧ Sep x' w O n
      ∧ (∀ i < n, x' i ≤ x i)
      ∧ ∀ i < n, x' i = 0 ∨ ∃ j < n, x' j + w j = x' i := by
  intro N
  induction N using Nat.strong_induction_on with
  | _ N ih =>
    intro x hx hsep hN
    by_cases hall : ∀ i < n, x i = 0 ∨ ∃ j < n, x j + w j = x i
    · exact ⟨x, hx, hsep, fun i _ => le_refl _, hall⟩
    · push Not at hall
      obtain ⟨i, hi, h0, hj⟩ := hall
      have hpos : 0 < x i := lt_of_le_of_ne (hx i hi) (Ne.symm h0)
      let x1 : Nat → Int := fun k => if k = i then x k - 1 else x k
      have hx1 : ∀ k < n, 0 ≤ x1 k := by
        intro k hk
        have := hx k hk
        simp only [x1]
        split
        · rename_i e; subst e; omega
        · exact this
      have hs1 : Sep x1 w O n := by
        intro a ha b hb hab
        have := hsep a ha b hb hab
        have h1 := hj a ha
        have h2 := hj b hb
        simp only [x1]
        split
        · rename_i e; subst e
          rw [if_neg (fun h => hab h.symm)]
          rcases this with h | h | h
          · exact .inl (by omega)
          · exact .inr (.inl (by omega))
          · exact .inr (.inr h)
        · split
          · rename_i e; subst e
            rcases this with h | h | h
            · exact .inl (by omega)
            · exact .inr (.inl (by omega))
            · exact .inr (.inr h)
          · exact this
      have hlt : (∑ k ∈ Finset.range n, (x1 k).toNat) < N := by
        rw [← hN]
        apply Finset.sum_lt_sum
        · intro k _
          simp only [x1]
          split <;> omega
        · exact ⟨i, Finset.mem_range.mpr hi, by simp only [x1, if_true]; omega⟩
      obtain ⟨x', a1, a2, a3, a4⟩ := ih _ hlt x1 hx1 hs1 rfl
      refine ⟨x', a1, a2, fun k hk => ?_, a4⟩
      have := a3 k hk
      simp only [x1] at this
      split at this <;> omega

/-- A default for reading lists of items. -/
def noItem : PlacedItem := ⟨0, 0, 0, 0, .xyz⟩

/-- Items of a selection put side by side attain their total length. -/
theorem attained_of_selection {inst : Instance} {items : List PlacedItem}
    (hex : ∀ p ∈ items, p.itemTypeId < inst.numberOfItemTypes)
    (hrot : ∀ p ∈ items, p.rotation ∈ (inst.itemType p.itemTypeId).rotations)
    (hc : WithinCopies inst items) (d : Axis) (S : Finset Nat) (hS : ∀ k ∈ S, k < items.length) :
    Attained inst d (∑ k ∈ S, lengthAlong inst d (items.getD k noItem).itemTypeId
      (items.getD k noItem).rotation) := by
  have hmem : ∀ k ∈ S, items.getD k noItem ∈ items := by
    intro k hk
    rw [List.getD_eq_getElem _ _ (hS k hk)]; exact List.getElem_mem _
  refine ⟨S.toList.map fun k => ((items.getD k noItem).itemTypeId, (items.getD k noItem).rotation),
    ?_, ?_, ?_⟩
  · intro p hp
    obtain ⟨k, hk, rfl⟩ := List.mem_map.mp hp
    have hk := hmem k (Finset.mem_toList.mp hk)
    exact ⟨hex _ hk, hrot _ hk⟩
  · intro i
    rw [List.countP_map]
    have e : S.toList.countP ((fun p : Nat × Rotation => decide (p.1 = i)) ∘ fun k =>
        ((items.getD k noItem).itemTypeId, (items.getD k noItem).rotation))
        = (S.filter fun k => (items.getD k noItem).itemTypeId = i).card := by
      rw [List.countP_eq_length_filter, ← Finset.length_toList]
      apply List.Perm.length_eq
      rw [List.perm_ext_iff_of_nodup (List.Nodup.filter _ (Finset.nodup_toList _))
        (Finset.nodup_toList _)]
      intro k
      simp [List.mem_filter]
    rw [e]
    by_cases hi : i < inst.numberOfItemTypes
    · have h1 : (S.filter fun k => (items.getD k noItem).itemTypeId = i).card
          ≤ items.countP fun p => decide (p.itemTypeId = i) := by
        rw [← card_filter_range items noItem]
        apply Finset.card_le_card
        intro k hk
        obtain ⟨hk, e⟩ := Finset.mem_filter.mp hk
        exact Finset.mem_filter.mpr ⟨Finset.mem_range.mpr (hS k hk), decide_eq_true e⟩
      have h2 := hc i hi
      unfold count at h2
      have h3 : ((S.filter fun k => (items.getD k noItem).itemTypeId = i).card : Int)
          ≤ ((items.countP fun p => decide (p.itemTypeId = i) : Nat) : Int) := by exact_mod_cast h1
      exact le_trans h3 (le_trans h2 (le_max_right _ _))
    · have : (S.filter fun k => (items.getD k noItem).itemTypeId = i) = ∅ := by
        rw [Finset.filter_eq_empty_iff]
        intro k hk e
        have := hex _ (hmem k hk)
        omega
      rw [this]
      simp
  · rw [List.map_map, Finset.sum_eq_multiset_sum, ← Finset.coe_toList, Multiset.map_coe,
      Multiset.sum_coe]
    rfl

/-- The item moved to a position along an axis. -/
def moved (d : Axis) (p : PlacedItem) (v : Int) : PlacedItem :=
  match d with
  | .x => { p with x := v }
  | .y => { p with y := v }
  | .z => { p with z := v }

theorem moved_type (d : Axis) (p : PlacedItem) (v : Int) :
    (moved d p v).itemTypeId = p.itemTypeId := by cases d <;> rfl

theorem moved_rotation (d : Axis) (p : PlacedItem) (v : Int) :
    (moved d p v).rotation = p.rotation := by cases d <;> rfl

theorem pos_moved (d : Axis) (p : PlacedItem) (v : Int) : pos d (moved d p v) = v := by
  cases d <;> rfl

theorem pos_moved_ne {d e : Axis} (h : e ≠ d) (p : PlacedItem) (v : Int) :
    pos e (moved d p v) = pos e p := by
  cases d <;> cases e <;> first | rfl | exact absurd rfl h

theorem len_moved (inst : Instance) (d e : Axis) (p : PlacedItem) (v : Int) :
    len inst e (moved d p v) = len inst e p := by
  unfold len; rw [moved_type, moved_rotation]

/-- Items with positions that are not negative, that respect numbers of copies and do not
overlap. -/
structure Placeable (inst : Instance) (items : List PlacedItem) : Prop where
  exist : ∀ p ∈ items, p.itemTypeId < inst.numberOfItemTypes
  rotation : ∀ p ∈ items, p.rotation ∈ (inst.itemType p.itemTypeId).rotations
  copies : WithinCopies inst items
  long : ∀ p ∈ items, ∀ d, 0 < len inst d p
  pos : ∀ p ∈ items, ∀ d, 0 ≤ pos d p
  separated : items.Pairwise fun p q => Separated (occupies inst p) (occupies inst q)

/-- Pushing all items along one axis. -/
theorem pushList {inst : Instance} (d : Axis) {items : List PlacedItem} (h : Placeable inst items) :
    ∃ items', List.Forall₂ (fun p q => p.itemTypeId = q.itemTypeId ∧ p.rotation = q.rotation
        ∧ (∀ e, e ≠ d → pos e q = pos e p) ∧ pos d q ≤ pos d p) items items'
      ∧ (∀ q ∈ items', Attained inst d (pos d q + len inst d q)) ∧ Placeable inst items' := by
  let g : Nat → PlacedItem := fun k => items.getD k noItem
  have hg : ∀ k, (hk : k < items.length) → g k = items[k] := fun k hk => List.getD_eq_getElem _ _ hk
  have hgm : ∀ k, k < items.length → g k ∈ items := fun k hk => by
    rw [hg k hk]; exact List.getElem_mem hk
  have hs : Sep (fun k => pos d (g k)) (fun k => len inst d (g k))
      (fun i j => ∃ e, e ≠ d ∧ (pos e (g i) + len inst e (g i) ≤ pos e (g j)
        ∨ pos e (g j) + len inst e (g j) ≤ pos e (g i))) items.length := by
    have key : ∀ i j, (hi : i < items.length) → (hj : j < items.length) → i < j →
        ∃ e, pos e (g i) + len inst e (g i) ≤ pos e (g j)
          ∨ pos e (g j) + len inst e (g j) ≤ pos e (g i) := by
      intro i j hi hj hij
      have := List.pairwise_iff_getElem.mp h.separated i j hi hj hij
      rw [← hg i hi, ← hg j hj] at this
      exact separated_axis.mp this
    intro i hi j hj hij
    dsimp only
    have : ∃ e, pos e (g i) + len inst e (g i) ≤ pos e (g j)
          ∨ pos e (g j) + len inst e (g j) ≤ pos e (g i) := by
      rcases Nat.lt_or_gt_of_ne hij with h | h
      · exact key i j hi hj h
      · obtain ⟨e, he⟩ := key j i hj hi h
        exact ⟨e, he.symm⟩
    obtain ⟨e, he⟩ := this
    by_cases hed : e = d
    · subst hed
      rcases he with he | he
      · exact .inl he
      · exact .inr (.inl he)
    · exact .inr (.inr ⟨e, hed, he⟩)
  obtain ⟨x', p1, p2, p3, p4⟩ := push items.length _ _ _ (fun k => pos d (g k))
    (fun k hk => h.pos _ (hgm k hk) d) hs rfl
  have hch := chain items.length x' (fun k => len inst d (g k))
    (fun k hk => h.long _ (hgm k hk) d) p1 p4
  have hf : List.Forall₂ (fun p q => p.itemTypeId = q.itemTypeId ∧ p.rotation = q.rotation
        ∧ (∀ e, e ≠ d → pos e q = pos e p) ∧ pos d q ≤ pos d p) items
        (items.mapIdx fun k p => moved d p (x' k)) := by
    rw [List.forall₂_iff_get]
    refine ⟨by rw [List.length_mapIdx], ?_⟩
    intro k h1 h2
    simp only [List.get_eq_getElem, List.getElem_mapIdx]
    refine ⟨(moved_type _ _ _).symm, (moved_rotation _ _ _).symm,
      fun e he => pos_moved_ne he _ _, ?_⟩
    rw [pos_moved, ← hg k h1]
    exact p3 k h1
  refine ⟨items.mapIdx fun k p => moved d p (x' k), hf, ?_, ⟨?_, ?_, ?_, ?_, ?_, ?_⟩⟩
  · intro q hq
    obtain ⟨k, hk, rfl⟩ := List.mem_mapIdx.mp hq
    rw [pos_moved, len_moved]
    obtain ⟨S, hS, hsum⟩ := hch _ k hk rfl
    have hkS : k ∉ S := fun h => lt_irrefl _ (hS k h).2
    have := attained_of_selection h.exist h.rotation h.copies d (insert k S) (by
      intro j hj
      rcases Finset.mem_insert.mp hj with rfl | hj
      · exact hk
      · exact (hS j hj).1)
    rw [Finset.sum_insert hkS] at this
    have e : len inst d items[k] = len inst d (g k) := by rw [hg k hk]
    rw [e, hsum, add_comm]
    exact this
  · intro q hq
    obtain ⟨k, hk, rfl⟩ := List.mem_mapIdx.mp hq
    rw [moved_type]; exact h.exist _ (List.getElem_mem hk)
  · intro q hq
    obtain ⟨k, hk, rfl⟩ := List.mem_mapIdx.mp hq
    rw [moved_type, moved_rotation]; exact h.rotation _ (List.getElem_mem hk)
  · intro i hi
    have : count (items.mapIdx fun k p => moved d p (x' k)) i = count items i := by
      unfold count
      congr 1
      generalize (items.mapIdx fun k p => moved d p (x' k)) = items' at hf
      clear hs p2 hch p1 p3 p4 hgm hg
      clear h
      clear g
      induction hf with
      | nil => rfl
      | cons hab _ ih => rw [List.countP_cons, List.countP_cons, ih, hab.1]
    rw [this]; exact h.copies i hi
  · intro q hq e
    obtain ⟨k, hk, rfl⟩ := List.mem_mapIdx.mp hq
    rw [len_moved]; exact h.long _ (List.getElem_mem hk) e
  · intro q hq e
    obtain ⟨k, hk, rfl⟩ := List.mem_mapIdx.mp hq
    by_cases he : e = d
    · subst he; rw [pos_moved]; exact p1 k hk
    · rw [pos_moved_ne he]; exact h.pos _ (List.getElem_mem hk) e
  · rw [List.pairwise_iff_getElem]
    intro i j hi hj hij
    rw [List.length_mapIdx] at hi hj
    simp only [List.getElem_mapIdx]
    rw [separated_axis]
    rw [← hg i hi, ← hg j hj]
    rcases p2 i hi j hj hij.ne with h | h | ⟨e, he, h⟩
    · exact ⟨d, .inl (by rw [pos_moved, pos_moved, len_moved]; exact h)⟩
    · exact ⟨d, .inr (by rw [pos_moved, pos_moved, len_moved]; exact h)⟩
    · refine ⟨e, ?_⟩
      rw [pos_moved_ne he, pos_moved_ne he, len_moved, len_moved]; exact h

end PackingSolver.Box
