import Verif.Spec.BoxBlock
import Verif.Lemmas.Rect.Block
import Mathlib.Tactic.Linarith
import Mathlib.Tactic.Ring

/-!
# Lemmas about blocks of boxes
-/

namespace PackingSolver.Box

open PackingSolver.Box.Spec

/-- The position of an item along an axis. -/
def pos (d : Axis) (p : PlacedItem) : Int :=
  match d with
  | .x => p.x
  | .y => p.y
  | .z => p.z

/-- The length of a placed item along an axis. -/
def len (inst : Instance) (d : Axis) (p : PlacedItem) : Int :=
  lengthAlong inst d p.itemTypeId p.rotation

theorem inside_axis {inst : Instance} {bin : Dims} {p : PlacedItem} :
    Inside bin (occupies inst p)
      ↔ ∀ d, 0 ≤ pos d p ∧ pos d p + len inst d p ≤ bin.along d := by
  constructor
  · intro h d
    have h' := h
    unfold Inside at h'
    cases d
    · exact ⟨h'.1, h'.2.1⟩
    · exact ⟨h'.2.2.1, h'.2.2.2.1⟩
    · exact ⟨h'.2.2.2.2.1, h'.2.2.2.2.2⟩
  · intro h
    exact ⟨(h .x).1, (h .x).2, (h .y).1, (h .y).2, (h .z).1, (h .z).2⟩

theorem separated_axis {inst : Instance} {p q : PlacedItem} :
    Separated (occupies inst p) (occupies inst q)
      ↔ ∃ d, pos d p + len inst d p ≤ pos d q ∨ pos d q + len inst d q ≤ pos d p := by
  constructor
  · rintro (h | h | h | h | h | h)
    · exact ⟨.x, .inl h⟩
    · exact ⟨.x, .inr h⟩
    · exact ⟨.y, .inl h⟩
    · exact ⟨.y, .inr h⟩
    · exact ⟨.z, .inl h⟩
    · exact ⟨.z, .inr h⟩
  · rintro ⟨d, h⟩
    cases d
    · rcases h with h | h
      · exact .inl h
      · exact .inr (.inl h)
    · rcases h with h | h
      · exact .inr (.inr (.inl h))
      · exact .inr (.inr (.inr (.inl h)))
    · rcases h with h | h
      · exact .inr (.inr (.inr (.inr (.inl h))))
      · exact .inr (.inr (.inr (.inr (.inr h))))

theorem lengthAlong_rotate (inst : Instance) (d : Axis) (i : Nat) (r : Rotation) :
    lengthAlong inst d i r = ((inst.itemType i).box.rotate r).along d := by
  cases d <;> cases r <;> rfl

theorem volume_rotate (b : Dims) (r : Rotation) : (b.rotate r).volume = b.volume := by
  cases r <;> simp only [Dims.rotate, Dims.volume] <;> ring

namespace Block

open Rect.Block (cnt cnt_nil cnt_cons Incr Pos mem_iff_cnt cnt_merge sum_merge incr_merge pos_merge
  sum_const_int sum_const_rat mul_step)

/-! ## Validity -/

/-- What the generated blocks satisfy. -/
structure Inv (inst : Instance) (bt : BinType) (b : Block) : Prop where
  exist : ∀ p ∈ b.items, p.itemTypeId < inst.numberOfItemTypes
  rotation : ∀ p ∈ b.items, p.rotation ∈ (inst.itemType p.itemTypeId).rotations
  inside : ∀ p ∈ b.items, ∀ d, 0 ≤ pos d p ∧ pos d p + len inst d p ≤ b.box.along d
  starts : ∀ d, ∃ p ∈ b.items, pos d p = 0
  touches : ∀ d, ∃ p ∈ b.items, pos d p + len inst d p = b.box.along d
  separated : b.items.Pairwise fun p q => Separated (occupies inst p) (occupies inst q)
  volume : b.itemVolume = (b.items.map fun p => volumeOf (inst.itemType p.itemTypeId).box).sum
  profit : b.itemProfit = itemsProfit inst b.items
  weight : b.weight = binWeight inst b.items
  number : b.numberOfItems = (b.items.length : Int)
  incr : Incr b.itemCopies
  pos : Pos b.itemCopies
  cnt : ∀ i, cnt b.itemCopies i = count b.items i
  copies : ∀ p ∈ b.itemCopies, p.2 ≤ (inst.itemType p.1).copies
  total : b.numberOfItems = (b.itemCopies.map fun p => p.2).sum
  fit : ∀ d, b.box.along d ≤ bt.box.along d
  side : ∀ d, 0 < b.box.along d

theorem Inv.listed {inst : Instance} {bt : BinType} {b : Block} (h : Inv inst bt b) (i : Nat)
    (c : Int) : (i, c) ∈ b.itemCopies ↔ c = count b.items i ∧ 0 < c := by
  rw [mem_iff_cnt h.incr h.pos, h.cnt]

theorem Inv.withinCopies {inst : Instance} {bt : BinType} {b : Block} (h : Inv inst bt b)
    (hp : ∀ i, i < inst.numberOfItemTypes → 0 ≤ (inst.itemType i).copies) :
    WithinCopies inst b.items := by
  intro i hi
  by_cases h0 : 0 < count b.items i
  · exact h.copies _ ((h.listed i _).mpr ⟨rfl, h0⟩)
  · have := hp i hi
    omega

theorem Inv.ok {inst : Instance} {bt : BinType} {b : Block} (h : Inv inst bt b)
    (hp : ∀ i, i < inst.numberOfItemTypes → 0 ≤ (inst.itemType i).copies) : BlockOk inst b :=
  { exist := h.exist, rotation := h.rotation, separated := h.separated
    inside := fun p hp' => inside_axis.mpr (h.inside p hp')
    startsX := h.starts .x, startsY := h.starts .y, startsZ := h.starts .z
    touchesX := h.touches .x, touchesY := h.touches .y, touchesZ := h.touches .z
    copies := h.withinCopies hp, volume := h.volume, profit := h.profit, weight := h.weight
    number := h.number, listed := h.listed, sorted := h.incr }

/-- The items of a grid. -/
def grid (i : Nat) (r : Rotation) (d : Dims) (cx cy cz : Nat) : List PlacedItem :=
  (List.range cx).flatMap fun (a : Nat) => (List.range cy).flatMap fun (b : Nat) =>
    (List.range cz).map fun (c : Nat) => ⟨i, a * d.x, b * d.y, c * d.z, r⟩

theorem mem_grid {i : Nat} {r : Rotation} {d : Dims} {cx cy cz : Nat} {p : PlacedItem} :
    p ∈ grid i r d cx cy cz ↔
      ∃ a < cx, ∃ b < cy, ∃ c < cz, p = ⟨i, a * d.x, b * d.y, c * d.z, r⟩ := by
  simp only [grid, List.mem_flatMap, List.mem_range, List.mem_map]
  constructor
  · rintro ⟨a, ha, b, hb, c, hc, e⟩; exact ⟨a, ha, b, hb, c, hc, e.symm⟩
  · rintro ⟨a, ha, b, hb, c, hc, e⟩; exact ⟨a, ha, b, hb, c, hc, e.symm⟩

theorem length_grid (i : Nat) (r : Rotation) (d : Dims) (cx cy cz : Nat) :
    (grid i r d cx cy cz).length = cx * cy * cz := by
  unfold grid
  rw [List.length_flatMap]
  have : ∀ a : Nat, ((List.range cy).flatMap fun (b : Nat) =>
      (List.range cz).map fun (c : Nat) =>
        (⟨i, a * d.x, b * d.y, c * d.z, r⟩ : PlacedItem)).length = cy * cz := by
    intro a
    rw [List.length_flatMap]; simp
  simp only [this, List.map_const', List.sum_replicate, List.length_range, nsmul_eq_mul, Nat.cast_id]
  ring

theorem count_grid (i : Nat) (r : Rotation) (d : Dims) (cx cy cz j : Nat) :
    count (grid i r d cx cy cz) j = if i = j then ((cx * cy * cz : Nat) : Int) else 0 := by
  unfold count
  by_cases e : i = j
  · rw [if_pos e, List.countP_eq_length.mpr, length_grid]
    intro p hp
    obtain ⟨a, _, b, _, c, _, rfl⟩ := mem_grid.mp hp
    simpa using e
  · rw [if_neg e, List.countP_eq_zero.mpr]; · rfl
    intro p hp
    obtain ⟨a, _, b, _, c, _, rfl⟩ := mem_grid.mp hp
    simpa using e

theorem separated_grid (inst : Instance) (i : Nat) (r : Rotation) (cx cy cz : Nat)
    (hd : ∀ d, 0 < ((inst.itemType i).box.rotate r).along d) :
    (grid i r ((inst.itemType i).box.rotate r) cx cy cz).Pairwise
      fun p q => Separated (occupies inst p) (occupies inst q) := by
  have hx := hd .x
  have hy := hd .y
  have hz := hd .z
  unfold grid
  rw [List.pairwise_flatMap]
  constructor
  · intro a _
    rw [List.pairwise_flatMap]
    constructor
    · intro b _
      rw [List.pairwise_map]
      refine List.Pairwise.imp ?_ List.pairwise_lt_range
      intro c c' hc
      refine separated_axis.mpr ⟨.z, .inl ?_⟩
      rw [len, lengthAlong_rotate]
      exact mul_step hz hc
    · refine List.Pairwise.imp ?_ List.pairwise_lt_range
      intro b b' hb p hp q hq
      obtain ⟨c, _, rfl⟩ := List.mem_map.mp hp
      obtain ⟨c', _, rfl⟩ := List.mem_map.mp hq
      refine separated_axis.mpr ⟨.y, .inl ?_⟩
      rw [len, lengthAlong_rotate]
      exact mul_step hy hb
  · refine List.Pairwise.imp ?_ List.pairwise_lt_range
    intro a a' ha p hp q hq
    obtain ⟨b, _, hp⟩ := List.mem_flatMap.mp hp
    obtain ⟨c, _, rfl⟩ := List.mem_map.mp hp
    obtain ⟨b', _, hq⟩ := List.mem_flatMap.mp hq
    obtain ⟨c', _, rfl⟩ := List.mem_map.mp hq
    refine separated_axis.mpr ⟨.x, .inl ?_⟩
    rw [len, lengthAlong_rotate]
    exact mul_step hx ha

theorem pred_mul {n : Nat} (h : 1 ≤ n) (w : Int) : ((n - 1 : Nat) : Int) * w + w = n * w := by
  push_cast [h]; ring

theorem inv_simple {inst : Instance} {bt : BinType} {i : Nat} {r : Rotation} {cx cy cz : Nat}
    (hi : i < inst.numberOfItemTypes) (hr : r ∈ (inst.itemType i).rotations)
    (hd : ∀ d, 0 < ((inst.itemType i).box.rotate r).along d)
    (h1 : 1 ≤ cx) (h2 : 1 ≤ cy) (h3 : 1 ≤ cz)
    (hc : ((cx * cy * cz : Nat) : Int) ≤ (inst.itemType i).copies)
    (hfx : (cx : Int) * ((inst.itemType i).box.rotate r).x ≤ bt.box.x)
    (hfy : (cy : Int) * ((inst.itemType i).box.rotate r).y ≤ bt.box.y)
    (hfz : (cz : Int) * ((inst.itemType i).box.rotate r).z ≤ bt.box.z) :
    Inv inst bt (simple inst i r cx cy cz) := by
  have hitems : (simple inst i r cx cy cz).items
      = grid i r ((inst.itemType i).box.rotate r) cx cy cz := rfl
  have hpos : 0 < cx * cy * cz := Nat.mul_pos (Nat.mul_pos h1 h2) h3
  have hx := hd .x
  have hy := hd .y
  have hz := hd .z
  have hlen : ∀ (d : Axis) (x y z : Int), len inst d ⟨i, x, y, z, r⟩
      = ((inst.itemType i).box.rotate r).along d := fun d x y z => lengthAlong_rotate inst d i r
  refine ⟨?_, ?_, ?_, ?_, ?_, ?_, ?_, ?_, ?_, ?_, ?_, ?_, ?_, ?_, ?_, ?_, ?_⟩
  · intro p hp
    rw [hitems] at hp
    obtain ⟨a, _, b, _, c, _, rfl⟩ := mem_grid.mp hp
    exact hi
  · intro p hp
    rw [hitems] at hp
    obtain ⟨a, _, b, _, c, _, rfl⟩ := mem_grid.mp hp
    exact hr
  · intro p hp d
    rw [hitems] at hp
    obtain ⟨a, ha, b, hb, c, hc, rfl⟩ := mem_grid.mp hp
    rw [hlen]
    cases d
    · exact ⟨mul_nonneg (Int.natCast_nonneg _) hx.le, mul_step hx ha⟩
    · exact ⟨mul_nonneg (Int.natCast_nonneg _) hy.le, mul_step hy hb⟩
    · exact ⟨mul_nonneg (Int.natCast_nonneg _) hz.le, mul_step hz hc⟩
  · intro d
    refine ⟨_, by rw [hitems]; exact mem_grid.mpr ⟨0, h1, 0, h2, 0, h3, rfl⟩, ?_⟩
    cases d <;> simp [Box.pos]
  · intro d
    refine ⟨_, by
      rw [hitems]
      exact mem_grid.mpr ⟨cx - 1, by omega, cy - 1, by omega, cz - 1, by omega, rfl⟩, ?_⟩
    rw [hlen]
    cases d
    · exact pred_mul h1 _
    · exact pred_mul h2 _
    · exact pred_mul h3 _
  · rw [hitems]; exact separated_grid inst i r cx cy cz hd
  · rw [hitems, sum_const_int _ _ (volumeOf (inst.itemType i).box), length_grid]
    · show (cx : Int) * cy * cz * (inst.itemType i).volume = _
      unfold ItemType.volume Dims.volume volumeOf; push_cast; ring
    · intro p hp
      obtain ⟨a, _, b, _, c, _, rfl⟩ := mem_grid.mp hp
      rfl
  · unfold itemsProfit
    rw [hitems, sum_const_rat _ _ (inst.itemType i).profit, length_grid]
    · show ((cx * cy * cz : Int) : ℚ) * (inst.itemType i).profit = _
      push_cast; ring
    · intro p hp
      obtain ⟨a, _, b, _, c, _, rfl⟩ := mem_grid.mp hp
      rfl
  · unfold binWeight
    rw [hitems, sum_const_rat _ _ (inst.itemType i).weight, length_grid]
    · show ((cx * cy * cz : Int) : ℚ) * (inst.itemType i).weight = _
      push_cast; ring
    · intro p hp
      obtain ⟨a, _, b, _, c, _, rfl⟩ := mem_grid.mp hp
      rfl
  · rw [hitems, length_grid]; show (cx : Int) * cy * cz = _; push_cast; ring
  · exact List.pairwise_singleton _ _
  · intro p hp
    rw [show p = (i, (cx : Int) * cy * cz) from List.mem_singleton.mp hp]
    show (0 : Int) < (cx : Int) * cy * cz
    exact_mod_cast hpos
  · intro j
    rw [hitems, count_grid]
    show Rect.Block.cnt [(i, (cx : Int) * cy * cz)] j = _
    simp
  · intro p hp
    rw [show p = (i, (cx : Int) * cy * cz) from List.mem_singleton.mp hp]
    show (cx : Int) * cy * cz ≤ (inst.itemType i).copies
    exact_mod_cast hc
  · show (cx : Int) * cy * cz = ([(i, (cx : Int) * cy * cz)].map fun p => p.2).sum
    simp
  · intro d
    cases d
    · exact hfx
    · exact hfy
    · exact hfz
  · intro d
    cases d
    · exact mul_pos (by exact_mod_cast h1) hx
    · exact mul_pos (by exact_mod_cast h2) hy
    · exact mul_pos (by exact_mod_cast h3) hz

theorem len_shift (inst : Instance) (a : Dims) (d e : Axis) (p : PlacedItem) :
    len inst e (shiftItem a d p) = len inst e p := by cases d <;> rfl

theorem pos_shift (a : Dims) (d e : Axis) (p : PlacedItem) :
    Box.pos e (shiftItem a d p) = Box.pos e p + if e = d then a.along d else 0 := by
  cases d <;> cases e <;> simp [Box.pos, shiftItem, Dims.along]

theorem shift_type (a : Dims) (d : Axis) (p : PlacedItem) :
    (shiftItem a d p).itemTypeId = p.itemTypeId := by cases d <;> rfl

theorem shift_rotation (a : Dims) (d : Axis) (p : PlacedItem) :
    (shiftItem a d p).rotation = p.rotation := by cases d <;> rfl

theorem combineBox_along (a b : Dims) (d e : Axis) : (combineBox a b d).along e
    = if e = d then a.along e + b.along e else max (a.along e) (b.along e) := by
  cases d <;> cases e <;> simp [combineBox, Dims.along]

theorem count_append (l l' : List PlacedItem) (i : Nat) :
    count (l ++ l') i = count l i + count l' i := by
  unfold count; rw [List.countP_append]; push_cast; rfl

theorem count_map_type {f : PlacedItem → PlacedItem} (hf : ∀ p, (f p).itemTypeId = p.itemTypeId)
    (l : List PlacedItem) (i : Nat) : count (l.map f) i = count l i := by
  unfold count
  rw [List.countP_map]
  congr 2
  funext p
  simp [hf]

theorem inv_combine {inst : Instance} {bt : BinType} {a b : Block} (d : Axis)
    (ha : Inv inst bt a) (hb : Inv inst bt b)
    (hf : ∀ e, (combine a b d).box.along e ≤ bt.box.along e)
    (hc : validCopies inst a.itemCopies b.itemCopies = true) :
    Inv inst bt (combine a b d) := by
  have hB : ∀ e, (combine a b d).box.along e
      = if e = d then a.box.along e + b.box.along e else max (a.box.along e) (b.box.along e) :=
    combineBox_along a.box b.box d
  have hI : (combine a b d).items = a.items ++ b.items.map (shiftItem a.box d) := rfl
  have hmem : ∀ p ∈ (combine a b d).items, p ∈ a.items
      ∨ ∃ q ∈ b.items, p = shiftItem a.box d q := by
    intro p hp
    rw [hI] at hp
    rcases List.mem_append.mp hp with h | h
    · exact .inl h
    · obtain ⟨q, hq, e⟩ := List.mem_map.mp h
      exact .inr ⟨q, hq, e.symm⟩
  refine ⟨?_, ?_, ?_, ?_, ?_, ?_, ?_, ?_, ?_, ?_, ?_, ?_, ?_, ?_, ?_, hf, ?_⟩
  · intro p hp
    rcases hmem p hp with h | ⟨q, hq, rfl⟩
    · exact ha.exist p h
    · rw [shift_type]; exact hb.exist q hq
  · intro p hp
    rcases hmem p hp with h | ⟨q, hq, rfl⟩
    · exact ha.rotation p h
    · rw [shift_type, shift_rotation]; exact hb.rotation q hq
  · intro p hp e
    rw [hB]
    have hsa := ha.side e
    have hsb := hb.side e
    rcases hmem p hp with h | ⟨q, hq, rfl⟩
    · have := ha.inside p h e
      split <;> omega
    · have := hb.inside q hq e
      rw [pos_shift, len_shift]
      split
      · rename_i he; subst he; omega
      · omega
  · intro e
    obtain ⟨p, hp, e⟩ := ha.starts e
    exact ⟨p, by rw [hI]; exact List.mem_append_left _ hp, e⟩
  · intro e
    rw [hB, hI]
    by_cases he : e = d
    · rw [if_pos he]
      subst he
      obtain ⟨p, hp, et⟩ := hb.touches e
      refine ⟨shiftItem a.box e p, List.mem_append_right _ (List.mem_map_of_mem hp), ?_⟩
      rw [pos_shift, len_shift, if_pos rfl]; omega
    · rw [if_neg he]
      by_cases hle : a.box.along e ≤ b.box.along e
      · obtain ⟨p, hp, et⟩ := hb.touches e
        refine ⟨shiftItem a.box d p, List.mem_append_right _ (List.mem_map_of_mem hp), ?_⟩
        rw [pos_shift, len_shift, if_neg he, max_eq_right hle]; omega
      · obtain ⟨p, hp, et⟩ := ha.touches e
        exact ⟨p, List.mem_append_left _ hp, by rw [max_eq_left (by omega)]; exact et⟩
  · rw [hI, List.pairwise_append]
    refine ⟨ha.separated, ?_, ?_⟩
    · rw [List.pairwise_map]
      refine hb.separated.imp fun h => ?_
      obtain ⟨e, he⟩ := separated_axis.mp h
      refine separated_axis.mpr ⟨e, ?_⟩
      rw [pos_shift, pos_shift, len_shift, len_shift]
      omega
    · intro p hp q hq
      obtain ⟨q', hq', rfl⟩ := List.mem_map.mp hq
      have h1 := ha.inside p hp d
      have h2 := hb.inside q' hq' d
      refine separated_axis.mpr ⟨d, .inl ?_⟩
      rw [pos_shift, if_pos rfl]; omega
  · rw [hI, List.map_append, List.sum_append, List.map_map]
    show a.itemVolume + b.itemVolume = _
    rw [ha.volume, hb.volume]
    congr 2
    apply List.map_congr_left
    intro p _
    show _ = volumeOf (inst.itemType (shiftItem a.box d p).itemTypeId).box
    rw [shift_type]
  · unfold itemsProfit
    rw [hI, List.map_append, List.sum_append, List.map_map]
    show a.itemProfit + b.itemProfit = _
    rw [ha.profit, hb.profit]
    unfold itemsProfit
    congr 2
    apply List.map_congr_left
    intro p _
    show _ = (inst.itemType (shiftItem a.box d p).itemTypeId).profit
    rw [shift_type]
  · unfold binWeight
    rw [hI, List.map_append, List.sum_append, List.map_map]
    show a.weight + b.weight = _
    rw [ha.weight, hb.weight]
    unfold binWeight
    congr 2
    apply List.map_congr_left
    intro p _
    show _ = (inst.itemType (shiftItem a.box d p).itemTypeId).weight
    rw [shift_type]
  · rw [hI, List.length_append, List.length_map]
    show a.numberOfItems + b.numberOfItems = _
    rw [ha.number, hb.number]; push_cast; rfl
  · exact incr_merge _ _ _ ha.incr hb.incr
  · exact pos_merge _ _ _ ha.pos hb.pos
  · intro i
    rw [hI, count_append, count_map_type (shift_type a.box d), ← ha.cnt, ← hb.cnt]
    exact cnt_merge _ _ _ (le_refl _) i
  · intro p hp
    have := List.all_eq_true.mp hc p hp
    simpa using this
  · show a.numberOfItems + b.numberOfItems = ((mergeCopies a.itemCopies b.itemCopies).map _).sum
    rw [ha.total, hb.total]
    exact (sum_merge _ _ _ (le_refl _)).symm
  · intro e
    rw [hB]
    have hsa := ha.side e
    have hsb := hb.side e
    split <;> omega

end Block

end PackingSolver.Box
