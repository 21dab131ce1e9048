import Verif.Lemmas.Rect.Spaces
import Verif.Lemmas.Rect.BlockLoop
import Verif.Lemmas.Rect.ItemLoop
import Verif.Spec.RectSpaces

/-! Helper lemmas: the invariant of the nodes of the search over maximal spaces. -/

namespace PackingSolver.Rect.MaximalSpaces

open Rect.Spec
open Rect.MaximalSpaces.Spec (Reached)
open Block (shift occupies_shift separated_shift count_append count_map_type cnt)

/-! ## Totals by type -/

/-- A total over items, from the numbers of copies. -/
theorem sum_by_copies (f : Nat → ℚ) : ∀ (l : List (Nat × Int)) (items : List PlacedItem),
    Block.Incr l → (∀ i, cnt l i = count items i) →
    (items.map fun p => f p.itemTypeId).sum = (l.map fun p => f p.1 * (p.2 : ℚ)).sum
  | [], items, _, h => by
    cases items with
    | nil => rfl
    | cons p items =>
      have := h p.itemTypeId
      unfold count at this
      rw [List.countP_cons_of_pos (by simp)] at this
      rw [Block.cnt_nil] at this
      omega
  | (j, c) :: l, items, hi, h => by
    have hi' := List.pairwise_cons.mp hi
    have hj : cnt l j = 0 := Block.cnt_eq_zero fun p hp => by have := hi'.1 p hp; simp at this; omega
    have hcj : c = count items j := by
      have := h j
      rw [Block.cnt_cons, if_pos rfl, hj] at this
      simpa using this
    have h2 := sum_by_copies f l (items.filter fun p => !decide (p.itemTypeId = j)) hi'.2 (by
      intro i
      by_cases e : i = j
      · subst e
        rw [hj]
        unfold count
        rw [List.countP_filter]
        symm
        have : (List.countP (fun p : PlacedItem => decide (p.itemTypeId = i)
            && !decide (p.itemTypeId = i)) items) = 0 := by
          rw [List.countP_eq_zero]
          intro a _
          simp
        exact_mod_cast this
      · have := h i
        rw [Block.cnt_cons, if_neg (fun h => e h.symm), zero_add] at this
        rw [this]
        unfold count
        rw [List.countP_filter]
        congr 1
        apply List.countP_congr
        intro a _
        simp only [decide_eq_true_eq, Bool.and_eq_true, Bool.not_eq_true', decide_eq_false_iff_not]
        constructor
        · intro h1; exact ⟨h1, by rw [h1]; exact e⟩
        · intro h1; exact h1.1)
    rw [List.map_cons, List.sum_cons, ← h2]
    have h3 : ((items.filter fun p => decide (p.itemTypeId = j)).map fun p => f p.itemTypeId).sum
        = f j * (c : ℚ) := by
      rw [Block.sum_const_rat _ _ (f j) (by
        intro a ha
        have := (List.mem_filter.mp ha).2
        rw [decide_eq_true_eq] at this
        rw [this])]
      rw [hcj]
      unfold count
      rw [List.countP_eq_length_filter]
      push_cast
      ring
    dsimp only
    rw [← h3]
    clear h h2 h3 hcj hi hj hi'
    induction items with
    | nil => simp
    | cons a items ih =>
      rw [List.map_cons, List.sum_cons, ih]
      by_cases e : a.itemTypeId = j
      · rw [List.filter_cons_of_pos (by simpa using e), List.filter_cons_of_neg (by simpa using e),
          List.map_cons, List.sum_cons]
        ring
      · rw [List.filter_cons_of_neg (by simpa using e), List.filter_cons_of_pos (by simpa using e),
          List.map_cons, List.sum_cons]
        ring

/-! ## Placed blocks -/

/-- The rectangle of a placed block. -/
def rectOf (s : Scheme) (p : Nat × Int × Int) : Placed :=
  ⟨p.2.1, p.2.2, (s.block p.1).x, (s.block p.1).y⟩

/-- The items of placed blocks. -/
def itemsAt (s : Scheme) (l : List (Nat × Int × Int)) : List PlacedItem :=
  l.flatMap fun p => (s.block p.1).items.map (shift p.2.1 p.2.2)

theorem placedItems_eq (s : Scheme) (n : Node) : placedItems s n = itemsAt s n.placedBlocks := by
  unfold placedItems itemsAt
  congr 1
  funext p
  apply List.map_congr_left
  intro it _
  unfold shift
  rw [Int.add_comm p.2.1, Int.add_comm p.2.2]

theorem itemsAt_snoc (s : Scheme) (l : List (Nat × Int × Int)) (p : Nat × Int × Int) :
    itemsAt s (l ++ [p]) = itemsAt s l ++ (s.block p.1).items.map (shift p.2.1 p.2.2) := by
  unfold itemsAt
  rw [List.flatMap_append]
  simp

/-- What the nodes rely on. -/
structure Ctx (s : Scheme) : Prop where
  pos : Positive s.inst
  bin : s.binTypeId < s.inst.numberOfBinTypes
  blocks : ∀ b ∈ s.blocks, Block.Inv s.inst s.binType b
  binX : 0 ≤ s.binX ∧ s.binX ≤ s.binType.x
  binY : 0 ≤ s.binY ∧ s.binY ≤ s.binType.y

theorem Ctx.block {s : Scheme} (hc : Ctx s) {i : Nat} (hi : i < s.blocks.length) :
    Block.Inv s.inst s.binType (s.block i) := by
  apply hc.blocks
  unfold Scheme.block
  rw [List.getD_eq_getElem _ _ hi]
  exact List.getElem_mem hi

theorem Ctx.copies {s : Scheme} (hc : Ctx s) {i : Nat} (hi : i < s.inst.numberOfItemTypes) :
    0 ≤ (s.inst.itemType i).copies := by
  apply (hc.pos.items _ _).2.2
  unfold Instance.itemType
  rw [List.getD_eq_getElem _ _ hi]
  exact List.getElem_mem hi

/-- The invariant. -/
structure Inv (s : Scheme) (n : Node) : Prop where
  ids : ∀ p ∈ n.placedBlocks, p.1 < s.blocks.length
  inside : ∀ p ∈ n.placedBlocks, Inside s.binX s.binY (rectOf s p)
  sep : n.placedBlocks.Pairwise fun p q => Separated (rectOf s p) (rectOf s q)
  defects : ∀ p ∈ n.placedBlocks, ∀ d ∈ s.binType.defects,
    Separated (rectOf s p) ⟨d.posX, d.posY, d.x, d.y⟩
  spaces : ∀ e ∈ n.emptySpaces, (0 ≤ e.w ∧ 0 ≤ e.h) ∧ Inside s.binX s.binY e.rect
    ∧ (∀ p ∈ n.placedBlocks, Separated e.rect (rectOf s p))
    ∧ ∀ d ∈ s.binType.defects, Separated e.rect ⟨d.posX, d.posY, d.x, d.y⟩
  len : n.itemNumberOfCopies.length = s.inst.numberOfItemTypes
  cnt : ∀ i, i < s.inst.numberOfItemTypes →
    n.itemNumberOfCopies.getD i 0 = count (itemsAt s n.placedBlocks) i
  within : ∀ i, i < s.inst.numberOfItemTypes →
    count (itemsAt s n.placedBlocks) i ≤ (s.inst.itemType i).copies
  valid : ∀ b, b ∈ n.validBlockIds ↔ b < s.blocks.length ∧ ∀ p ∈ (s.block b).itemCopies,
    count (itemsAt s n.placedBlocks) p.1 + p.2 ≤ (s.inst.itemType p.1).copies
  cover : ∀ q : Placed, Inside s.binX s.binY q →
    (∀ p ∈ n.placedBlocks, Separated q (rectOf s p)) →
    (∀ d ∈ s.binType.defects, Separated q ⟨d.posX, d.posY, d.x, d.y⟩) →
    (∃ b ∈ n.validBlockIds, (s.block b).x ≤ q.w ∧ (s.block b).y ≤ q.h) → Covered n.emptySpaces q
  itemArea : n.itemArea = ((itemsAt s n.placedBlocks).map fun p =>
    (s.inst.itemType p.itemTypeId).x * (s.inst.itemType p.itemTypeId).y).sum
  blockArea : n.blockArea = (n.placedBlocks.map fun p => (s.block p.1).x * (s.block p.1).y).sum
  weight : n.weight = binWeight s.inst (itemsAt s n.placedBlocks)
  number : n.numberOfItems = ((itemsAt s n.placedBlocks).length : Int)
  blocks : n.numberOfBlocks = (n.placedBlocks.length : Int)
  profit : n.profit = itemsProfit s.inst (itemsAt s n.placedBlocks)
  weightLe : n.placedBlocks ≠ [] → ∀ m, s.binType.maximumWeight = .fin m → n.weight ≤ m

/-- Ids of the block lists exist. -/
theorem key_lt {inst : Instance} {bt : BinType} {b : Block} (h : Block.Inv inst bt b)
    {p : Nat × Int} (hp : p ∈ b.itemCopies) : p.1 < inst.numberOfItemTypes := by
  have h1 := (h.listed p.1 p.2).mp hp
  have h2 : 0 < count b.items p.1 := by omega
  unfold count at h2
  obtain ⟨q, hq, e⟩ := List.countP_pos_iff.mp (by exact_mod_cast h2)
  rw [decide_eq_true_eq] at e
  rw [← e]
  exact h.exist q hq

/-- Spaces that survive `remove_unusable_spaces`. -/
theorem inv_removeUnusable {s : Scheme} {n : Node} (h : Inv s n) : Inv s (removeUnusable s n) := by
  refine ⟨h.ids, h.inside, h.sep, h.defects, ?_, h.len, h.cnt, h.within, h.valid, ?_, h.itemArea,
    h.blockArea, h.weight, h.number, h.blocks, h.profit, h.weightLe⟩
  · intro e he
    exact h.spaces e (mem_swapFilter.mp he).1
  · intro q h1 h2 h3 h4
    obtain ⟨e, he, hq⟩ := h.cover q h1 h2 h3 h4
    refine ⟨e, mem_swapFilter.mpr ⟨he, ?_⟩, hq⟩
    obtain ⟨b, hb, hx, hy⟩ := h4
    refine List.any_eq_true.mpr ⟨b, hb, ?_⟩
    unfold fitsSpace
    unfold Within at hq
    simp only [Bool.and_eq_true, decide_eq_true_eq]
    omega

/-- The defects are cut out of the bin. -/
theorem cut_defects (ds : List Defect) : ∀ {l : List Space} {W H : Int},
    (∀ s ∈ l, 0 ≤ s.w ∧ 0 ≤ s.h ∧ Inside W H s.rect) →
    (∀ e ∈ ds.foldl (fun l d => cutSpaces l d.posX d.posY d.x d.y) l,
      (0 ≤ e.w ∧ 0 ≤ e.h ∧ Inside W H e.rect) ∧ (∃ t ∈ l, Within e.rect t)
      ∧ ∀ d ∈ ds, Separated e.rect ⟨d.posX, d.posY, d.x, d.y⟩)
    ∧ ∀ q : Placed, 0 < q.w → 0 < q.h →
      (∀ d ∈ ds, Separated q ⟨d.posX, d.posY, d.x, d.y⟩) → Covered l q →
      Covered (ds.foldl (fun l d => cutSpaces l d.posX d.posY d.x d.y) l) q := by
  induction ds with
  | nil =>
    intro l W H hl
    exact ⟨fun e he => ⟨hl e he, ⟨e, he, within_refl e⟩, by simp⟩, fun q _ _ _ h => h⟩
  | cons d ds ih =>
    intro l W H hl
    obtain ⟨a1, a2⟩ := cutSpaces_spec d.posX d.posY d.x d.y
      (fun s hs => ⟨(hl s hs).1, (hl s hs).2.1⟩)
    obtain ⟨b1, b2⟩ := ih (l := cutSpaces l d.posX d.posY d.x d.y) (W := W) (H := H) (by
      intro e he
      obtain ⟨_, p1, p2, t, ht, hw⟩ := a1 e he
      exact ⟨p1, p2, hw.inside (hl t ht).2.2⟩)
    refine ⟨fun e he => ?_, fun q h1 h2 h3 h4 => ?_⟩
    · obtain ⟨c1, ⟨t, ht, hw⟩, c3⟩ := b1 e he
      obtain ⟨d1, _, _, t', ht', hw'⟩ := a1 t ht
      refine ⟨c1, ⟨t', ht', hw.trans hw'⟩, ?_⟩
      intro d' hd'
      rcases List.mem_cons.mp hd' with rfl | hd'
      · exact hw.separated d1
      · exact c3 d' hd'
    · exact b2 q h1 h2 (fun d' hd' => h3 d' (List.mem_cons_of_mem _ hd'))
        (a2 q h1 h2 (h3 d (by simp)) h4)

theorem inv_root {s : Scheme} (hc : Ctx s) : Inv s (root s) := by
  have key : ∀ l, l = s.binType.defects.foldl (fun l d => cutSpaces l d.posX d.posY d.x d.y)
        [⟨0, 0, s.binX, s.binY⟩] →
      Inv s { itemNumberOfCopies := List.replicate s.inst.numberOfItemTypes 0
              emptySpaces := l
              validBlockIds := List.range s.blocks.length } := by
    intro l hl
    subst hl
    obtain ⟨a1, a2⟩ := cut_defects s.binType.defects (l := [⟨0, 0, s.binX, s.binY⟩])
      (W := s.binX) (H := s.binY) (by
        intro e he
        rw [List.mem_singleton.mp he]
        refine ⟨hc.binX.1, hc.binY.1, ?_⟩
        unfold Inside Space.rect
        dsimp only
        omega)
    refine ⟨by simp, by simp, List.Pairwise.nil, by simp, ?_, by simp, ?_, ?_, ?_, ?_, rfl, rfl, rfl,
      rfl, rfl, rfl, by simp⟩
    · intro e he
      obtain ⟨b1, _, b3⟩ := a1 e he
      exact ⟨⟨b1.1, b1.2.1⟩, b1.2.2, by simp, b3⟩
    · intro i hi
      rw [List.getD_eq_getElem _ _ (by simpa using hi)]
      simp [itemsAt, count]
    · intro i hi
      exact hc.copies hi
    · intro b
      rw [List.mem_range]
      constructor
      · intro hb
        refine ⟨hb, fun p hp => ?_⟩
        have := (hc.block hb).copies p hp
        simpa [itemsAt, count] using this
      · intro hb; exact hb.1
    · intro q h1 _ h3 ⟨b, hb, hx, hy⟩
      have hi := hc.block (List.mem_range.mp hb)
      have p1 := hi.posX
      have p2 := hi.posY
      refine a2 q (by omega) (by omega) h3 ⟨_, List.mem_singleton.mpr rfl, ?_⟩
      unfold Inside at h1
      unfold Within
      dsimp only
      omega
  unfold root
  dsimp only
  split_ifs
  · exact key _ rfl
  · exact inv_removeUnusable (key _ rfl)

/-! ## Insertions -/

theorem findBest_mem (s : Scheme) : ∀ (l : List Space) (b : Option (Space × Anchor)) {e a},
    l.foldl (bestStep s) b = some (e, a) →
    (b = some (e, a)) ∨ (e ∈ l ∧ a = anchorInfo e s.binX s.binY)
  | [], _, _, _, h => Or.inl h
  | c :: l, b, e, a, h => by
    rcases findBest_mem s l _ h with h | h
    · unfold bestStep at h
      dsimp only at h
      cases b with
      | none => cases h; exact Or.inr ⟨by simp, rfl⟩
      | some p =>
        obtain ⟨b, ab⟩ := p
        dsimp only at h
        split_ifs at h <;> first
          | exact Or.inl h
          | (cases h; exact Or.inr ⟨by simp, rfl⟩)
    · exact Or.inr ⟨List.mem_cons_of_mem _ h.1, h.2⟩

theorem findBest_none (s : Scheme) : ∀ (l : List Space) (b : Option (Space × Anchor)),
    l.foldl (bestStep s) b = none → b = none ∧ l = []
  | [], _, h => ⟨h, rfl⟩
  | c :: l, b, h => by
    have := (findBest_none s l _ h).1
    unfold bestStep at this
    dsimp only at this
    cases b with
    | none => cases this
    | some p =>
      obtain ⟨b, ab⟩ := p
      dsimp only at this
      split_ifs at this

/-- What is known of an insertion: a valid block, in an empty space, within the weight. -/
theorem mem_insertions {s : Scheme} {n : Node} {i : Insertion} (h : i ∈ insertions s n) :
    i.blockId ∈ n.validBlockIds ∧ weightOk s n (s.block i.blockId) = true
    ∧ ∃ e ∈ n.emptySpaces, fitsSpace (s.block i.blockId) e = true
      ∧ (i.x, i.y) = blockPosition (anchorInfo e s.binX s.binY) e (s.block i.blockId)
      ∧ findBestSpace s n = some (e, anchorInfo e s.binX s.binY) := by
  unfold insertions at h
  split at h
  · simp at h
  · next e a hb =>
    obtain ⟨b, hv, hi⟩ := List.mem_filterMap.mp h
    split_ifs at hi with hf
    cases hi
    rw [Bool.and_eq_true] at hf
    have he := findBest_mem s n.emptySpaces none hb
    rcases he with he | he
    · cases he
    · refine ⟨hv, hf.2, e, he.1, hf.1, by rw [← he.2], by rw [hb, ← he.2]⟩

theorem position_within {e : Space} {b : Block} (h : fitsSpace b e = true) (a : Anchor) :
    Within ⟨(blockPosition a e b).1, (blockPosition a e b).2, b.x, b.y⟩ e := by
  unfold fitsSpace at h
  simp only [Bool.and_eq_true, decide_eq_true_eq] at h
  unfold blockPosition Within Space.xe Space.ye
  dsimp only
  split_ifs <;> omega

/-! ## Children -/

theorem addCopies_fields (s : Scheme) : ∀ (l : List (Nat × Int)) (n : Node),
    (addCopies s n l).placedBlocks = n.placedBlocks
    ∧ (addCopies s n l).emptySpaces = n.emptySpaces
    ∧ (addCopies s n l).itemArea = n.itemArea
    ∧ (addCopies s n l).blockArea = n.blockArea
    ∧ (addCopies s n l).weight = n.weight
    ∧ (addCopies s n l).numberOfItems = n.numberOfItems
    ∧ (addCopies s n l).numberOfBlocks = n.numberOfBlocks
    ∧ (addCopies s n l).validBlockIds = n.validBlockIds
    ∧ (addCopies s n l).profit
      = n.profit + (l.map fun p => (s.inst.itemType p.1).profit * (p.2 : ℚ)).sum
    ∧ (addCopies s n l).itemNumberOfCopies.length = n.itemNumberOfCopies.length
    ∧ ∀ i, i < n.itemNumberOfCopies.length →
      (addCopies s n l).itemNumberOfCopies.getD i 0 = n.itemNumberOfCopies.getD i 0 + cnt l i
  | [], n => by
    refine ⟨rfl, rfl, rfl, rfl, rfl, rfl, rfl, rfl, ?_, rfl, ?_⟩
    · show n.profit = _; simp
    · intro i _; show n.itemNumberOfCopies.getD i 0 = _; simp
  | p :: l, n => by
    obtain ⟨a1, a2, a3, a4, a5, a6, a7, a8, a9, a10, a11⟩ := addCopies_fields s l
      { n with
        itemNumberOfCopies := addAt n.itemNumberOfCopies p.1 p.2
        profit := n.profit + (s.inst.itemType p.1).profit * (p.2 : ℚ) }
    refine ⟨a1, a2, a3, a4, a5, a6, a7, a8, ?_, ?_, ?_⟩
    · rw [List.map_cons, List.sum_cons, ← add_assoc]; exact a9
    · exact a10.trans (addAt_length _ _ _)
    · intro i hi
      refine (a11 i (by rw [addAt_length]; exact hi)).trans ?_
      rw [addAt_getD _ _ _ _ hi, Block.cnt_cons]
      split_ifs <;> ring

theorem cnt_nonneg {l : List (Nat × Int)} (h : Block.Pos l) (i : Nat) : 0 ≤ cnt l i := by
  unfold cnt
  apply List.sum_nonneg
  intro x hx
  obtain ⟨p, hp, rfl⟩ := List.mem_map.mp hx
  split_ifs
  · exact le_of_lt (h p hp)
  · exact le_refl _

theorem sum_snoc_q (s : Scheme) (f : PlacedItem → ℚ) (hf : ∀ dx dy p, f (shift dx dy p) = f p)
    (l : List (Nat × Int × Int)) (p : Nat × Int × Int) :
    ((itemsAt s (l ++ [p])).map f).sum
      = ((itemsAt s l).map f).sum + ((s.block p.1).items.map f).sum := by
  rw [itemsAt_snoc, List.map_append, List.sum_append, List.map_map]
  congr 2
  apply List.map_congr_left
  intro a _
  exact hf _ _ a

theorem sum_snoc_i (s : Scheme) (f : PlacedItem → Int) (hf : ∀ dx dy p, f (shift dx dy p) = f p)
    (l : List (Nat × Int × Int)) (p : Nat × Int × Int) :
    ((itemsAt s (l ++ [p])).map f).sum
      = ((itemsAt s l).map f).sum + ((s.block p.1).items.map f).sum := by
  rw [itemsAt_snoc, List.map_append, List.sum_append, List.map_map]
  congr 2
  apply List.map_congr_left
  intro a _
  exact hf _ _ a

theorem count_snoc (s : Scheme) (l : List (Nat × Int × Int)) (p : Nat × Int × Int) (i : Nat) :
    count (itemsAt s (l ++ [p])) i = count (itemsAt s l) i + count (s.block p.1).items i := by
  rw [itemsAt_snoc, count_append, count_map_type (f := shift p.2.1 p.2.2) (fun _ => rfl)]

theorem inv_apply {s : Scheme} (hc : Ctx s) {n : Node} (h : Inv s n) {i : Insertion}
    (hi : i ∈ insertions s n) : Inv s (applyInsertion s n i) := by
  obtain ⟨hv, hw, e, he, hf, hpos, _⟩ := mem_insertions hi
  obtain ⟨hlt, hcop⟩ := (h.valid i.blockId).mp hv
  have hb := hc.block hlt
  obtain ⟨a1, a2, a3, a4, a5, a6, a7, a8, a9, a10, a11⟩ :=
    addCopies_fields s (s.block i.blockId).itemCopies n
  have hin : Within (rectOf s (i.blockId, i.x, i.y)) e := by
    have := position_within hf (anchorInfo e s.binX s.binY)
    rw [← hpos] at this
    exact this
  obtain ⟨⟨e1, e2⟩, e3, e4, e5⟩ := h.spaces e he
  obtain ⟨c1, c2⟩ := cutSpaces_spec i.x i.y (s.block i.blockId).x (s.block i.blockId).y
    (fun t ht => (h.spaces t ht).1)
  have hcount : ∀ j, count (itemsAt s (n.placedBlocks ++ [(i.blockId, i.x, i.y)])) j
      = count (itemsAt s n.placedBlocks) j + count (s.block i.blockId).items j :=
    fun j => count_snoc s n.placedBlocks (i.blockId, i.x, i.y) j
  have hnew : ∀ j, j < s.inst.numberOfItemTypes →
      (addCopies s n (s.block i.blockId).itemCopies).itemNumberOfCopies.getD j 0
        = count (itemsAt s (n.placedBlocks ++ [(i.blockId, i.x, i.y)])) j := by
    intro j hj
    rw [a11 j (by rw [h.len]; exact hj), h.cnt j hj, hcount, hb.cnt]
  unfold applyInsertion
  apply inv_removeUnusable
  refine ⟨?_, ?_, ?_, ?_, ?_, ?_, ?_, ?_, ?_, ?_, ?_, ?_, ?_, ?_, ?_, ?_, ?_⟩ <;> dsimp only <;>
    try rw [a1]
  · intro p hp
    rcases List.mem_append.mp hp with hp | hp
    · exact h.ids p hp
    · rw [List.mem_singleton.mp hp]; exact hlt
  · intro p hp
    rcases List.mem_append.mp hp with hp | hp
    · exact h.inside p hp
    · rw [List.mem_singleton.mp hp]; exact hin.inside e3
  · rw [List.pairwise_append]
    refine ⟨h.sep, List.pairwise_singleton _ _, fun p hp q hq => ?_⟩
    rw [List.mem_singleton.mp hq]
    have := hin.separated (e4 p hp)
    unfold Separated at this ⊢
    omega
  · intro p hp d hd
    rcases List.mem_append.mp hp with hp | hp
    · exact h.defects p hp d hd
    · rw [List.mem_singleton.mp hp]; exact hin.separated (e5 d hd)
  · rw [a2]
    intro t ht
    obtain ⟨t1, t2, t3, u, hu, hwu⟩ := c1 t ht
    obtain ⟨_, u3, u4, u5⟩ := h.spaces u hu
    refine ⟨⟨t2, t3⟩, hwu.inside u3, ?_, fun d hd => hwu.separated (u5 d hd)⟩
    intro p hp
    rcases List.mem_append.mp hp with hp | hp
    · exact hwu.separated (u4 p hp)
    · rw [List.mem_singleton.mp hp]; exact t1
  · rw [a10]; exact h.len
  · exact hnew
  · intro j hj
    rw [hcount]
    by_cases h0 : 0 < count (s.block i.blockId).items j
    · exact hcop (j, _) ((hb.listed j _).mpr ⟨rfl, h0⟩)
    · have := h.within j hj
      omega
  · intro b
    rw [a8, mem_swapFilter, h.valid, List.all_eq_true]
    constructor
    · rintro ⟨⟨b1, _⟩, b3⟩
      refine ⟨b1, fun p hp => ?_⟩
      have := b3 p hp
      rw [hnew p.1 (key_lt (hc.block b1) hp)] at this
      simpa using this
    · rintro ⟨b1, b2⟩
      refine ⟨⟨b1, fun p hp => ?_⟩, fun p hp => ?_⟩
      · have := b2 p hp
        have h0 := Block.count_nonneg (s.block i.blockId).items p.1
        rw [hcount] at this
        omega
      · have := b2 p hp
        rw [hnew p.1 (key_lt (hc.block b1) hp)]
        simpa using this
  · rw [a2, a8]
    intro q q1 q2 q3 ⟨b, hbm, bx, by'⟩
    have hbv := (mem_swapFilter.mp hbm).1
    have hblk := hc.block ((h.valid b).mp hbv).1
    have p1 := hblk.posX
    have p2 := hblk.posY
    refine c2 q (by omega) (by omega) (q2 (i.blockId, i.x, i.y) (by simp)) ?_
    exact h.cover q q1 (fun p hp => q2 p (List.mem_append_left _ hp)) q3 ⟨b, hbv, bx, by'⟩
  · rw [a3, h.itemArea, hb.area]
    exact (sum_snoc_i s (fun p => (s.inst.itemType p.itemTypeId).x * (s.inst.itemType p.itemTypeId).y)
      (fun _ _ _ => rfl) n.placedBlocks (i.blockId, i.x, i.y)).symm
  · rw [a4, h.blockArea, List.map_append, List.sum_append]
    simp [Block.area]
  · rw [a5, h.weight, hb.weight]
    exact (sum_snoc_q s (fun p => (s.inst.itemType p.itemTypeId).weight) (fun _ _ _ => rfl)
      n.placedBlocks (i.blockId, i.x, i.y)).symm
  · rw [a6, h.number, itemsAt_snoc]
    simp
  · rw [a7, h.blocks]
    simp
  · rw [a9, h.profit]
    rw [← sum_by_copies (fun j => (s.inst.itemType j).profit) _ _ hb.incr hb.cnt]
    exact (sum_snoc_q s (fun p => (s.inst.itemType p.itemTypeId).profit) (fun _ _ _ => rfl)
      n.placedBlocks (i.blockId, i.x, i.y)).symm
  · intro _ m hm
    rw [a5]
    unfold weightOk at hw
    rw [hm] at hw
    simpa using hw

theorem inv_child {s : Scheme} (hc : Ctx s) {guide : Node → Nat → ℚ} {n n' : Node} (h : Inv s n)
    {i : Insertion} (hi : i ∈ insertions s n) (he : child s guide n i = .ok n') : Inv s n' := by
  unfold child at he
  dsimp only at he
  cases hg : greedy s guide (applyInsertion s n i) with
  | none => rw [hg] at he; cases he
  | some g =>
    rw [hg] at he
    cases he
    have := inv_apply hc h hi
    exact ⟨this.ids, this.inside, this.sep, this.defects, this.spaces, this.len, this.cnt,
      this.within, this.valid, this.cover, this.itemArea, this.blockArea, this.weight, this.number,
      this.blocks, this.profit, this.weightLe⟩

theorem inv_reached {s : Scheme} (hc : Ctx s) {n : Node} (h : Reached s n) : Inv s n := by
  induction h with
  | root => exact inv_root hc
  | child _ hi he ih => exact inv_child hc ih hi he

/-! ## The greedy completion -/

theorem bestInsertion_mem {s : Scheme} {guide : Node → Nat → ℚ} {n : Node} {i : Insertion}
    (h : bestInsertion s guide n = some i) : i ∈ insertions s n := by
  have key : ∀ (l : List Insertion) (b : Option Insertion × ℚ),
      (l.foldl (fun (best : Option Insertion × ℚ) i =>
        if guide n i.blockId > best.2 then (some i, guide n i.blockId) else best) b).1 = some i →
      b.1 = some i ∨ i ∈ l := by
    intro l
    induction l with
    | nil => intro b hb; exact Or.inl hb
    | cons a l ih =>
      intro b hb
      rcases ih _ hb with hb | hb
      · dsimp only at hb
        by_cases hg : guide n a.blockId > b.2
        · rw [if_pos hg] at hb; cases hb; exact Or.inr (by simp)
        · rw [if_neg hg] at hb; exact Or.inl hb
      · exact Or.inr (List.mem_cons_of_mem _ hb)
  rcases key _ _ h with h | h
  · cases h
  · exact h

/-- There are no more items than copies. -/
theorem number_le {s : Scheme} {n : Node} (h : Inv s n) (hids : ∀ p ∈ itemsAt s n.placedBlocks,
    p.itemTypeId < s.inst.numberOfItemTypes) :
    (itemsAt s n.placedBlocks).length ≤ (s.inst.itemTypes.map fun t => t.copies.toNat).sum := by
  have key : ∀ (its : List ItemType) (l : List PlacedItem), (∀ p ∈ l, p.itemTypeId < its.length) →
      (∀ i, i < its.length → count l i ≤ (its.getD i default).copies) →
      l.length ≤ (its.map fun t => t.copies.toNat).sum := by
    intro its
    induction its using List.reverseRecOn with
    | nil =>
      intro l h1 _
      cases l with
      | nil => simp
      | cons p l => have := h1 p (by simp); simp at this
    | append_singleton its t ih =>
      intro l h1 h2
      have h3 := ih (l.filter fun p => !decide (p.itemTypeId = its.length)) (by
        intro p hp
        obtain ⟨hp1, hp2⟩ := List.mem_filter.mp hp
        have := h1 p hp1
        simp at this hp2
        omega) (by
        intro i hi
        have := h2 i (by simp; omega)
        rw [List.getD_append _ _ _ _ hi] at this
        refine le_trans ?_ this
        unfold count
        exact_mod_cast List.Sublist.countP_le List.filter_sublist)
      have h4 := h2 its.length (by simp)
      rw [List.getD_append_right _ _ _ _ (le_refl _)] at h4
      simp only [Nat.sub_self, List.getD_cons_zero] at h4
      rw [List.map_append, List.sum_append]
      have h5 : l.length = l.countP (fun p => decide (p.itemTypeId = its.length))
          + (l.filter fun p => !decide (p.itemTypeId = its.length)).length := by
        rw [← List.countP_eq_length_filter]
        have := List.length_eq_countP_add_countP (fun p : PlacedItem => decide (p.itemTypeId = its.length)) (l := l)
        rw [this]
        congr 1
        apply List.countP_congr
        intro a _
        simp
      unfold count at h4
      simp only [List.map_cons, List.map_nil, List.sum_cons, List.sum_nil]
      omega
  exact key s.inst.itemTypes _ hids h.within

theorem itemsAt_exist {s : Scheme} (hc : Ctx s) {l : List (Nat × Int × Int)}
    (h : ∀ p ∈ l, p.1 < s.blocks.length) :
    ∀ p ∈ itemsAt s l, p.itemTypeId < s.inst.numberOfItemTypes := by
  intro p hp
  obtain ⟨b, hb, hp⟩ := List.mem_flatMap.mp hp
  obtain ⟨it, hit, rfl⟩ := List.mem_map.mp hp
  exact (hc.block (h b hb)).exist it hit

theorem placed_apply (s : Scheme) (n : Node) (i : Insertion) :
    (applyInsertion s n i).placedBlocks = n.placedBlocks ++ [(i.blockId, i.x, i.y)] := by
  unfold applyInsertion removeUnusable
  dsimp only
  rw [(addCopies_fields s (s.block i.blockId).itemCopies n).1]

theorem greedyLoop_ok {s : Scheme} (hc : Ctx s) (guide : Node → Nat → ℚ) : ∀ (k : Nat) (n : Node),
    Inv s n → (s.inst.itemTypes.map fun t => t.copies.toNat).sum
      < k + (itemsAt s n.placedBlocks).length →
    ∃ g, greedyLoop s guide k n = some g ∧ Inv s g ∧ bestInsertion s guide g = none
      ∧ n.placedBlocks <+: g.placedBlocks
  | 0, n, h, hk => by
    have := number_le h (itemsAt_exist hc h.ids)
    omega
  | k + 1, n, h, hk => by
    unfold greedyLoop
    cases hb : bestInsertion s guide n with
    | none => exact ⟨n, rfl, h, hb, List.prefix_refl _⟩
    | some i =>
      have hi := bestInsertion_mem hb
      have hlt := ((h.valid i.blockId).mp (mem_insertions hi).1).1
      obtain ⟨p, hp, _⟩ := (hc.block hlt).startsX
      have hpos := List.length_pos_of_mem hp
      obtain ⟨g, g1, g2, g3, g4⟩ := greedyLoop_ok hc guide k _ (inv_apply hc h hi) (by
        rw [placed_apply, itemsAt_snoc, List.length_append, List.length_map]
        dsimp only
        omega)
      rw [placed_apply] at g4
      exact ⟨g, g1, g2, g3, (List.prefix_append _ _).trans g4⟩

/-- The greedy completion ends in a node with the invariant. -/
theorem greedy_ok {s : Scheme} (hc : Ctx s) (guide : Node → Nat → ℚ) {n : Node} (h : Inv s n) :
    ∃ g, greedy s guide n = some g ∧ Inv s g ∧ bestInsertion s guide g = none
      ∧ n.placedBlocks <+: g.placedBlocks :=
  greedyLoop_ok hc guide _ n h (by omega)

theorem child_ok {s : Scheme} (hc : Ctx s) (guide : Node → Nat → ℚ) {n : Node} (h : Inv s n)
    {i : Insertion} (hi : i ∈ insertions s n) : ∃ n', child s guide n i = .ok n' := by
  obtain ⟨g, hg, _⟩ := greedy_ok hc guide (inv_apply hc h hi)
  unfold child
  dsimp only
  rw [hg]
  exact ⟨_, rfl⟩

end PackingSolver.Rect.MaximalSpaces
