import Verif.Lemmas.Guil.SpaceBlockLoop
import Verif.Lemmas.Rect.Run

/-!
# Blocks of the search over unused rectangles (C114)
-/

namespace PackingSolver.Guil.Spaces

open PackingSolver.Guil.Spec

section
variable {inst : Instance} {bt : BinType} {maximum : Nat} {l : List Block}

/-- **C114**: the generation of blocks ends, without error, with at most the requested number of
blocks. -/
theorem space_blocks_total (ht : 0 ≤ inst.parameters.cutThickness) (hi : PosItems inst)
    (bt : BinType) (maximum : Nat) :
    ∃ l, Block.computeBlocks inst bt maximum = .ok l ∧ l.length ≤ maximum := by
  obtain ⟨l, h, -, -, -, -, h2, -⟩ := Block.computeBlocks_ok (bt := bt) (M := maximum) ht hi
  exact ⟨l, h, h2⟩

/-- **C114**: every block fits in the bin, and its rectangle can be cut, by cuts from side to side of
the given thickness, into exactly the items it announces: numbers of copies, profit, area and number
of items are those of the pattern, and no item type is used more often than it has copies. -/
theorem space_blocks_ok (ht : 0 ≤ inst.parameters.cutThickness) (hi : PosItems inst)
    (h : Block.computeBlocks inst bt maximum = .ok l) :
    ∀ c ∈ l, c.w ≤ bt.w ∧ c.h ≤ bt.h ∧ ∃ p : Pattern,
      p.Fits inst.itemTypes inst.parameters.cutThickness c.w c.h ∧ p.Respects inst.itemTypes
      ∧ p.profit inst.itemTypes = c.itemProfit ∧ p.area inst.itemTypes = c.itemArea
      ∧ (p.size : Int) = c.numberOfItems ∧ 1 ≤ c.numberOfItems
      ∧ (∀ i n, (i, n) ∈ c.itemCopies ↔ n = (p.count i : Int) ∧ 0 < n)
      ∧ c.itemCopies.Pairwise fun a b => a.1 < b.1 := by
  obtain ⟨l', h', hg, -⟩ := Block.computeBlocks_ok (bt := bt) (M := maximum) ht hi
  rw [h] at h'
  cases h'
  intro c hc
  have hv := (hg c hc).inv
  obtain ⟨p, h1, h2, h3, h4, h5⟩ := hv.cut
  have hl : ∀ i n, (i, n) ∈ c.itemCopies ↔ n = (p.count i : Int) ∧ 0 < n := by
    intro i n; rw [hv.listed, h2]
  refine ⟨hv.fitW, hv.fitH, p, h1, ?_, h3, h4, h5, hv.many, hl, hv.incr⟩
  intro i it hit hpos
  have := hv.copies _ ((hl i (p.count i)).mpr ⟨rfl, by exact_mod_cast hpos⟩)
  unfold Instance.itemType at this
  rw [List.getD_eq_getElem?_getD, hit] at this
  exact this

/-- **C114**: no two blocks have the same sides and the same numbers of copies of each item type. -/
theorem space_blocks_distinct (ht : 0 ≤ inst.parameters.cutThickness) (hi : PosItems inst)
    (h : Block.computeBlocks inst bt maximum = .ok l) :
    l.Pairwise fun c c' => ¬ (c.w = c'.w ∧ c.h = c'.h ∧ c.itemCopies = c'.itemCopies) := by
  obtain ⟨l', h', -, -, -, hn, -⟩ := Block.computeBlocks_ok (bt := bt) (M := maximum) ht hi
  rw [h] at h'
  cases h'
  rw [List.Nodup, List.pairwise_map] at hn
  refine hn.imp fun hne he => hne ?_
  unfold Block.key
  rw [he.1, he.2.1, he.2.2]

/-- **C114**: a block is a grid of copies of one item type, in an allowed orientation, or it records
two blocks that come before it in the list and of which it is made: they are on the two sides of a
cut of the recorded direction, the other side being that of the larger one. -/
theorem space_blocks_made (ht : 0 ≤ inst.parameters.cutThickness) (hi : PosItems inst)
    (h : Block.computeBlocks inst bt maximum = .ok l) {k : Nat} {c : Block} (hk : l[k]? = some c) :
    (c.isSimple = true ∧ ∃ i, c.itemTypeId = some i ∧ i < inst.numberOfItemTypes
      ∧ (c.rotate = true → (inst.itemType i).oriented = false)
      ∧ ∃ nx ny : Nat, 1 ≤ nx ∧ 1 ≤ ny ∧ c.itemCopies = [(i, (nx : Int) * ny)]
        ∧ c.w = nx * (if c.rotate then (inst.itemType i).h else (inst.itemType i).w)
          + (nx - 1) * inst.parameters.cutThickness
        ∧ c.h = ny * (if c.rotate then (inst.itemType i).w else (inst.itemType i).h)
          + (ny - 1) * inst.parameters.cutThickness)
    ∨ (c.isSimple = false ∧ ∃ i j a b, c.child1 = some i ∧ c.child2 = some j ∧ i < k ∧ j < k
      ∧ l[i]? = some a ∧ l[j]? = some b
      ∧ (c.cutIsVertical = true →
        c.w = a.w + inst.parameters.cutThickness + b.w ∧ c.h = max a.h b.h)
      ∧ (c.cutIsVertical = false →
        c.h = a.h + inst.parameters.cutThickness + b.h ∧ c.w = max a.w b.w)
      ∧ c.itemProfit = a.itemProfit + b.itemProfit
      ∧ c.numberOfItems = a.numberOfItems + b.numberOfItems) := by
  obtain ⟨l', h', -, ho, -⟩ := Block.computeBlocks_ok (bt := bt) (M := maximum) ht hi
  rw [h] at h'
  cases h'
  rcases ho k c hk with hm | ⟨i, j, a, b, v, h1, h2, rfl⟩
  · obtain ⟨i, hi', -, r, hr, cx, h1, -, cy, h3, -, rfl⟩ := Block.mem_simpleBlocks.mp hm
    exact .inl ⟨rfl, i, rfl, hi', hr, cx, cy, h1, h3, rfl, rfl, rfl⟩
  · have look : ∀ {n : Nat} {d : Block}, (l.take k)[n]? = some d → n < k ∧ l[n]? = some d := by
      intro n d hd
      have hlt : n < k := by
        by_contra hn
        rw [List.getElem?_eq_none (by rw [List.length_take]; omega)] at hd
        simp at hd
      rw [List.getElem?_take, if_pos hlt] at hd
      exact ⟨hlt, hd⟩
    refine .inr ⟨rfl, i, j, a, b, rfl, rfl, (look h1).1, (look h2).1, (look h1).2, (look h2).2, ?_,
      ?_, rfl, rfl⟩
    · rintro (rfl : v = true)
      exact ⟨show a.w + b.w + _ = _ by ring, rfl⟩
    · rintro (rfl : v = false)
      exact ⟨show a.h + b.h + _ = _ by ring, rfl⟩

/-- **C114**: every item that fits in the bin in an allowed orientation has a block of its own, if the
requested number of blocks is at least twice the number of item types. -/
theorem space_blocks_single_partial (ht : 0 ≤ inst.parameters.cutThickness) (hi : PosItems inst)
    (h : Block.computeBlocks inst bt maximum = .ok l)
    (hM : 2 * inst.numberOfItemTypes ≤ maximum) {i : Nat} (hit : i < inst.numberOfItemTypes)
    (hc : 1 ≤ (inst.itemType i).copies) {r : Bool}
    (hr : r = true → (inst.itemType i).oriented = false)
    (hx : (if r then (inst.itemType i).h else (inst.itemType i).w) ≤ bt.w)
    (hy : (if r then (inst.itemType i).w else (inst.itemType i).h) ≤ bt.h) :
    ∃ c ∈ l, c.w = (if r then (inst.itemType i).h else (inst.itemType i).w)
      ∧ c.h = (if r then (inst.itemType i).w else (inst.itemType i).h) ∧ c.itemCopies = [(i, 1)] := by
  obtain ⟨l', h', -, -, -, -, -, hs⟩ := Block.computeBlocks_ok (bt := bt) (M := maximum) ht hi
  rw [h] at h'
  cases h'
  obtain ⟨hw, hh⟩ := Block.widthOf_pos hi hit r
  have hmem : Block.simple inst i r 1 1 ∈ Block.simpleBlocks inst bt := by
    have hx' : (inst.itemType i).widthOf r ≤ bt.w := hx
    have hy' : (inst.itemType i).heightOf r ≤ bt.h := hy
    refine Block.mem_simpleBlocks.mpr ⟨i, hit, hc, r, hr, 1, le_refl _, ?_, 1, le_refl _, ?_, rfl⟩
    · refine le_min (by exact_mod_cast hc) ?_
      rw [Int.tdiv_eq_ediv_of_nonneg (by omega)]
      exact Int.le_ediv_of_mul_le (by omega) (by push_cast; omega)
    · refine le_min (by push_cast; rw [Int.tdiv_one]; exact hc) ?_
      rw [Int.tdiv_eq_ediv_of_nonneg (by omega)]
      exact Int.le_ediv_of_mul_le (by omega) (by push_cast; omega)
  obtain ⟨c, hcm, hk⟩ := hs hM _ hmem (by show ((1 : Nat) : Int) * ((1 : Nat) : Int) = 1; rfl)
  have h1 : c.w = ((1 : Nat) : Int) * (inst.itemType i).widthOf r
      + (((1 : Nat) : Int) - 1) * inst.parameters.cutThickness := congrArg (fun k => k.1.1) hk
  have h2 : c.h = ((1 : Nat) : Int) * (inst.itemType i).heightOf r
      + (((1 : Nat) : Int) - 1) * inst.parameters.cutThickness := congrArg (fun k => k.1.2) hk
  refine ⟨c, hcm, ?_, ?_, congrArg Prod.snd hk⟩
  · rw [h1]; push_cast; unfold ItemType.widthOf; ring
  · rw [h2]; push_cast; unfold ItemType.heightOf; ring

/-- **C114**: with at most three item types the items of a block fill it; then, if cuts have a
thickness, every block is a single item. -/
theorem space_blocks_few (ht : 0 ≤ inst.parameters.cutThickness) (hi : PosItems inst)
    (h : Block.computeBlocks inst bt maximum = .ok l) (h3 : inst.numberOfItemTypes ≤ 3) :
    ∀ c ∈ l, c.itemArea = c.w * c.h
      ∧ (0 < inst.parameters.cutThickness → c.numberOfItems = 1) := by
  obtain ⟨l', h', hg, -, hf, -⟩ := Block.computeBlocks_ok (bt := bt) (M := maximum) ht hi
  rw [h] at h'
  cases h'
  intro c hc
  have hv := (hg c hc).inv
  have hr := hf h3 c hc
  refine ⟨?_, fun htp => (hv.fillRate_eq htp).mp hr⟩
  have hpos : (0 : Int) < c.w * c.h := mul_pos hv.posW hv.posH
  have hne : ((c.w * c.h : Int) : ℚ) ≠ 0 := by exact_mod_cast hpos.ne'
  unfold Block.fillRate at hr
  rw [if_pos ⟨hv.posW, hv.posH⟩, div_eq_one_iff_eq hne] at hr
  exact_mod_cast hr

end

/-! ## Concrete cases -/

namespace BlockEx

/-- Two copies of a 4 × 3 item that may be rotated and one of each of 5 × 3, 2 × 2 and 9 × 9 items,
with cuts of thickness 1. -/
def inst : Instance :=
  { objective := .knapsack
    parameters := { cutThickness := 1 }
    binTypes := []
    itemTypes := [{ w := 4, h := 3, profit := 12, copies := 2, oriented := false },
      { w := 5, h := 3, profit := 15, copies := 1, oriented := true },
      { w := 2, h := 2, profit := 4, copies := 1, oriented := true },
      { w := 9, h := 9, profit := 81, copies := 1, oriented := true }] }

/-- The bin. -/
def bt : BinType := { w := 10, h := 6 }

/-- The hypotheses of the theorems. -/
example : 0 ≤ inst.parameters.cutThickness ∧ PosItems inst := by
  unfold PosItems; decide +kernel

/-- Nineteen blocks, the first ones of a single item, the others with waste in them. -/
theorem blocks : ∃ l, Block.computeBlocks inst bt 100 = .ok l
    ∧ l.map (fun c => (c.w, c.h, c.itemCopies))
      = [(2, 2, [(2, 1)]), (5, 3, [(1, 1)]), (3, 4, [(0, 1)]), (4, 3, [(0, 1)]),
        (10, 3, [(0, 1), (1, 1)]), (9, 3, [(0, 2)]), (7, 4, [(0, 2)]), (8, 3, [(1, 1), (2, 1)]),
        (7, 3, [(0, 1), (2, 1)]), (8, 4, [(0, 2)]), (9, 4, [(0, 1), (1, 1)]),
        (10, 4, [(0, 2), (2, 1)]), (4, 6, [(0, 1), (2, 1)]), (6, 4, [(0, 1), (2, 1)]),
        (5, 6, [(1, 1), (2, 1)]), (8, 6, [(0, 2), (2, 1)]), (9, 6, [(0, 1), (1, 1), (2, 1)]),
        (9, 6, [(0, 2), (2, 1)]), (10, 6, [(0, 1), (1, 1), (2, 1)])] :=
  ⟨_, Rect.eq_ok_okD (d := []) (by decide +kernel), by decide +kernel⟩

/-- The first item type has two copies, may be rotated and then fits in the bin. -/
example : 2 * inst.numberOfItemTypes ≤ 100 ∧ 1 ≤ (inst.itemType 0).copies
    ∧ (inst.itemType 0).oriented = false ∧ (inst.itemType 0).h ≤ bt.w
    ∧ (inst.itemType 0).w ≤ bt.h := by decide +kernel

/-- With three item types only the single items and what leaves no waste are kept. -/
def instFew : Instance := { inst with itemTypes := inst.itemTypes.take 3 }

example : 0 ≤ instFew.parameters.cutThickness ∧ PosItems instFew ∧ instFew.numberOfItemTypes ≤ 3
    ∧ (Block.computeBlocks instFew bt 100).toOption.map (List.map fun c => (c.w, c.h, c.itemCopies))
      = some [(2, 2, [(2, 1)]), (5, 3, [(1, 1)]), (3, 4, [(0, 1)]), (4, 3, [(0, 1)])] := by
  unfold PosItems; decide +kernel

end BlockEx

end PackingSolver.Guil.Spaces
