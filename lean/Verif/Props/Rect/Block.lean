import Verif.Lemmas.Rect.BlockLoop
import Verif.Lemmas.Rect.ReachLengths
import Verif.Lemmas.Rect.TreeRun

/-!
# Blocks of rectangles and reachable lengths (C62, C63)
-/

namespace PackingSolver.Rect

namespace BlockExamples

/-- Two items of 4 × 3, which may be rotated, and one of 5 × 3, in a bin of 10 × 6. -/
def ops : List InstanceBuilder.Op :=
  [.setObjective .knapsack, .addBinType 10 6, .addItemType 4 3 false, .setItemTypeCopies 0 2,
    .addItemType 5 3 true]

/-- Items of lengths 3 and 6 in a bin of length 10 with a defect between 3 and 4. -/
def opsDefect : List InstanceBuilder.Op :=
  [.setObjective .knapsack, .addBinType 10 1, .addDefect 0 3 0 1 1, .addItemType 3 1 true,
    .addItemType 6 1 true]

end BlockExamples

open Rect.Spec

theorem positive_item {inst : Instance} (hp : Positive inst) {i : Nat}
    (hi : i < inst.numberOfItemTypes) :
    0 < (inst.itemType i).x ∧ 0 < (inst.itemType i).y ∧ 0 ≤ (inst.itemType i).copies := by
  apply hp.items
  unfold Instance.itemType
  rw [List.getD_eq_getElem _ _ hi]
  exact List.getElem_mem hi

theorem positive_sized {inst : Instance} (hp : Positive inst) : Block.Sized inst :=
  fun _ hi _ => ⟨(positive_item hp hi).1, (positive_item hp hi).2.1⟩

/-! ## C62: the blocks -/

/-- The generation of blocks ends, without error, with at most the requested number of blocks. -/
theorem blocks_total {inst : Instance} (hp : Positive inst) (b maximum : Nat) :
    ∃ l, Block.computeBlocks inst b maximum = .ok l ∧ l.length ≤ maximum := by
  obtain ⟨l, h, _, _, h2, _⟩ := Block.computeBlocks_ok (b := b) (M := maximum) (positive_sized hp)
  exact ⟨l, h, h2⟩

/-- Every block is a valid arrangement of its items with the totals it announces, and fits in the
bin. -/
theorem blocks_ok {inst : Instance} (hp : Positive inst) {b maximum : Nat} {l : List Block}
    (h : Block.computeBlocks inst b maximum = .ok l) :
    ∀ c ∈ l, BlockOk inst c ∧ c.x ≤ (inst.binType b).x ∧ c.y ≤ (inst.binType b).y := by
  obtain ⟨l', h', hg, _, _, _⟩ := Block.computeBlocks_ok (b := b) (M := maximum) (positive_sized hp)
  rw [h] at h'
  cases h'
  intro c hc
  have hi := (hg c hc).inv
  exact ⟨hi.ok fun i hi => (positive_item hp hi).2.2, hi.fitX, hi.fitY⟩

/-- No two blocks have the same sides and the same numbers of copies of each item type. -/
theorem blocks_distinct {inst : Instance} (hp : Positive inst) {b maximum : Nat} {l : List Block}
    (h : Block.computeBlocks inst b maximum = .ok l) :
    l.Pairwise fun c c' => ¬ (c.x = c'.x ∧ c.y = c'.y ∧ c.itemCopies = c'.itemCopies) := by
  obtain ⟨l', h', _, hn, _, _⟩ := Block.computeBlocks_ok (b := b) (M := maximum) (positive_sized hp)
  rw [h] at h'
  cases h'
  rw [List.Nodup, List.pairwise_map] at hn
  refine hn.imp fun hne he => hne ?_
  unfold Block.key
  rw [he.1, he.2.1, he.2.2]

/-- Every item that fits in the bin in an allowed orientation has a block of its own, if the
requested number of blocks is at least twice the number of item types. -/
theorem blocks_single_partial {inst : Instance} (hp : Positive inst) {b maximum : Nat}
    {l : List Block} (h : Block.computeBlocks inst b maximum = .ok l)
    (hM : 2 * inst.numberOfItemTypes ≤ maximum) {i : Nat} (hi : i < inst.numberOfItemTypes)
    (hc : 1 ≤ (inst.itemType i).copies) {r : Bool}
    (hr : r = true → (inst.itemType i).oriented = false)
    (hx : (inst.itemType i).width r ≤ (inst.binType b).x)
    (hy : (inst.itemType i).height r ≤ (inst.binType b).y) :
    ∃ c ∈ l, c.x = (inst.itemType i).width r ∧ c.y = (inst.itemType i).height r
      ∧ ∃ p, c.items = [p] ∧ p.itemTypeId = i ∧ p.x = 0 ∧ p.y = 0 := by
  obtain ⟨l', h', hg, _, _, hs⟩ := Block.computeBlocks_ok (b := b) (M := maximum) (positive_sized hp)
  rw [h] at h'
  cases h'
  have hw : 0 < (inst.itemType i).width r := (positive_sized hp).width hi hc r
  have hh : 0 < (inst.itemType i).height r := (positive_sized hp).height hi hc r
  have hmem : Block.simple inst i r 1 1 ∈ Block.simpleBlocks inst (inst.binType b) := by
    refine Block.mem_simpleBlocks.mpr ⟨i, hi, hc, r, hr, 1, le_refl _, ?_, 1, le_refl _, ?_, rfl⟩
    · refine le_min (by exact_mod_cast hc) ?_
      rw [Int.tdiv_eq_ediv_of_nonneg (by omega)]
      exact Int.le_ediv_of_mul_le hw (by push_cast; omega)
    · refine le_min (by push_cast; rw [Int.tdiv_one]; exact hc) ?_
      rw [Int.tdiv_eq_ediv_of_nonneg (by omega)]
      exact Int.le_ediv_of_mul_le hh (by push_cast; omega)
  obtain ⟨c, hcm, hk⟩ := hs hM _ hmem (by show ((1 : Nat) : Int) * ((1 : Nat) : Int) = 1; rfl)
  have hinv := (hg c hcm).inv
  have hck : c.itemCopies = [(i, ((1 : Nat) : Int) * ((1 : Nat) : Int))] := congrArg Prod.snd hk
  have hcx : c.x = ((1 : Nat) : Int) * (inst.itemType i).width r :=
    congrArg (fun k => k.1.1) hk
  have hcy : c.y = ((1 : Nat) : Int) * (inst.itemType i).height r :=
    congrArg (fun k => k.1.2) hk
  refine ⟨c, hcm, by rw [hcx]; push_cast; ring, by rw [hcy]; push_cast; ring, ?_⟩
  have hn : c.items.length = 1 := by
    have h1 := hinv.number
    rw [hinv.total, hck] at h1
    simp at h1
    exact_mod_cast h1.symm
  obtain ⟨p, hpq⟩ := List.length_eq_one_iff.mp hn
  refine ⟨p, hpq, ?_, ?_, ?_⟩
  · have := hinv.cnt i
    rw [hck, hpq] at this
    simp only [Block.cnt_cons, if_true, Block.cnt_nil] at this
    unfold count at this
    by_contra hne
    rw [List.countP_cons_of_neg (by simpa using hne)] at this
    simp at this
  · obtain ⟨q, hq, e⟩ := hinv.startsX
    rw [hpq] at hq; rw [List.mem_singleton.mp hq] at e; exact e
  · obtain ⟨q, hq, e⟩ := hinv.startsY
    rw [hpq] at hq; rw [List.mem_singleton.mp hq] at e; exact e

/-! ## C63: the reachable lengths -/

/-- The tables are exact: the entry for a length is the greatest length up to it that items put
side by side attain. -/
theorem maxReachable_exact {inst : Instance} (hp : Positive inst) (alongX : Bool) {v : Nat}
    (hv : (v : Int) ≤ largestSide inst alongX) :
    Attained inst alongX (maxReachable inst alongX v) ∧ maxReachable inst alongX v ≤ v
    ∧ ∀ u : Int, u ≤ v → Attained inst alongX u → u ≤ maxReachable inst alongX v := by
  have hn : NonnegSides inst := fun t ht => ⟨(hp.items t ht).1.le, (hp.items t ht).2.1.le⟩
  obtain ⟨h1, h2, h3⟩ := lastReachable_spec (tab_reachTable hn alongX (largestSide inst alongX).toNat)
    (attained_zero inst alongX) v (by omega)
  refine ⟨h1, h2, ?_⟩
  intro u hu ha
  have h0 : 0 ≤ u := attainedBy_nonneg hn ha
  have := h3 u.toNat (by omega) (by rw [Int.toNat_of_nonneg h0]; exact ha)
  unfold maxReachable
  omega

/-- The part of the bin the search works in is as good as the bin: every packing of the bin can be
rearranged, with the same items in the same orientations, into one in the lower left part whose
sides are the reachable lengths. -/
theorem clip_harmless {inst : Instance} (hp : Positive inst) {b : Nat}
    (hb : b < inst.numberOfBinTypes) {items : List PlacedItem} (h : BinPacking inst b items)
    (hc : WithinCopies inst items) :
    ∃ items', SameItems items items' ∧ BinPacking inst b items'
      ∧ ∀ p ∈ items', Inside (maxReachable inst true (inst.binType b).x.toNat)
        (maxReachable inst false (inst.binType b).y.toNat) (occupies inst p) := by
  have hbm : inst.binType b ∈ inst.binTypes := by
    unfold Instance.binType
    rw [List.getD_eq_getElem _ _ hb]; exact List.getElem_mem hb
  have hlen : ∀ (d : Bool) (p : PlacedItem), p.itemTypeId < inst.numberOfItemTypes →
      0 < len inst d p := by
    intro d p hi
    have := positive_item hp hi
    unfold len lengthAlong ItemType.width ItemType.height
    cases d <;> cases p.rotate <;> simp [this.1, this.2.1]
  -- to the left
  obtain ⟨m, f1, m1, s1⟩ := pushList true h.exist h.rotation hc
    (fun p hp' => hlen true p (h.exist p hp')) (fun p hp' => (h.inside p hp').1) h.separated
  have hback : ∀ q ∈ m, ∃ p ∈ items, p.itemTypeId = q.itemTypeId ∧ p.rotate = q.rotate
      ∧ pos false q = pos false p ∧ pos true q ≤ pos true p := by
    intro q hq
    obtain ⟨k, hk, rfl⟩ := List.getElem_of_mem hq
    have hl := f1.length_eq
    refine ⟨items[k]'(by omega), List.getElem_mem _, ?_⟩
    exact (List.forall₂_iff_get.mp f1).2 k (by omega) hk
  have hex : ∀ p ∈ m, p.itemTypeId < inst.numberOfItemTypes := by
    intro q hq
    obtain ⟨p, hp', e, _⟩ := hback q hq
    rw [← e]; exact h.exist p hp'
  have hrot : ∀ p ∈ m, p.rotate = true → (inst.itemType p.itemTypeId).oriented = false := by
    intro q hq
    obtain ⟨p, hp', e, e2, _⟩ := hback q hq
    rw [← e, ← e2]; exact h.rotation p hp'
  have hcount : ∀ i, count m i = count items i := by
    intro i
    unfold count
    congr 1
    clear hback hex hrot m1 s1
    clear h hc
    induction f1 with
    | nil => rfl
    | cons hab _ ih => rw [List.countP_cons, List.countP_cons, ih, hab.1]
  -- to the bottom
  obtain ⟨m', f2, m2, s2⟩ := pushList false hex hrot (fun i hi => by rw [hcount]; exact hc i hi)
    (fun p hp' => hlen false p (hex p hp'))
    (fun q hq => by
      obtain ⟨p, hp', _, _, e, _⟩ := hback q hq
      rw [e]; exact (h.inside p hp').2.2.1) s1
  have hback2 : ∀ q ∈ m', ∃ p ∈ m, p.itemTypeId = q.itemTypeId ∧ p.rotate = q.rotate
      ∧ pos true q = pos true p ∧ pos false q ≤ pos false p := by
    intro q hq
    obtain ⟨k, hk, rfl⟩ := List.getElem_of_mem hq
    have hl := f2.length_eq
    refine ⟨m[k]'(by omega), List.getElem_mem _, ?_⟩
    exact (List.forall₂_iff_get.mp f2).2 k (by omega) hk
  have hall : ∀ q ∈ m', ∃ p ∈ items, p.itemTypeId = q.itemTypeId ∧ p.rotate = q.rotate
      ∧ 0 ≤ q.x ∧ 0 ≤ q.y ∧ q.x ≤ p.x ∧ q.y ≤ p.y
      ∧ Attained inst true (q.x + len inst true q) ∧ Attained inst false (q.y + len inst false q) := by
    intro q hq
    obtain ⟨p, hp', a1, a2, a3, a4⟩ := hback2 q hq
    obtain ⟨o, ho, b1, b2, b3, b4⟩ := hback p hp'
    have c1 := m1 p hp'
    have c2 := m2 q hq
    have el : len inst true p = len inst true q := by unfold len; rw [a1, a2]
    have a3' : q.x = p.x := a3
    have a4' : q.y ≤ p.y := a4
    have b3' : p.y = o.y := b3
    have b4' : p.x ≤ o.x := b4
    have c1' : 0 ≤ p.x := c1.1
    refine ⟨o, ho, b1.trans a1, b2.trans a2, by omega, c2.1, by omega, by omega, ?_, c2.2⟩
    rw [a3', ← el]; exact c1.2
  have hbx := hp.bins _ hbm
  have hside : ∀ q ∈ m', Inside (inst.binType b).x (inst.binType b).y (occupies inst q)
      ∧ Inside (maxReachable inst true (inst.binType b).x.toNat)
        (maxReachable inst false (inst.binType b).y.toNat) (occupies inst q) := by
    intro q hq
    obtain ⟨p, hp', e1, e2, x0, y0, xl, yl, ax, ay⟩ := hall q hq
    have hin := h.inside p hp'
    have ew : (occupies inst p).w = len inst true q := by
      show (inst.itemType p.itemTypeId).width p.rotate = (inst.itemType q.itemTypeId).width q.rotate
      rw [e1, e2]
    have eh : (occupies inst p).h = len inst false q := by
      show (inst.itemType p.itemTypeId).height p.rotate = (inst.itemType q.itemTypeId).height q.rotate
      rw [e1, e2]
    have i1 : p.x + len inst true q ≤ (inst.binType b).x := by rw [← ew]; exact hin.2.1
    have i2 : p.y + len inst false q ≤ (inst.binType b).y := by rw [← eh]; exact hin.2.2.2
    have gx := largestSide_ge true hbm
    have gy := largestSide_ge false hbm
    simp only [if_true, Bool.false_eq_true, if_false] at gx gy
    have rx := (maxReachable_exact hp true (v := (inst.binType b).x.toNat) (by omega)).2.2
      (q.x + len inst true q) (by omega) ax
    have ry := (maxReachable_exact hp false (v := (inst.binType b).y.toNat) (by omega)).2.2
      (q.y + len inst false q) (by omega) ay
    exact ⟨⟨x0, (by omega : q.x + len inst true q ≤ _), y0,
      (by omega : q.y + len inst false q ≤ _)⟩, x0, rx, y0, ry⟩
  refine ⟨m', ?_, ⟨?_, ?_, fun q hq => (hside q hq).1, s2⟩, fun q hq => (hside q hq).2⟩
  · unfold SameItems
    rw [List.forall₂_iff_get] at f1 f2 ⊢
    refine ⟨f1.1.trans f2.1, fun k h1 h2 => ?_⟩
    have t1 := f1.2 k h1 (by rw [← f1.1]; exact h1)
    have t2 := f2.2 k (by rw [← f1.1]; exact h1) h2
    exact ⟨t1.1.trans t2.1, t1.2.1.trans t2.2.1⟩
  · intro q hq
    obtain ⟨p, hp', e, _⟩ := hall q hq
    rw [← e]; exact h.exist p hp'
  · intro q hq
    obtain ⟨p, hp', e, e2, _⟩ := hall q hq
    rw [← e, ← e2]; exact h.rotation p hp'

/-- With defects, part of the bin is lost: here an item that fits beyond the defect has no place in
the part of the bin the search works in. -/
theorem clip_defects : ∃ ops inst, InstanceBuilder.runOps ops = .ok inst ∧ Positive inst
    ∧ (∃ p : PlacedItem, BinPacking inst 0 [p] ∧ WithinCopies inst [p]
      ∧ AvoidsDefects inst 0 [p] ∧ p.itemTypeId = 1)
    ∧ ∀ p : PlacedItem, p.itemTypeId = 1 → AvoidsDefects inst 0 [p] →
      BinPacking inst 0 [p] →
      ¬ Inside (maxReachable inst true (inst.binType 0).x.toNat)
        (maxReachable inst false (inst.binType 0).y.toNat) (occupies inst p) := by
  refine ⟨BlockExamples.opsDefect, TreeSearch.instOf BlockExamples.opsDefect,
    eq_ok_okD (by decide +kernel), ⟨by decide +kernel, by decide +kernel⟩,
    ⟨⟨1, 4, 0, false⟩, ⟨?_, ?_, ?_, ?_⟩, ?_, ?_, rfl⟩, ?_⟩
  · decide +kernel
  · decide +kernel
  · unfold Inside; decide +kernel
  · exact List.pairwise_singleton _ _
  · unfold WithinCopies; decide +kernel
  · unfold AvoidsDefects Separated; decide +kernel
  · intro p hi ha hb hin
    have hrot : p.rotate = false := by
      cases hr : p.rotate with
      | false => rfl
      | true =>
        have := hb.rotation p (List.mem_singleton.mpr rfl) hr
        rw [hi] at this
        exact absurd this (by decide +kernel)
    have hd := ha p (List.mem_singleton.mpr rfl) ⟨3, 0, 1, 1⟩ (by decide +kernel)
    have hx := hin.2.1
    have hy := hin.2.2
    have e : occupies (TreeSearch.instOf BlockExamples.opsDefect) p = ⟨p.x, p.y, 6, 1⟩ := by
      unfold occupies
      rw [hi, hrot]
      congr 1
    have e1 : maxReachable (TreeSearch.instOf BlockExamples.opsDefect) true
        ((TreeSearch.instOf BlockExamples.opsDefect).binType 0).x.toNat = 9 := by decide +kernel
    have e2 : maxReachable (TreeSearch.instOf BlockExamples.opsDefect) false
        ((TreeSearch.instOf BlockExamples.opsDefect).binType 0).y.toNat = 1 := by decide +kernel
    have h0 := hin.1
    rw [e] at hd hx hy h0
    rw [e1] at hx
    rw [e2] at hy
    unfold Separated at hd
    dsimp only at hd hx hy h0
    omega

/-! ## Concrete cases -/

section
open BlockExamples

/-- Seven blocks in a bin of 10 × 6. -/
example : Positive (TreeSearch.instOf ops) := ⟨by decide +kernel, by decide +kernel⟩

example : ∃ l, Block.computeBlocks (TreeSearch.instOf ops) 0 100 = .ok l
    ∧ l.map (fun c => (c.x, c.y, c.items.length))
      = [(5, 3, 1), (3, 4, 1), (4, 3, 1), (9, 3, 2), (6, 4, 2), (8, 3, 2), (4, 6, 2)] :=
  ⟨_, eq_ok_okD (d := []) (by decide +kernel), by decide +kernel⟩

/-- The first type may be rotated; the second may not. -/
example : 2 * (TreeSearch.instOf ops).numberOfItemTypes ≤ 100
    ∧ ((TreeSearch.instOf ops).itemType 0).oriented = false
    ∧ ((TreeSearch.instOf ops).itemType 0).width true ≤ ((TreeSearch.instOf ops).binType 0).x
    ∧ ((TreeSearch.instOf ops).itemType 0).height true ≤ ((TreeSearch.instOf ops).binType 0).y := by
  decide +kernel

/-- The last unit of the width is never used. -/
example : Positive (TreeSearch.instOf ops) ∧ (10 : Int) ≤ largestSide (TreeSearch.instOf ops) true
    ∧ (List.range 11).map (maxReachable (TreeSearch.instOf ops) true)
      = [0, 0, 0, 3, 4, 5, 6, 7, 8, 9, 9] :=
  ⟨⟨by decide +kernel, by decide +kernel⟩, by decide +kernel, by decide +kernel⟩

/-- A packing that touches the right side, to be moved to the left. -/
example : BinPacking (TreeSearch.instOf ops) 0 [⟨0, 6, 2, false⟩, ⟨1, 1, 0, false⟩]
    ∧ WithinCopies (TreeSearch.instOf ops) [⟨0, 6, 2, false⟩, ⟨1, 1, 0, false⟩] :=
  ⟨⟨by decide +kernel, by decide +kernel, by unfold Inside; decide +kernel,
    by unfold Separated; decide +kernel⟩, by unfold WithinCopies; decide +kernel⟩

end

end PackingSolver.Rect
