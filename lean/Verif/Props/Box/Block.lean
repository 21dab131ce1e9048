import Verif.Lemmas.Box.BlockLoop
import Verif.Lemmas.Box.ReachLengths
import Verif.Lemmas.Box.Run

/-!
# Blocks of boxes and reachable lengths (C101, C102)
-/

namespace PackingSolver.Box

open PackingSolver.Box.Spec
open PackingSolver.OneDim.Examples (okD)

namespace BlockExamples

/-- Two items of 4 × 3 × 2, which may lie in two ways, and one of 5 × 3 × 2, in a bin of
10 × 6 × 3. -/
def ops : List InstanceBuilder.Op :=
  [.setObjective .knapsack, .addBinType 10 6 3, .addItemType 4 3 2, .addItemTypeRotation 0 .xyz,
    .addItemTypeRotation 0 .yxz, .setItemTypeCopies 0 2, .addItemType 5 3 2]

def inst : Instance := okD noInst (InstanceBuilder.runOps .default ops)

theorem built : InstanceBuilder.runOps .default ops = .ok inst := eq_ok_okD (by decide +kernel)

theorem positive : Positive inst := ⟨by decide +kernel, by decide +kernel⟩

end BlockExamples

theorem positive_item {inst : Instance} (hp : Positive inst) {i : Nat}
    (hi : i < inst.numberOfItemTypes) :
    (0 < (inst.itemType i).box.x ∧ 0 < (inst.itemType i).box.y ∧ 0 < (inst.itemType i).box.z)
      ∧ 0 ≤ (inst.itemType i).copies := by
  have := hp.items (inst.itemType i) (by
    unfold Instance.itemType
    rw [List.getD_eq_getElem _ _ hi]
    exact List.getElem_mem hi)
  exact ⟨this.1, this.2.1⟩

theorem positive_length {inst : Instance} (hp : Positive inst) {i : Nat}
    (hi : i < inst.numberOfItemTypes) (r : Rotation) (d : Axis) : 0 < lengthAlong inst d i r := by
  obtain ⟨⟨hx, hy, hz⟩, _⟩ := positive_item hp hi
  cases d <;> cases r <;> first | exact hx | exact hy | exact hz

theorem positive_sized {inst : Instance} (hp : Positive inst) : Block.Sized inst := by
  intro i hi _ r _ d
  rw [← lengthAlong_rotate]
  exact positive_length hp hi r d

/-! ## C101: the blocks -/

/-- The generation of blocks ends, without error, with at most the requested number of blocks. -/
theorem blocks_total {inst : Instance} (hp : Positive inst) (b maximum : Nat) :
    ∃ l, Block.computeBlocks inst b maximum = .ok l ∧ l.length ≤ maximum := by
  obtain ⟨l, h, _, _, h2, _⟩ := Block.computeBlocks_ok (b := b) (M := maximum) (positive_sized hp)
  exact ⟨l, h, h2⟩

/-- Every block is a valid arrangement of its items with the totals it announces, and fits in the
bin. -/
theorem blocks_ok {inst : Instance} (hp : Positive inst) {b maximum : Nat} {l : List Block}
    (h : Block.computeBlocks inst b maximum = .ok l) :
    ∀ c ∈ l, BlockOk inst c ∧ c.box.x ≤ (inst.binType b).box.x ∧ c.box.y ≤ (inst.binType b).box.y
      ∧ c.box.z ≤ (inst.binType b).box.z := by
  obtain ⟨l', h', hg, _, _, _⟩ := Block.computeBlocks_ok (b := b) (M := maximum) (positive_sized hp)
  rw [h] at h'
  cases h'
  intro c hc
  have hi := (hg c hc).inv
  exact ⟨hi.ok fun i hi => (positive_item hp hi).2, hi.fit .x, hi.fit .y, hi.fit .z⟩

/-- No two blocks have the same sides and the same numbers of copies of each item type. -/
theorem blocks_distinct {inst : Instance} (hp : Positive inst) {b maximum : Nat} {l : List Block}
    (h : Block.computeBlocks inst b maximum = .ok l) :
    l.Pairwise fun c c' => ¬ (c.box = c'.box ∧ c.itemCopies = c'.itemCopies) := by
  obtain ⟨l', h', _, hn, _, _⟩ := Block.computeBlocks_ok (b := b) (M := maximum) (positive_sized hp)
  rw [h] at h'
  cases h'
  rw [List.Nodup, List.pairwise_map] at hn
  refine hn.imp fun hne he => hne ?_
  unfold Block.key
  rw [he.1, he.2]

/-- Every item that fits in the bin in an allowed rotation has a block of its own, if the requested
number of blocks is at least six times the number of item types. -/
theorem blocks_single_partial {inst : Instance} (hp : Positive inst) {b maximum : Nat}
    {l : List Block} (h : Block.computeBlocks inst b maximum = .ok l)
    (hM : 6 * inst.numberOfItemTypes ≤ maximum) {i : Nat} (hi : i < inst.numberOfItemTypes)
    (hc : 1 ≤ (inst.itemType i).copies) {r : Rotation}
    (hr : r ∈ (inst.itemType i).rotations)
    (hf : ∀ d, lengthAlong inst d i r ≤ (inst.binType b).box.along d) :
    ∃ c ∈ l, c.box = rotated (inst.itemType i).box r
      ∧ ∃ p, c.items = [p] ∧ p.itemTypeId = i ∧ p.x = 0 ∧ p.y = 0 ∧ p.z = 0 := by
  obtain ⟨l', h', hg, _, _, hs⟩ := Block.computeBlocks_ok (b := b) (M := maximum) (positive_sized hp)
  rw [h] at h'
  cases h'
  have hd := positive_sized hp hi hc hr
  have hfit : ∀ d, ((1 : Nat) : Int)
      ≤ ((inst.binType b).box.along d).tdiv (((inst.itemType i).box.rotate r).along d) := by
    intro d
    have h1 := hf d
    have h2 := hd d
    rw [lengthAlong_rotate] at h1
    rw [Int.tdiv_eq_ediv_of_nonneg (by omega)]
    exact Int.le_ediv_of_mul_le h2 (by push_cast; omega)
  have hmem : Block.simple inst i r 1 1 1 ∈ Block.simpleBlocks inst (inst.binType b) := by
    refine Block.mem_simpleBlocks.mpr ⟨i, hi, hc, r, hr, 1, le_refl _, ?_, 1, le_refl _, ?_, 1,
      le_refl _, ?_, rfl⟩
    · exact le_min (by exact_mod_cast hc) (hfit .x)
    · exact le_min (by push_cast; rw [Int.tdiv_one]; exact hc) (hfit .y)
    · exact le_min (by push_cast; rw [Int.tdiv_one]; exact hc) (hfit .z)
  obtain ⟨c, hcm, hk⟩ := hs hM _ hmem (by
    show ((1 : Nat) : Int) * ((1 : Nat) : Int) * ((1 : Nat) : Int) = 1; rfl)
  have hinv := (hg c hcm).inv
  have hck : c.itemCopies = [(i, ((1 : Nat) : Int) * ((1 : Nat) : Int) * ((1 : Nat) : Int))] :=
    congrArg Prod.snd hk
  have hcb : c.box = { x := ((1 : Nat) : Int) * ((inst.itemType i).box.rotate r).x
                       y := ((1 : Nat) : Int) * ((inst.itemType i).box.rotate r).y
                       z := ((1 : Nat) : Int) * ((inst.itemType i).box.rotate r).z } :=
    congrArg Prod.fst hk
  refine ⟨c, hcm, ?_, ?_⟩
  · rw [hcb]
    push_cast
    rw [one_mul, one_mul, one_mul]
    cases r <;> rfl
  have hn : c.items.length = 1 := by
    have h1 := hinv.number
    rw [hinv.total, hck] at h1
    simp at h1
    exact_mod_cast h1.symm
  obtain ⟨p, hpq⟩ := List.length_eq_one_iff.mp hn
  have hst : ∀ d, pos d p = 0 := by
    intro d
    obtain ⟨q, hq, e⟩ := hinv.starts d
    rw [hpq] at hq; rw [List.mem_singleton.mp hq] at e; exact e
  refine ⟨p, hpq, ?_, hst .x, hst .y, hst .z⟩
  have := hinv.cnt i
  rw [hck, hpq] at this
  simp only [Rect.Block.cnt_cons, if_true, Rect.Block.cnt_nil] at this
  unfold count at this
  by_contra hne
  rw [List.countP_cons_of_neg (by simpa using hne)] at this
  simp at this

/-! ## C102: the reachable lengths -/

/-- The tables are exact: the entry for a length is the greatest length up to it that items put
side by side attain. -/
theorem maxReachable_exact {inst : Instance} (hp : Positive inst) (d : Axis) {v : Nat}
    (hv : (v : Int) ≤ largestSide inst d) :
    Attained inst d (maxReachable inst d v) ∧ maxReachable inst d v ≤ v
    ∧ ∀ u : Int, u ≤ v → Attained inst d u → u ≤ maxReachable inst d v := by
  have hn : NonnegSides inst := fun i hi r _ d => (positive_length hp hi r d).le
  obtain ⟨h1, h2, h3⟩ := Rect.lastReachable_spec (tab_reachTable hn d (largestSide inst d).toNat)
    (attained_zero inst d) v (by omega)
  refine ⟨h1, h2, ?_⟩
  intro u hu ha
  have h0 : 0 ≤ u := attainedBy_nonneg hn (le_refl _) ha
  have := h3 u.toNat (by omega) (by rw [Int.toNat_of_nonneg h0]; exact ha)
  unfold maxReachable
  omega

/-- The part of a bin whose sides are the reachable lengths. -/
def clipped (inst : Instance) (b : Nat) : Dims :=
  { x := maxReachable inst .x (inst.binType b).box.x.toNat
    y := maxReachable inst .y (inst.binType b).box.y.toNat
    z := maxReachable inst .z (inst.binType b).box.z.toNat }

theorem clipped_along (inst : Instance) (b : Nat) (d : Axis) :
    (clipped inst b).along d = maxReachable inst d ((inst.binType b).box.along d).toNat := by
  cases d <;> rfl

/-- One push of a packing along an axis: what is behind each item. -/
theorem forall₂_back {R : PlacedItem → PlacedItem → Prop} {l l' : List PlacedItem}
    (h : List.Forall₂ R l l') : ∀ q ∈ l', ∃ p ∈ l, R p q := by
  induction h with
  | nil => simp
  | cons hab _ ih =>
    intro q hq
    rcases List.mem_cons.mp hq with rfl | hq
    · exact ⟨_, List.mem_cons_self, hab⟩
    · obtain ⟨p, hp, h⟩ := ih q hq
      exact ⟨p, List.mem_cons_of_mem _ hp, h⟩

/-- The part of the bin the search works in is as good as the bin: every packing of the bin can be
rearranged, with the same items in the same rotations, into one in the part at the corner whose
sides are the reachable lengths. -/
theorem clip_harmless {inst : Instance} (hp : Positive inst) {b : Nat}
    (hb : b < inst.numberOfBinTypes) {items : List PlacedItem} (h : BinPacking inst b items)
    (hc : WithinCopies inst items) :
    ∃ items', SameItems items items' ∧ BinPacking inst b items'
      ∧ ∀ p ∈ items', Inside
        { x := maxReachable inst .x (inst.binType b).box.x.toNat
          y := maxReachable inst .y (inst.binType b).box.y.toNat
          z := maxReachable inst .z (inst.binType b).box.z.toNat } (occupies inst p) := by
  have hbm : inst.binType b ∈ inst.binTypes := by
    unfold Instance.binType
    rw [List.getD_eq_getElem _ _ hb]; exact List.getElem_mem hb
  have h0 : Placeable inst items :=
    ⟨h.exist, h.rotation, hc, fun p hp' d => positive_length hp (h.exist p hp') p.rotation d,
      fun p hp' d => (inside_axis.mp (h.inside p hp') d).1, h.separated⟩
  obtain ⟨m1, f1, a1, h1⟩ := pushList .x h0
  obtain ⟨m2, f2, a2, h2⟩ := pushList .y h1
  obtain ⟨m3, f3, a3, h3⟩ := pushList .z h2
  have hlen : ∀ {p q : PlacedItem}, p.itemTypeId = q.itemTypeId → p.rotation = q.rotation →
      ∀ d, len inst d p = len inst d q := by
    intro p q e1 e2 d; unfold len; rw [e1, e2]
  -- each item is behind an item of the packing, and ends at attained lengths
  have hall : ∀ q ∈ m3, ∃ p ∈ items, p.itemTypeId = q.itemTypeId ∧ p.rotation = q.rotation
      ∧ ∀ d, pos d q ≤ pos d p ∧ Attained inst d (pos d q + len inst d q) := by
    intro q hq
    obtain ⟨q2, hq2, e1, e2, e3, e4⟩ := forall₂_back f3 q hq
    obtain ⟨q1, hq1, c1, c2, c3, c4⟩ := forall₂_back f2 q2 hq2
    obtain ⟨p, hp', b1, b2, b3, b4⟩ := forall₂_back f1 q1 hq1
    refine ⟨p, hp', b1.trans (c1.trans e1), b2.trans (c2.trans e2), ?_⟩
    intro d
    cases d with
    | x =>
      have t1 := e3 .x (by decide)
      have t2 := c3 .x (by decide)
      refine ⟨by omega, ?_⟩
      rw [t1, t2, ← hlen e1 e2, ← hlen c1 c2]
      exact a1 q1 hq1
    | y =>
      have t1 := e3 .y (by decide)
      have t2 := b3 .y (by decide)
      refine ⟨by omega, ?_⟩
      rw [t1, ← hlen e1 e2]
      exact a2 q2 hq2
    | z =>
      have t1 := c3 .z (by decide)
      have t2 := b3 .z (by decide)
      exact ⟨by omega, a3 q hq⟩
  have hside : ∀ q ∈ m3, ∀ d, pos d q + len inst d q ≤ (inst.binType b).box.along d
      ∧ pos d q + len inst d q ≤ (clipped inst b).along d := by
    intro q hq d
    obtain ⟨p, hp', e1, e2, hd⟩ := hall q hq
    have hin := (inside_axis.mp (h.inside p hp') d).2
    rw [hlen e1 e2] at hin
    have hle := (hd d).1
    have g := largestSide_ge d hbm
    have hbin : 0 < (inst.binType b).box.along d := by
      have := hp.bins _ hbm
      cases d
      · exact this.1
      · exact this.2.1
      · exact this.2.2
    refine ⟨by omega, ?_⟩
    rw [clipped_along]
    exact (maxReachable_exact hp d (v := ((inst.binType b).box.along d).toNat) (by omega)).2.2
      _ (by omega) (hd d).2
  refine ⟨m3, ?_, ⟨h3.exist, h3.rotation, fun q hq => inside_axis.mpr fun d =>
    ⟨h3.pos q hq d, (hside q hq d).1⟩, h3.separated⟩, fun q hq => inside_axis.mpr fun d =>
    ⟨h3.pos q hq d, (hside q hq d).2⟩⟩
  unfold SameItems
  rw [List.forall₂_iff_get] at f1 f2 f3 ⊢
  refine ⟨f1.1.trans (f2.1.trans f3.1), fun k g1 g2 => ?_⟩
  have t1 := f1.2 k g1 (by rw [← f1.1]; exact g1)
  have t2 := f2.2 k (by rw [← f1.1]; exact g1) (by rw [← f2.1, ← f1.1]; exact g1)
  have t3 := f3.2 k (by rw [← f2.1, ← f1.1]; exact g1) g2
  exact ⟨t1.1.trans (t2.1.trans t3.1), t1.2.1.trans (t2.2.1.trans t3.2.1)⟩

/-! ## Concrete cases -/

section
open BlockExamples

/-- The blocks in a bin of 10 × 6 × 3. -/
example : Positive inst ∧ ∃ l, Block.computeBlocks inst 0 100 = .ok l
    ∧ l.map (fun c => (c.box.x, c.box.y, c.box.z, c.items.length))
      = [(5, 3, 2, 1), (3, 4, 2, 1), (4, 3, 2, 1), (9, 3, 2, 2), (6, 4, 2, 2), (8, 3, 2, 2),
        (4, 6, 2, 2)] :=
  ⟨positive, _, eq_ok_okD (d := []) (by decide +kernel), by decide +kernel⟩

/-- An item that fits after a rotation. -/
example : 6 * inst.numberOfItemTypes ≤ 100 ∧ Rotation.yxz ∈ (inst.itemType 0).rotations
    ∧ ∀ d, lengthAlong inst d 0 .yxz ≤ (inst.binType 0).box.along d := by
  refine ⟨by decide +kernel, by decide +kernel, fun d => ?_⟩
  cases d <;> decide +kernel

/-- The last unit of the length and of the height are never used. -/
example : Positive inst ∧ (10 : Int) ≤ largestSide inst .x
    ∧ (List.range 11).map (maxReachable inst .x) = [0, 0, 0, 3, 4, 5, 6, 7, 8, 9, 9]
    ∧ (List.range 4).map (maxReachable inst .z) = [0, 0, 2, 2] :=
  ⟨positive, by decide +kernel, by decide +kernel, by decide +kernel⟩

/-- A packing that touches the far sides, to be moved to the corner. -/
example : BinPacking inst 0 [⟨0, 6, 2, 1, .xyz⟩, ⟨1, 1, 0, 0, .xyz⟩]
    ∧ WithinCopies inst [⟨0, 6, 2, 1, .xyz⟩, ⟨1, 1, 0, 0, .xyz⟩] :=
  ⟨⟨by decide +kernel, by decide +kernel, by unfold Inside; decide +kernel,
    by unfold Separated; decide +kernel⟩, by unfold WithinCopies; decide +kernel⟩

end

end PackingSolver.Box
