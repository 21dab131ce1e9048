import Verif.Lemmas.Box.Block
import Verif.Lemmas.Rect.BlockLoop

/-!
# Lemmas about the generation of blocks of boxes
-/

namespace PackingSolver.Box

open PackingSolver.Box.Spec

namespace Block

open Rect.Block (mul_le_of_le_tdiv nonneg_of_one_le_tdiv)

/-- The sides of every item that has copies are positive, in every rotation allowed. -/
def Sized (inst : Instance) : Prop :=
  ∀ {i}, i < inst.numberOfItemTypes → 1 ≤ (inst.itemType i).copies →
    ∀ {r}, r ∈ (inst.itemType i).rotations → ∀ d, 0 < ((inst.itemType i).box.rotate r).along d

theorem mem_simpleBlocks {inst : Instance} {bt : BinType} {b : Block} :
    b ∈ simpleBlocks inst bt ↔ ∃ i, i < inst.numberOfItemTypes ∧ 1 ≤ (inst.itemType i).copies
      ∧ ∃ r ∈ (inst.itemType i).rotations, ∃ cx : Nat, 1 ≤ cx
        ∧ (cx : Int) ≤ min (inst.itemType i).copies
            (bt.box.x.tdiv ((inst.itemType i).box.rotate r).x)
      ∧ ∃ cy : Nat, 1 ≤ cy
        ∧ (cy : Int) ≤ min ((inst.itemType i).copies.tdiv cx)
            (bt.box.y.tdiv ((inst.itemType i).box.rotate r).y)
      ∧ ∃ cz : Nat, 1 ≤ cz
        ∧ (cz : Int) ≤ min ((inst.itemType i).copies.tdiv (cx * cy))
            (bt.box.z.tdiv ((inst.itemType i).box.rotate r).z)
      ∧ b = simple inst i r cx cy cz := by
  simp only [simpleBlocks, List.mem_flatMap, List.mem_range]
  constructor
  · rintro ⟨i, hi, h⟩
    by_cases hc : (inst.itemType i).copies < 1
    · rw [if_pos hc] at h; simp at h
    · rw [if_neg hc] at h
      simp only [List.mem_flatMap, List.mem_map, List.mem_range'_1] at h
      obtain ⟨r, hr, cx, hcx, cy, hcy, cz, hcz, e⟩ := h
      exact ⟨i, hi, by omega, r, hr, cx, hcx.1, by omega, cy, hcy.1, by omega, cz, hcz.1, by omega,
        e.symm⟩
  · rintro ⟨i, hi, hc, r, hr, cx, h1, h2, cy, h3, h4, cz, h5, h6, e⟩
    refine ⟨i, hi, ?_⟩
    rw [if_neg (by omega)]
    simp only [List.mem_flatMap, List.mem_map, List.mem_range'_1]
    exact ⟨r, hr, cx, ⟨h1, by omega⟩, cy, ⟨h3, by omega⟩, cz, ⟨h5, by omega⟩, e.symm⟩

theorem inv_of_mem_simpleBlocks {inst : Instance} {bt : BinType} (hs : Sized inst) {b : Block}
    (h : b ∈ simpleBlocks inst bt) : Inv inst bt b := by
  obtain ⟨i, hi, hc, r, hr, cx, h1, h2, cy, h3, h4, cz, h5, h6, rfl⟩ := mem_simpleBlocks.mp h
  have hd := hs hi hc hr
  have hx : 0 < ((inst.itemType i).box.rotate r).x := hd .x
  have hy : 0 < ((inst.itemType i).box.rotate r).y := hd .y
  have hz : 0 < ((inst.itemType i).box.rotate r).z := hd .z
  have e1 : (cx : Int) ≤ bt.box.x.tdiv ((inst.itemType i).box.rotate r).x := le_trans h2 (min_le_right _ _)
  have e2 : (cy : Int) ≤ bt.box.y.tdiv ((inst.itemType i).box.rotate r).y := le_trans h4 (min_le_right _ _)
  have e3 : (cz : Int) ≤ bt.box.z.tdiv ((inst.itemType i).box.rotate r).z := le_trans h6 (min_le_right _ _)
  refine inv_simple hi hr hd h1 h3 h5 ?_
    (mul_le_of_le_tdiv (nonneg_of_one_le_tdiv hx (by omega)) hx e1)
    (mul_le_of_le_tdiv (nonneg_of_one_le_tdiv hy (by omega)) hy e2)
    (mul_le_of_le_tdiv (nonneg_of_one_le_tdiv hz (by omega)) hz e3)
  have hxy : (0 : Int) < (cx : Int) * cy := by
    have : 0 < cx * cy := Nat.mul_pos h1 h3
    exact_mod_cast this
  have := mul_le_of_le_tdiv (by omega) hxy (le_trans h6 (min_le_left _ _))
  push_cast
  rw [mul_comm]; exact this

/-- The six rotations. -/
def allRotations : List Rotation := [.xyz, .yxz, .zyx, .yzx, .xzy, .zxy]

theorem mem_allRotations (r : Rotation) : r ∈ allRotations := by
  cases r <;> simp [allRotations]

/-- The keys of the blocks of a single item. -/
def singleKeys (inst : Instance) : List Key :=
  (List.range inst.numberOfItemTypes).flatMap fun i =>
    allRotations.map fun r => (simple inst i r 1 1 1).key

theorem length_singleKeys (inst : Instance) :
    (singleKeys inst).length = 6 * inst.numberOfItemTypes := by
  unfold singleKeys
  rw [List.length_flatMap]
  simp [allRotations]; omega

/-- What is known of each block. -/
structure Good (inst : Instance) (bt : BinType) (b : Block) : Prop where
  inv : Inv inst bt b
  single : b.numberOfItems = 1 → b.key ∈ singleKeys inst

theorem Inv.number_pos {inst : Instance} {bt : BinType} {b : Block} (h : Inv inst bt b) :
    1 ≤ b.numberOfItems := by
  obtain ⟨p, hp, _⟩ := h.starts .x
  have := List.length_pos_of_mem hp
  rw [h.number]; omega

theorem good_of_mem_simpleBlocks {inst : Instance} {bt : BinType} (hs : Sized inst) {b : Block}
    (h : b ∈ simpleBlocks inst bt) : Good inst bt b := by
  refine ⟨inv_of_mem_simpleBlocks hs h, fun h1 => ?_⟩
  obtain ⟨i, hi, hc, r, hr, cx, h1x, h2, cy, h3, h4, cz, h5, h6, rfl⟩ := mem_simpleBlocks.mp h
  have e : cx * cy * cz = 1 := by
    have : (cx : Int) * cy * cz = 1 := h1
    exact_mod_cast this
  have exy : cx * cy = 1 := Nat.eq_one_of_mul_eq_one_right e
  have ez : cz = 1 := Nat.eq_one_of_mul_eq_one_left e
  have ex : cx = 1 := Nat.eq_one_of_mul_eq_one_right exy
  have ey : cy = 1 := Nat.eq_one_of_mul_eq_one_left exy
  subst ex; subst ey; subst ez
  exact List.mem_flatMap.mpr ⟨i, List.mem_range.mpr hi,
    List.mem_map.mpr ⟨r, mem_allRotations r, rfl⟩⟩

/-! ## The queue -/

theorem insertSorted_perm (b : Block) (l : List Block) : (insertSorted b l).Perm (b :: l) := by
  induction l with
  | nil => exact List.Perm.refl _
  | cons c l ih =>
    unfold insertSorted
    by_cases h : less b c = true
    · rw [if_pos h]
    · rw [if_neg h]
      exact (List.Perm.cons c ih).trans (List.Perm.swap b c l)

theorem insertSorted_many {b : Block} (hb : b.numberOfItems ≠ 1) :
    ∀ (A B : List Block), (∀ c ∈ B, c.numberOfItems = 1) →
    ∃ A', insertSorted b (A ++ B) = A' ++ B ∧ A'.Perm (b :: A) := by
  intro A
  induction A with
  | nil =>
    intro B hB
    refine ⟨[b], ?_, List.Perm.refl _⟩
    cases B with
    | nil => rfl
    | cons c B =>
      show (if less b c = true then b :: c :: B else _) = _
      rw [if_pos]; · rfl
      unfold less
      rw [if_neg (fun h => hb h.1), if_pos ⟨hb, hB c (by simp)⟩]
  | cons a A ih =>
    intro B hB
    rw [List.cons_append]
    unfold insertSorted
    by_cases h : less b a = true
    · rw [if_pos h]
      exact ⟨b :: a :: A, rfl, List.Perm.refl _⟩
    · rw [if_neg h]
      obtain ⟨A', e, hp⟩ := ih B hB
      exact ⟨a :: A', by rw [e]; rfl, (List.Perm.cons a hp).trans (List.Perm.swap b a A)⟩

theorem insertSorted_single {b : Block} (hb : b.numberOfItems = 1) :
    ∀ (A B : List Block), (∀ c ∈ A, c.numberOfItems ≠ 1) →
    insertSorted b (A ++ B) = A ++ insertSorted b B := by
  intro A
  induction A with
  | nil => intro B _; rfl
  | cons a A ih =>
    intro B hA
    rw [List.cons_append]
    have h : ¬ less b a = true := by
      unfold less
      rw [if_pos ⟨hb, hA a (by simp)⟩]; simp
    conv_lhs => unfold insertSorted
    rw [if_neg h, ih B (fun c hc => hA c (List.mem_cons_of_mem _ hc))]; rfl

/-- What is known of the queue and of the blocks already returned: keys differ and have been seen;
the blocks of a single item come last in the queue, and as long as there are some only such blocks
have been returned; the keys in `K` are there. -/
structure St (inst : Instance) (bt : BinType) (K : List Key) (q : Queue) (R : List Block) : Prop where
  good : ∀ b ∈ q.blocks ++ R, Good inst bt b
  nodup : ((q.blocks ++ R).map key).Nodup
  seen : ∀ b ∈ q.blocks ++ R, b.key ∈ q.seen
  split : ∃ A B, q.blocks = A ++ B ∧ (∀ b ∈ A, b.numberOfItems ≠ 1)
    ∧ (∀ b ∈ B, b.numberOfItems = 1) ∧ (B ≠ [] → ∀ b ∈ R, b.numberOfItems = 1)
    ∧ ∀ k ∈ K, k ∈ (B ++ R).map key

theorem length_singles_le {inst : Instance} {bt : BinType} {B : List Block}
    (hg : ∀ b ∈ B, Good inst bt b) (h1 : ∀ b ∈ B, b.numberOfItems = 1) (hn : (B.map key).Nodup) :
    B.length ≤ 6 * inst.numberOfItemTypes := by
  rw [← length_singleKeys, ← List.length_map (f := key)]
  apply List.Subperm.length_le
  apply List.subperm_of_subset hn
  intro k hk
  obtain ⟨b, hb, rfl⟩ := List.mem_map.mp hk
  exact (hg b hb).single (h1 b hb)

/-- Insertion of a new block. -/
theorem St.enqueue {inst : Instance} {bt : BinType} {K K' : List Key} {q : Queue} {R : List Block}
    {M : Nat} (h : St inst bt K q R) {c : Block} (hg : Good inst bt c) (hc : c.key ∉ q.seen)
    (h1 : c.numberOfItems = 1 → R = [])
    (hK' : ∀ k ∈ K', k ∈ K ∨ (c.numberOfItems = 1 ∧ k = c.key))
    (hM : K' = [] ∨ 6 * inst.numberOfItemTypes ≤ M) :
    St inst bt K' (({ q with seen := c.key :: q.seen } : Queue).enqueue M c) R := by
  have hperm := insertSorted_perm c q.blocks
  -- the queue before the possible removal
  have hgood : ∀ b ∈ insertSorted c q.blocks ++ R, Good inst bt b := by
    intro b hb
    rcases List.mem_append.mp hb with hb | hb
    · rcases List.mem_cons.mp (hperm.mem_iff.mp hb) with rfl | hb
      · exact hg
      · exact h.good b (List.mem_append_left _ hb)
    · exact h.good b (List.mem_append_right _ hb)
  have hnodup : ((insertSorted c q.blocks ++ R).map key).Nodup := by
    have hp : ((insertSorted c q.blocks ++ R).map key).Perm ((c :: (q.blocks ++ R)).map key) :=
      (hperm.append_right R).map key
    rw [hp.nodup_iff, List.map_cons, List.nodup_cons]
    refine ⟨fun hm => ?_, h.nodup⟩
    obtain ⟨b, hb, e⟩ := List.mem_map.mp hm
    exact hc (e ▸ h.seen b hb)
  have hseen : ∀ b ∈ insertSorted c q.blocks ++ R, b.key ∈ c.key :: q.seen := by
    intro b hb
    rcases List.mem_append.mp hb with hb | hb
    · rcases List.mem_cons.mp (hperm.mem_iff.mp hb) with rfl | hb
      · exact List.mem_cons_self
      · exact List.mem_cons_of_mem _ (h.seen b (List.mem_append_left _ hb))
    · exact List.mem_cons_of_mem _ (h.seen b (List.mem_append_right _ hb))
  have hsplit : ∃ A B, insertSorted c q.blocks = A ++ B ∧ (∀ b ∈ A, b.numberOfItems ≠ 1)
      ∧ (∀ b ∈ B, b.numberOfItems = 1) ∧ (B ≠ [] → ∀ b ∈ R, b.numberOfItems = 1)
      ∧ ∀ k ∈ K', k ∈ (B ++ R).map key := by
    obtain ⟨A, B, e, hA, hB, hBR, hK⟩ := h.split
    by_cases hs : c.numberOfItems = 1
    · refine ⟨A, insertSorted c B, by rw [e]; exact insertSorted_single hs A B hA, hA, ?_, ?_, ?_⟩
      · intro b hb
        rcases List.mem_cons.mp ((insertSorted_perm c B).mem_iff.mp hb) with rfl | hb
        · exact hs
        · exact hB b hb
      · intro _; rw [h1 hs]; simp
      · intro k hk
        have hp : ((insertSorted c B ++ R).map key).Perm ((c :: (B ++ R)).map key) :=
          ((insertSorted_perm c B).append_right R).map key
        rw [hp.mem_iff, List.map_cons, List.mem_cons]
        rcases hK' k hk with hk | ⟨_, hk⟩
        · exact .inr (hK k hk)
        · exact .inl hk
    · obtain ⟨A', e', hp⟩ := insertSorted_many hs A B hB
      refine ⟨A', B, by rw [e]; exact e', ?_, hB, hBR, ?_⟩
      · intro b hb
        rcases List.mem_cons.mp (hp.mem_iff.mp hb) with rfl | hb
        · exact hs
        · exact hA b hb
      · intro k hk
        rcases hK' k hk with hk | ⟨hk, _⟩
        · exact hK k hk
        · exact absurd hk hs
  unfold Queue.enqueue
  dsimp only
  by_cases hlen : (insertSorted c q.blocks).length > M
  · rw [if_pos hlen]
    generalize hl : insertSorted c q.blocks = l at *
    cases l with
    | nil => simp at hlen
    | cons a l =>
      rw [List.cons_append, List.map_cons, List.nodup_cons] at hnodup
      refine ⟨?_, hnodup.2, ?_, ?_⟩
      · intro b hb
        exact hgood b (List.mem_cons_of_mem _ hb)
      · intro b hb
        refine List.mem_filter.mpr ⟨hseen b (List.mem_cons_of_mem _ hb), ?_⟩
        rw [decide_eq_true_iff]
        intro e
        exact hnodup.1 (List.mem_map.mpr ⟨b, hb, e⟩)
      · obtain ⟨A, B, e, hA, hB, hBR, hK⟩ := hsplit
        cases A with
        | nil =>
          rw [List.nil_append] at e
          subst e
          refine ⟨[], l, rfl, by simp, fun b hb => hB b (List.mem_cons_of_mem _ hb),
            fun _ => hBR (by simp), ?_⟩
          rcases hM with hM | hM
          · rw [hM]; simp
          · exfalso
            have := length_singles_le (fun b hb => hgood b (List.mem_append_left _ hb)) hB (by
              have hnd : ((a :: l ++ R).map key).Nodup := by
                rw [List.cons_append, List.map_cons, List.nodup_cons]; exact hnodup
              rw [List.map_append] at hnd
              exact hnd.of_append_left)
            omega
        | cons a' A =>
          rw [List.cons_append] at e
          obtain ⟨rfl, rfl⟩ := List.cons.inj e
          exact ⟨A, B, rfl, fun b hb => hA b (List.mem_cons_of_mem _ hb), hB, hBR, hK⟩
  · rw [if_neg hlen]
    exact ⟨hgood, hnodup, hseen, hsplit⟩

theorem length_enqueue (M : Nat) (q : Queue) (c : Block) :
    (q.enqueue M c).blocks.length ≤ q.blocks.length + 1 := by
  have := (insertSorted_perm c q.blocks).length_eq
  unfold Queue.enqueue
  dsimp only
  split
  · simp only [List.length_tail, this, List.length_cons]; omega
  · simp only [this, List.length_cons]; omega

theorem good_combine {inst : Instance} {bt : BinType} {a b : Block} (d : Axis)
    (ha : Good inst bt a) (hb : Good inst bt b)
    (hf : ∀ e, (combine a b d).box.along e ≤ bt.box.along e)
    (hc : validCopies inst a.itemCopies b.itemCopies = true) :
    Good inst bt (combine a b d) ∧ (combine a b d).numberOfItems ≠ 1 := by
  have h1 := ha.inv.number_pos
  have h2 := hb.inv.number_pos
  have h3 : (combine a b d).numberOfItems = a.numberOfItems + b.numberOfItems := rfl
  have h4 : (combine a b d).numberOfItems ≠ 1 := by omega
  exact ⟨⟨inv_combine d ha.inv hb.inv hf hc, fun h => absurd h h4⟩, h4⟩

theorem St.tryCombine {inst : Instance} {bt : BinType} {K : List Key} {q : Queue} {R : List Block}
    {M : Nat} (h : St inst bt K q R) {block existing : Block} (d : Axis) (hb : block ∈ R)
    (he : existing ∈ R) (hM : K = [] ∨ 6 * inst.numberOfItemTypes ≤ M) :
    St inst bt K (q.tryCombine inst bt M block existing d) R
    ∧ (q.tryCombine inst bt M block existing d).blocks.length ≤ q.blocks.length + 1 := by
  have same : St inst bt K q R ∧ q.blocks.length ≤ q.blocks.length + 1 := ⟨h, by omega⟩
  unfold Queue.tryCombine
  dsimp only
  split
  · exact same
  split
  · exact same
  rename_i _ hfit
  split
  · exact same
  split
  · exact same
  rename_i _ _ hv
  split
  · exact same
  rename_i hs
  have hv' : validCopies inst block.itemCopies existing.itemCopies = true := by simpa using hv
  obtain ⟨hg, h1⟩ := good_combine d (h.good _ (List.mem_append_right _ hb))
    (h.good _ (List.mem_append_right _ he)) (fun e => by
      have hx : ¬ (combine block existing d).box.x > bt.box.x := fun h => hfit (.inl h)
      have hy : ¬ (combine block existing d).box.y > bt.box.y := fun h => hfit (.inr (.inl h))
      have hz : ¬ (combine block existing d).box.z > bt.box.z := fun h => hfit (.inr (.inr h))
      cases e
      · exact not_lt.mp hx
      · exact not_lt.mp hy
      · exact not_lt.mp hz) hv'
  exact ⟨h.enqueue hg hs (fun e => absurd e h1) (fun k hk => .inl hk) hM, length_enqueue _ _ _⟩

theorem St.combineAll {inst : Instance} {bt : BinType} {K : List Key} {R : List Block} {M : Nat}
    {block : Block} (hb : block ∈ R) (hM : K = [] ∨ 6 * inst.numberOfItemTypes ≤ M) :
    ∀ (l : List Block) (q : Queue), (∀ e ∈ l, e ∈ R) → St inst bt K q R →
    St inst bt K (q.combineAll inst bt M block l) R
    ∧ (q.combineAll inst bt M block l).blocks.length ≤ q.blocks.length + 3 * l.length := by
  intro l
  induction l with
  | nil => intro q _ h; exact ⟨h, by simp [Queue.combineAll]⟩
  | cons e l ih =>
    intro q he h
    obtain ⟨h1, l1⟩ := h.tryCombine (M := M) .x hb (he e (by simp)) hM
    obtain ⟨h2, l2⟩ := h1.tryCombine (M := M) .y hb (he e (by simp)) hM
    obtain ⟨h2', l2'⟩ := h2.tryCombine (M := M) .z hb (he e (by simp)) hM
    obtain ⟨h3, l3⟩ := ih _ (fun e' he' => he e' (List.mem_cons_of_mem _ he')) h2'
    refine ⟨h3, ?_⟩
    refine le_trans l3 ?_
    rw [List.length_cons]
    omega

/-- The blocks of a single item fill their rectangle. -/
theorem Good.fillRate {inst : Instance} {bt : BinType} {b : Block} (h : Good inst bt b)
    (h1 : b.numberOfItems = 1) : b.fillRate = 1 := by
  obtain ⟨p, hp⟩ := List.length_eq_one_iff.mp (by
    have := h.inv.number; rw [h1] at this; exact_mod_cast this.symm : b.items.length = 1)
  have hd : ∀ d, b.box.along d = len inst d p := by
    intro d
    obtain ⟨q, hq, e⟩ := h.inv.starts d
    obtain ⟨q', hq', e'⟩ := h.inv.touches d
    rw [hp] at hq hq'
    rw [List.mem_singleton.mp hq] at e
    rw [List.mem_singleton.mp hq'] at e'
    rw [← e', e]; simp
  have ha : b.itemVolume = b.box.volume := by
    rw [h.inv.volume, hp]
    show _ + 0 = b.box.along .x * b.box.along .y * b.box.along .z
    rw [hd, hd, hd]
    unfold len
    rw [lengthAlong_rotate, lengthAlong_rotate, lengthAlong_rotate]
    show volumeOf _ + 0 = (Dims.rotate _ _).volume
    rw [volume_rotate]
    unfold volumeOf Dims.volume; ring
  unfold Block.fillRate
  rw [ha]
  apply div_self
  have : 0 < b.box.volume := mul_pos (mul_pos (h.inv.side .x) (h.inv.side .y)) (h.inv.side .z)
  exact_mod_cast this.ne'

theorem mainLoop_ok {inst : Instance} {bt : BinType} {K : List Key} {M : Nat}
    (hM : K = [] ∨ 6 * inst.numberOfItemTypes ≤ M) :
    ∀ (n : Nat) (q : Queue) (R : List Block), St inst bt K q R → R.length ≤ M →
    q.blocks.length + 2 * (M * M) < n + 2 * (R.length * R.length) →
    ∃ l, mainLoop inst bt M n q R = some l ∧ (∀ b ∈ l, Good inst bt b) ∧ (l.map key).Nodup
      ∧ l.length ≤ M ∧ ∀ k ∈ K, k ∈ l.map key := by
  intro n
  induction n with
  | zero =>
    intro q R h hR hn
    have : R.length * R.length ≤ M * M := Nat.mul_le_mul hR hR
    omega
  | succ n ih =>
    intro q R h hR hn
    unfold mainLoop
    have hgoodR : ∀ b ∈ R, Good inst bt b := fun b hb => h.good b (List.mem_append_right _ hb)
    have hnodupR : (R.map key).Nodup := by
      have := h.nodup
      rw [List.map_append] at this
      exact this.of_append_right
    rcases List.eq_nil_or_concat q.blocks with hq | ⟨Q, block, hq⟩
    · rw [hq, List.getLast?_nil]
      refine ⟨R, rfl, hgoodR, hnodupR, hR, ?_⟩
      obtain ⟨A, B, e, _, _, _, hK⟩ := h.split
      rw [hq] at e
      obtain ⟨_, rfl⟩ := List.append_eq_nil_iff.mp e.symm
      simpa using hK
    · rw [List.concat_eq_append] at hq
      rw [hq, List.getLast?_append, List.getLast?_singleton]
      simp only [Option.some_or, List.dropLast_concat]
      -- the last part of the queue
      obtain ⟨A, B, e, hA, hB, hBR, hK⟩ := h.split
      by_cases hlen : R.length ≥ M
      · rw [if_pos hlen]
        refine ⟨R, rfl, hgoodR, hnodupR, hR, ?_⟩
        intro k hk
        cases hBc : B with
        | nil => rw [hBc] at hK; simpa using hK k hk
        | cons b B' =>
          exfalso
          rcases hM with hM | hM
          · rw [hM] at hk; simp at hk
          · have hR1 := hBR (by rw [hBc]; simp)
            have hall : (B ++ R).length ≤ 6 * inst.numberOfItemTypes := by
              apply length_singles_le (bt := bt)
              · intro b hb
                apply h.good
                rw [e]
                rcases List.mem_append.mp hb with hb | hb
                · exact List.mem_append_left _ (List.mem_append_right _ hb)
                · exact List.mem_append_right _ hb
              · intro b hb
                rcases List.mem_append.mp hb with hb | hb
                · exact hB b hb
                · exact hR1 b hb
              · have := h.nodup
                rw [e, List.append_assoc, List.map_append] at this
                exact this.of_append_right
            rw [List.length_append, hBc, List.length_cons] at hall
            omega
      · rw [if_neg hlen]
        have hlq : q.blocks.length = Q.length + 1 := by rw [hq]; simp
        -- the state after removing the block from the queue
        have hpop : ∃ A' B', Q = A' ++ B' ∧ (∀ b ∈ A', b.numberOfItems ≠ 1)
            ∧ (∀ b ∈ B', b.numberOfItems = 1)
            ∧ (B' ≠ [] → block.numberOfItems = 1 ∧ ∀ b ∈ R, b.numberOfItems = 1)
            ∧ (∀ k ∈ K, k ∈ (B' ++ R).map key ∨ (block.numberOfItems = 1 ∧ k = block.key)) := by
          rcases List.eq_nil_or_concat B with hBn | ⟨B', b', hBc⟩
          · subst hBn
            rw [List.append_nil, hq] at e
            refine ⟨Q, [], by simp, ?_, by simp, by simp, ?_⟩
            · intro b hb
              exact hA b (by rw [← e]; exact List.mem_append_left _ hb)
            · intro k hk; exact .inl (hK k hk)
          · rw [List.concat_eq_append] at hBc
            subst hBc
            rw [hq, ← List.append_assoc] at e
            obtain ⟨e1, e2⟩ := List.append_inj' e rfl
            obtain rfl : block = b' := by simpa using e2
            refine ⟨A, B', e1, hA, fun b hb => hB b (List.mem_append_left _ hb),
              fun _ => ⟨hB block (by simp), hBR (by simp)⟩, ?_⟩
            intro k hk
            have := hK k hk
            simp only [List.map_append, List.mem_append, List.map_cons, List.map_nil,
              List.mem_singleton] at this ⊢
            rcases this with (h1 | h1) | h1
            · exact .inl (.inl h1)
            · exact .inr ⟨hB block (by simp), h1⟩
            · exact .inl (.inr h1)
        obtain ⟨A', B', eQ, hA', hB', hBR', hK'⟩ := hpop
        have hperm : (Q ++ (R ++ [block])).Perm (q.blocks ++ R) := by
          rw [hq, List.append_assoc]
          exact List.Perm.append_left Q List.perm_append_comm
        by_cases hskip : inst.numberOfItemTypes ≤ 3 ∧ block.fillRate ≠ 1
        · rw [if_pos hskip]
          have hn1 : block.numberOfItems ≠ 1 := fun h1 =>
            hskip.2 ((h.good block (by rw [hq]; simp)).fillRate h1)
          refine ih _ R ⟨?_, ?_, ?_, ?_⟩ hR (by show Q.length + 2 * (M * M) < _; omega)
          · intro b hb
            apply h.good
            rw [hq]
            rcases List.mem_append.mp hb with hb | hb
            · exact List.mem_append_left _ (List.mem_append_left _ hb)
            · exact List.mem_append_right _ hb
          · have := h.nodup
            rw [← (hperm.map key).nodup_iff, ← List.append_assoc, List.map_append] at this
            exact this.of_append_left
          · intro b hb
            apply h.seen
            rw [hq]
            rcases List.mem_append.mp hb with hb | hb
            · exact List.mem_append_left _ (List.mem_append_left _ hb)
            · exact List.mem_append_right _ hb
          · refine ⟨A', B', eQ, hA', hB', fun hne => (hBR' hne).2, ?_⟩
            intro k hk
            rcases hK' k hk with h1 | ⟨h1, _⟩
            · exact h1
            · exact absurd h1 hn1
        · rw [if_neg hskip]
          have hst : St inst bt K { q with blocks := Q } (R ++ [block]) := by
            refine ⟨fun b hb => h.good b (hperm.mem_iff.mp hb), ?_,
              fun b hb => h.seen b (hperm.mem_iff.mp hb), A', B', eQ, hA', hB', ?_, ?_⟩
            · rw [(hperm.map key).nodup_iff]; exact h.nodup
            · intro hne b hb
              rcases List.mem_append.mp hb with hb | hb
              · exact (hBR' hne).2 b hb
              · rw [List.mem_singleton.mp hb]; exact (hBR' hne).1
            · intro k hk
              simp only [List.map_append, List.mem_append, List.map_cons, List.map_nil,
                List.mem_singleton]
              rcases hK' k hk with h1 | ⟨_, h1⟩
              · simp only [List.map_append, List.mem_append] at h1
                rcases h1 with h1 | h1
                · exact .inl h1
                · exact .inr (.inl h1)
              · exact .inr (.inr h1)
          obtain ⟨h1, h2⟩ := St.combineAll (M := M) (block := block) (R := R ++ [block]) (by simp) hM R _
            (fun e he => List.mem_append_left _ he) hst
          refine ih _ (R ++ [block]) h1 (by rw [List.length_append, List.length_singleton]; omega) ?_
          rw [List.length_append, List.length_singleton]
          have h2' : (Queue.combineAll inst bt M block { q with blocks := Q } R).blocks.length
              ≤ Q.length + 3 * R.length := h2
          have : (R.length + 1) * (R.length + 1) = R.length * R.length + 2 * R.length + 1 := by ring
          omega

theorem addSimple_fold {inst : Instance} {bt : BinType} {M : Nat} :
    ∀ (l : List Block) (q : Queue) (K : List Key), (∀ b ∈ l, Good inst bt b) →
    St inst bt (if 6 * inst.numberOfItemTypes ≤ M then K else []) q [] →
    (∀ k ∈ q.seen, ∃ b ∈ q.blocks, b.key = k) →
    St inst bt (if 6 * inst.numberOfItemTypes ≤ M
      then (l.filter fun b => b.numberOfItems = 1).map key ++ K else [])
      (l.foldl (Queue.addSimple M) q) [] := by
  intro l
  induction l with
  | nil => intro q K _ h _; simpa using h
  | cons c l ih =>
    intro q K hg h hseen
    rw [List.foldl_cons]
    have hc := hg c (by simp)
    have hl : ∀ b ∈ l, Good inst bt b := fun b hb => hg b (List.mem_cons_of_mem _ hb)
    -- the keys after the block
    have key1 : St inst bt (if 6 * inst.numberOfItemTypes ≤ M
        then (if c.numberOfItems = 1 then c.key :: K else K) else []) (q.addSimple M c) []
        ∧ ∀ k ∈ (q.addSimple M c).seen, ∃ b ∈ (q.addSimple M c).blocks, b.key = k := by
      unfold Queue.addSimple
      by_cases hs : c.key ∈ q.seen
      · rw [if_pos hs]
        refine ⟨?_, hseen⟩
        by_cases h2 : 6 * inst.numberOfItemTypes ≤ M
        · rw [if_pos h2] at h ⊢
          by_cases h1 : c.numberOfItems = 1
          · rw [if_pos h1]
            refine ⟨h.good, h.nodup, h.seen, ?_⟩
            obtain ⟨A, B, e, hA, hB, hBR, hK⟩ := h.split
            refine ⟨A, B, e, hA, hB, hBR, ?_⟩
            intro k hk
            rcases List.mem_cons.mp hk with rfl | hk
            · obtain ⟨b, hb, ek⟩ := hseen _ hs
              have hb1 : b.numberOfItems = 1 := by
                rw [(h.good b (List.mem_append_left _ hb)).inv.total,
                  show b.itemCopies = c.itemCopies from congrArg Prod.snd ek, ← hc.inv.total, h1]
              rw [e] at hb
              rcases List.mem_append.mp hb with hb | hb
              · exact absurd hb1 (hA b hb)
              · exact List.mem_map.mpr ⟨b, List.mem_append_left _ hb, ek⟩
            · exact hK k hk
          · rw [if_neg h1]; exact h
        · rw [if_neg h2] at h ⊢; exact h
      · rw [if_neg hs]
        constructor
        · refine h.enqueue hc hs (fun _ => rfl) ?_ ?_
          · intro k hk
            by_cases h2 : 6 * inst.numberOfItemTypes ≤ M
            · rw [if_pos h2] at hk ⊢
              by_cases h1 : c.numberOfItems = 1
              · rw [if_pos h1] at hk
                rcases List.mem_cons.mp hk with hk | hk
                · exact .inr ⟨h1, hk⟩
                · exact .inl hk
              · rw [if_neg h1] at hk; exact .inl hk
            · rw [if_neg h2] at hk; simp at hk
          · by_cases h2 : 6 * inst.numberOfItemTypes ≤ M
            · exact .inr h2
            · rw [if_neg h2]; exact .inl rfl
        · have hp := insertSorted_perm c q.blocks
          have hall : ∀ k ∈ c.key :: q.seen, ∃ b ∈ insertSorted c q.blocks, b.key = k := by
            intro k hk
            rcases List.mem_cons.mp hk with rfl | hk
            · exact ⟨c, hp.mem_iff.mpr (by simp), rfl⟩
            · obtain ⟨b, hb, e⟩ := hseen k hk
              exact ⟨b, hp.mem_iff.mpr (List.mem_cons_of_mem _ hb), e⟩
          unfold Queue.enqueue
          dsimp only
          split
          · intro k hk
            obtain ⟨hk, hne⟩ := List.mem_filter.mp hk
            rw [decide_eq_true_iff] at hne
            obtain ⟨b, hb, e⟩ := hall k hk
            generalize insertSorted c q.blocks = l at *
            cases l with
            | nil => simp at hb
            | cons a l =>
              rcases List.mem_cons.mp hb with rfl | hb
              · exact absurd e.symm hne
              · exact ⟨b, hb, e⟩
          · exact hall
    have := ih _ _ hl key1.1 key1.2
    refine ⟨this.good, this.nodup, this.seen, ?_⟩
    obtain ⟨A, B, e, hA, hB, hBR, hK⟩ := this.split
    refine ⟨A, B, e, hA, hB, hBR, ?_⟩
    intro k hk
    apply hK
    by_cases h2 : 6 * inst.numberOfItemTypes ≤ M
    · rw [if_pos h2] at hk ⊢
      by_cases h1 : c.numberOfItems = 1
      · rw [if_pos h1]
        rw [List.filter_cons_of_pos (by simpa using h1)] at hk
        simp only [List.map_cons, List.cons_append, List.mem_cons, List.mem_append] at hk ⊢
        tauto
      · rw [if_neg h1]
        rw [List.filter_cons_of_neg (by simpa using h1)] at hk
        exact hk
    · rw [if_neg h2] at hk; simp at hk

/-- The generation of blocks succeeds. -/
theorem computeBlocks_ok {inst : Instance} {b M : Nat} (hs : Sized inst) :
    ∃ l, computeBlocks inst b M = .ok l ∧ (∀ c ∈ l, Good inst (inst.binType b) c)
      ∧ (l.map key).Nodup ∧ l.length ≤ M
      ∧ (6 * inst.numberOfItemTypes ≤ M → ∀ c ∈ simpleBlocks inst (inst.binType b),
        c.numberOfItems = 1 → ∃ c' ∈ l, c'.key = c.key) := by
  have hdiv : divides inst (inst.binType b) = true := by
    unfold divides
    rw [List.all_eq_true]
    intro i hi
    have hi := List.mem_range.mp hi
    by_cases hc : (inst.itemType i).copies < 1
    · simp [hc]
    · simp only [Bool.or_eq_true, decide_eq_true_iff, List.all_eq_true, Bool.and_eq_true]
      exact .inr fun r hr => ⟨(hs hi (by omega) hr .x).ne', .inr ⟨(hs hi (by omega) hr .y).ne',
        .inr (hs hi (by omega) hr .z).ne'⟩⟩
  have h0 : St inst (inst.binType b) (if 6 * inst.numberOfItemTypes ≤ M then [] else [])
      ({} : Queue) [] :=
    ⟨by simp, by simp, by simp, [], [], rfl, by simp, by simp, by simp, by simp⟩
  have h1 := addSimple_fold (M := M) (simpleBlocks inst (inst.binType b)) {} []
    (fun c hc => good_of_mem_simpleBlocks hs hc) h0 (by simp)
  unfold computeBlocks
  dsimp only
  rw [hdiv]
  simp only [Bool.not_true, Bool.false_eq_true, if_false]
  obtain ⟨l, e, hg, hn, hl, hK⟩ := mainLoop_ok (M := M) (by
      by_cases h2 : 6 * inst.numberOfItemTypes ≤ M
      · exact .inr h2
      · rw [if_neg h2]; exact .inl rfl)
    (((simpleBlocks inst (inst.binType b)).foldl (Queue.addSimple M) {}).blocks.length
      + 2 * (M * M) + 1)
    _ [] h1 (by simp) (by simp)
  refine ⟨l, by rw [e], hg, hn, hl, ?_⟩
  intro h2 c hc h1c
  have := hK c.key (by
    rw [if_pos h2, List.append_nil]
    exact List.mem_map_of_mem (List.mem_filter.mpr ⟨hc, by simpa using h1c⟩))
  obtain ⟨c', hc', e'⟩ := List.mem_map.mp this
  exact ⟨c', hc', e'⟩

end Block

end PackingSolver.Box
