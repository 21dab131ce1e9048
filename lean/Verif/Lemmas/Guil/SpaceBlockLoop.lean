import Verif.Lemmas.Guil.SpaceBlock
import Verif.Lemmas.Rect.BlockLoop

/-!
# Lemmas about the generation of the blocks of the search over unused rectangles
-/

namespace PackingSolver.Guil.Spaces

open PackingSolver.Guil.Spec
open PackingSolver.Rect.Block (cnt mul_le_of_le_tdiv nonneg_of_one_le_tdiv)

namespace Block

/-- The rotations tried for an item. -/
theorem mem_rotations {t : ItemType} {r : Bool} :
    r ∈ (if t.oriented then [false] else [false, true]) ↔ (r = true → t.oriented = false) := by
  cases ho : t.oriented <;> cases r <;> simp

theorem mem_simpleBlocks {inst : Instance} {bt : BinType} {b : Block} :
    b ∈ simpleBlocks inst bt ↔ ∃ i, i < inst.numberOfItemTypes ∧ 1 ≤ (inst.itemType i).copies
      ∧ ∃ r, (r = true → (inst.itemType i).oriented = false)
      ∧ ∃ cx : Nat, 1 ≤ cx
        ∧ (cx : Int) ≤ min (inst.itemType i).copies ((bt.w + inst.parameters.cutThickness).tdiv
            ((inst.itemType i).widthOf r + inst.parameters.cutThickness))
      ∧ ∃ cy : Nat, 1 ≤ cy
        ∧ (cy : Int) ≤ min ((inst.itemType i).copies.tdiv cx)
            ((bt.h + inst.parameters.cutThickness).tdiv
              ((inst.itemType i).heightOf r + inst.parameters.cutThickness))
      ∧ b = simple inst i r cx cy := by
  simp only [simpleBlocks, List.mem_flatMap, List.mem_range]
  constructor
  · rintro ⟨i, hi, h⟩
    by_cases hc : (inst.itemType i).copies < 1
    · rw [if_pos hc] at h; simp at h
    · rw [if_neg hc] at h
      simp only [List.mem_flatMap, List.mem_map, List.mem_range'_1] at h
      obtain ⟨r, hr, cx, hcx, cy, hcy, e⟩ := h
      exact ⟨i, hi, by omega, r, mem_rotations.mp hr, cx, hcx.1, by omega, cy, hcy.1, by omega,
        e.symm⟩
  · rintro ⟨i, hi, hc, r, hr, cx, h1, h2, cy, h3, h4, e⟩
    refine ⟨i, hi, ?_⟩
    rw [if_neg (by omega)]
    simp only [List.mem_flatMap, List.mem_map, List.mem_range'_1]
    exact ⟨r, mem_rotations.mpr hr, cx, ⟨h1, by omega⟩, cy, ⟨h3, by omega⟩, e.symm⟩

theorem inv_of_mem_simpleBlocks {inst : Instance} {bt : BinType}
    (ht : 0 ≤ inst.parameters.cutThickness) (hs : PosItems inst) {b : Block}
    (h : b ∈ simpleBlocks inst bt) : Inv inst bt b := by
  obtain ⟨i, hi, hc, r, hr, cx, h1, h2, cy, h3, h4, rfl⟩ := mem_simpleBlocks.mp h
  obtain ⟨hw, hh⟩ := widthOf_pos hs hi r
  have e1 : (cx : Int) ≤ (bt.w + inst.parameters.cutThickness).tdiv
    ((inst.itemType i).widthOf r + inst.parameters.cutThickness) := by omega
  have e2 : (cy : Int) ≤ (bt.h + inst.parameters.cutThickness).tdiv
    ((inst.itemType i).heightOf r + inst.parameters.cutThickness) := by omega
  have g1 : 1 ≤ (bt.w + inst.parameters.cutThickness).tdiv
    ((inst.itemType i).widthOf r + inst.parameters.cutThickness) := by omega
  have g2 : 1 ≤ (bt.h + inst.parameters.cutThickness).tdiv
    ((inst.itemType i).heightOf r + inst.parameters.cutThickness) := by omega
  have f1 := mul_le_of_le_tdiv (nonneg_of_one_le_tdiv (by omega) g1) (by omega) e1
  have f2 := mul_le_of_le_tdiv (nonneg_of_one_le_tdiv (by omega) g2) (by omega) e2
  have := mul_le_of_le_tdiv (by omega) (by omega : (0 : Int) < cx)
    (by omega : (cy : Int) ≤ (inst.itemType i).copies.tdiv cx)
  refine inv_simple ht hs hi hr h1 h3 (by rw [mul_comm]; exact this) ?_ ?_
  · show (cx : Int) * (inst.itemType i).widthOf r + (cx - 1) * inst.parameters.cutThickness ≤ bt.w
    have : (cx : Int) * (inst.itemType i).widthOf r + (cx - 1) * inst.parameters.cutThickness
      = cx * ((inst.itemType i).widthOf r + inst.parameters.cutThickness)
        - inst.parameters.cutThickness := by ring
    omega
  · show (cy : Int) * (inst.itemType i).heightOf r + (cy - 1) * inst.parameters.cutThickness ≤ bt.h
    have : (cy : Int) * (inst.itemType i).heightOf r + (cy - 1) * inst.parameters.cutThickness
      = cy * ((inst.itemType i).heightOf r + inst.parameters.cutThickness)
        - inst.parameters.cutThickness := by ring
    omega

/-- The keys of the blocks of a single item. -/
def singleKeys (inst : Instance) : List Key :=
  (List.range inst.numberOfItemTypes).flatMap fun i =>
    [(simple inst i false 1 1).key, (simple inst i true 1 1).key]

theorem length_singleKeys (inst : Instance) :
    (singleKeys inst).length = 2 * inst.numberOfItemTypes := by
  unfold singleKeys
  rw [List.length_flatMap]
  simp; omega

/-- How a block is made: a grid, or two blocks of the list on the two sides of a cut. -/
def Made (inst : Instance) (bt : BinType) (R : List Block) (b : Block) : Prop :=
  b ∈ simpleBlocks inst bt ∨ ∃ i j a c v, R[i]? = some a ∧ R[j]? = some c
    ∧ b = combine inst.parameters.cutThickness a c i j v

theorem Made.mono {inst : Instance} {bt : BinType} {R : List Block} {b : Block}
    (h : Made inst bt R b) (S : List Block) : Made inst bt (R ++ S) b := by
  rcases h with h | ⟨i, j, a, c, v, h1, h2, e⟩
  · exact .inl h
  · have l1 : i < R.length := by
      by_contra hn; rw [List.getElem?_eq_none (by omega)] at h1; simp at h1
    have l2 : j < R.length := by
      by_contra hn; rw [List.getElem?_eq_none (by omega)] at h2; simp at h2
    exact .inr ⟨i, j, a, c, v, by rw [List.getElem?_append_left l1]; exact h1,
      by rw [List.getElem?_append_left l2]; exact h2, e⟩

/-- What is known of each block. -/
structure Good (inst : Instance) (bt : BinType) (R : List Block) (b : Block) : Prop where
  inv : Inv inst bt b
  single : b.numberOfItems = 1 → b.key ∈ singleKeys inst
  made : Made inst bt R b

theorem good_of_mem_simpleBlocks {inst : Instance} {bt : BinType}
    (ht : 0 ≤ inst.parameters.cutThickness) (hs : PosItems inst) {b : Block}
    (h : b ∈ simpleBlocks inst bt) : Good inst bt [] b := by
  refine ⟨inv_of_mem_simpleBlocks ht hs h, fun h1 => ?_, .inl h⟩
  obtain ⟨i, hi, hc, r, hr, cx, h1x, h2, cy, h3, h4, rfl⟩ := mem_simpleBlocks.mp h
  have e : cx * cy = 1 := by
    have : (cx : Int) * cy = 1 := h1
    exact_mod_cast this
  have ex : cx = 1 := Nat.eq_one_of_mul_eq_one_right e
  have ey : cy = 1 := Nat.eq_one_of_mul_eq_one_left e
  subst ex; subst ey
  unfold singleKeys
  refine List.mem_flatMap.mpr ⟨i, List.mem_range.mpr hi, ?_⟩
  cases r <;> simp

/-! ## The queue -/

theorem insertSorted_perm (b : Block) (l : List Block) : (insertSorted b l).Perm (b :: l) := by
  induction l with
  | nil => exact List.Perm.refl _
  | cons c l ih =>
    unfold insertSorted
    by_cases h : less b c = true
    · rw [if_pos h]
    · rw [if_neg h]
      exact (List.Perm.cons c ih).trans (List.Perm.swap b c l)

theorem insertSorted_many {b : Block} (hb : b.numberOfItems ≠ 1) :
    ∀ (A B : List Block), (∀ c ∈ B, c.numberOfItems = 1) →
    ∃ A', insertSorted b (A ++ B) = A' ++ B ∧ A'.Perm (b :: A) := by
  intro A
  induction A with
  | nil =>
    intro B hB
    refine ⟨[b], ?_, List.Perm.refl _⟩
    cases B with
    | nil => rfl
    | cons c B =>
      show (if less b c = true then b :: c :: B else _) = _
      rw [if_pos]; · rfl
      unfold less
      rw [if_neg (fun h => hb h.1), if_pos ⟨hb, hB c (by simp)⟩]
  | cons a A ih =>
    intro B hB
    rw [List.cons_append]
    unfold insertSorted
    by_cases h : less b a = true
    · rw [if_pos h]
      exact ⟨b :: a :: A, rfl, List.Perm.refl _⟩
    · rw [if_neg h]
      obtain ⟨A', e, hp⟩ := ih B hB
      exact ⟨a :: A', by rw [e]; rfl, (List.Perm.cons a hp).trans (List.Perm.swap b a A)⟩

theorem insertSorted_single {b : Block} (hb : b.numberOfItems = 1) :
    ∀ (A B : List Block), (∀ c ∈ A, c.numberOfItems ≠ 1) →
    insertSorted b (A ++ B) = A ++ insertSorted b B := by
  intro A
  induction A with
  | nil => intro B _; rfl
  | cons a A ih =>
    intro B hA
    rw [List.cons_append]
    have h : ¬ less b a = true := by
      unfold less
      rw [if_pos ⟨hb, hA a (by simp)⟩]; simp
    conv_lhs => unfold insertSorted
    rw [if_neg h, ih B (fun c hc => hA c (List.mem_cons_of_mem _ hc))]; rfl

/-- What is known of the queue and of the blocks already returned: keys differ and have been seen;
the blocks of a single item come last in the queue, and as long as there are some only such blocks
have been returned; the keys in `K` are there. -/
structure St (inst : Instance) (bt : BinType) (K : List Key) (q : Queue) (R : List Block) : Prop where
  good : ∀ b ∈ q.blocks ++ R, Good inst bt R b
  order : ∀ k b, R[k]? = some b → Made inst bt (R.take k) b
  rate : inst.numberOfItemTypes ≤ 3 → ∀ b ∈ R, b.fillRate = 1
  nodup : ((q.blocks ++ R).map key).Nodup
  seen : ∀ b ∈ q.blocks ++ R, b.key ∈ q.seen
  split : ∃ A B, q.blocks = A ++ B ∧ (∀ b ∈ A, b.numberOfItems ≠ 1)
    ∧ (∀ b ∈ B, b.numberOfItems = 1) ∧ (B ≠ [] → ∀ b ∈ R, b.numberOfItems = 1)
    ∧ ∀ k ∈ K, k ∈ (B ++ R).map key

theorem length_singles_le {inst : Instance} {bt : BinType} {R B : List Block}
    (hg : ∀ b ∈ B, Good inst bt R b) (h1 : ∀ b ∈ B, b.numberOfItems = 1) (hn : (B.map key).Nodup) :
    B.length ≤ 2 * inst.numberOfItemTypes := by
  rw [← length_singleKeys, ← List.length_map (f := key)]
  apply List.Subperm.length_le
  apply List.subperm_of_subset hn
  intro k hk
  obtain ⟨b, hb, rfl⟩ := List.mem_map.mp hk
  exact (hg b hb).single (h1 b hb)

/-- Insertion of a new block. -/
theorem St.enqueue {inst : Instance} {bt : BinType} {K K' : List Key} {q : Queue} {R : List Block}
    {M : Nat} (h : St inst bt K q R) {c : Block} (hg : Good inst bt R c) (hc : c.key ∉ q.seen)
    (h1 : c.numberOfItems = 1 → R = [])
    (hK' : ∀ k ∈ K', k ∈ K ∨ (c.numberOfItems = 1 ∧ k = c.key))
    (hM : K' = [] ∨ 2 * inst.numberOfItemTypes ≤ M) :
    St inst bt K' (({ q with seen := c.key :: q.seen } : Queue).enqueue M c) R := by
  have hperm := insertSorted_perm c q.blocks
  -- the queue before the possible removal
  have hgood : ∀ b ∈ insertSorted c q.blocks ++ R, Good inst bt R b := by
    intro b hb
    rcases List.mem_append.mp hb with hb | hb
    · rcases List.mem_cons.mp (hperm.mem_iff.mp hb) with rfl | hb
      · exact hg
      · exact h.good b (List.mem_append_left _ hb)
    · exact h.good b (List.mem_append_right _ hb)
  have hnodup : ((insertSorted c q.blocks ++ R).map key).Nodup := by
    have hp : ((insertSorted c q.blocks ++ R).map key).Perm ((c :: (q.blocks ++ R)).map key) :=
      (hperm.append_right R).map key
    rw [hp.nodup_iff, List.map_cons, List.nodup_cons]
    refine ⟨fun hm => ?_, h.nodup⟩
    obtain ⟨b, hb, e⟩ := List.mem_map.mp hm
    exact hc (e ▸ h.seen b hb)
  have hseen : ∀ b ∈ insertSorted c q.blocks ++ R, b.key ∈ c.key :: q.seen := by
    intro b hb
    rcases List.mem_append.mp hb with hb | hb
    · rcases List.mem_cons.mp (hperm.mem_iff.mp hb) with rfl | hb
      · exact List.mem_cons_self
      · exact List.mem_cons_of_mem _ (h.seen b (List.mem_append_left _ hb))
    · exact List.mem_cons_of_mem _ (h.seen b (List.mem_append_right _ hb))
  have hsplit : ∃ A B, insertSorted c q.blocks = A ++ B ∧ (∀ b ∈ A, b.numberOfItems ≠ 1)
      ∧ (∀ b ∈ B, b.numberOfItems = 1) ∧ (B ≠ [] → ∀ b ∈ R, b.numberOfItems = 1)
      ∧ ∀ k ∈ K', k ∈ (B ++ R).map key := by
    obtain ⟨A, B, e, hA, hB, hBR, hK⟩ := h.split
    by_cases hs : c.numberOfItems = 1
    · refine ⟨A, insertSorted c B, by rw [e]; exact insertSorted_single hs A B hA, hA, ?_, ?_, ?_⟩
      · intro b hb
        rcases List.mem_cons.mp ((insertSorted_perm c B).mem_iff.mp hb) with rfl | hb
        · exact hs
        · exact hB b hb
      · intro _; rw [h1 hs]; simp
      · intro k hk
        have hp : ((insertSorted c B ++ R).map key).Perm ((c :: (B ++ R)).map key) :=
          ((insertSorted_perm c B).append_right R).map key
        rw [hp.mem_iff, List.map_cons, List.mem_cons]
        rcases hK' k hk with hk | ⟨_, hk⟩
        · exact .inr (hK k hk)
        · exact .inl hk
    · obtain ⟨A', e', hp⟩ := insertSorted_many hs A B hB
      refine ⟨A', B, by rw [e]; exact e', ?_, hB, hBR, ?_⟩
      · intro b hb
        rcases List.mem_cons.mp (hp.mem_iff.mp hb) with rfl | hb
        · exact hs
        · exact hA b hb
      · intro k hk
        rcases hK' k hk with hk | ⟨hk, _⟩
        · exact hK k hk
        · exact absurd hk hs
  unfold Queue.enqueue
  dsimp only
  by_cases hlen : (insertSorted c q.blocks).length > M
  · rw [if_pos hlen]
    generalize hl : insertSorted c q.blocks = l at *
    cases l with
    | nil => simp at hlen
    | cons a l =>
      rw [List.cons_append, List.map_cons, List.nodup_cons] at hnodup
      refine ⟨?_, h.order, h.rate, hnodup.2, ?_, ?_⟩
      · intro b hb
        exact hgood b (List.mem_cons_of_mem _ hb)
      · intro b hb
        refine List.mem_filter.mpr ⟨hseen b (List.mem_cons_of_mem _ hb), ?_⟩
        rw [decide_eq_true_iff]
        intro e
        exact hnodup.1 (List.mem_map.mpr ⟨b, hb, e⟩)
      · obtain ⟨A, B, e, hA, hB, hBR, hK⟩ := hsplit
        cases A with
        | nil =>
          rw [List.nil_append] at e
          subst e
          refine ⟨[], l, rfl, by simp, fun b hb => hB b (List.mem_cons_of_mem _ hb),
            fun _ => hBR (by simp), ?_⟩
          rcases hM with hM | hM
          · rw [hM]; simp
          · exfalso
            have := length_singles_le (fun b hb => hgood b (List.mem_append_left _ hb)) hB (by
              have hnd : ((a :: l ++ R).map key).Nodup := by
                rw [List.cons_append, List.map_cons, List.nodup_cons]; exact hnodup
              rw [List.map_append] at hnd
              exact hnd.of_append_left)
            omega
        | cons a' A =>
          rw [List.cons_append] at e
          obtain ⟨rfl, rfl⟩ := List.cons.inj e
          exact ⟨A, B, rfl, fun b hb => hA b (List.mem_cons_of_mem _ hb), hB, hBR, hK⟩
  · rw [if_neg hlen]
    exact ⟨hgood, h.order, h.rate, hnodup, hseen, hsplit⟩

theorem length_enqueue (M : Nat) (q : Queue) (c : Block) :
    (q.enqueue M c).blocks.length ≤ q.blocks.length + 1 := by
  have := (insertSorted_perm c q.blocks).length_eq
  unfold Queue.enqueue
  dsimp only
  split
  · simp only [List.length_tail, this, List.length_cons]; omega
  · simp only [this, List.length_cons]; omega

theorem good_combine {inst : Instance} {bt : BinType} {R : List Block} {a b : Block} {i j : Nat}
    (v : Bool) (ht : 0 ≤ inst.parameters.cutThickness) (hi : R[i]? = some a) (hj : R[j]? = some b)
    (ha : Inv inst bt a) (hb : Inv inst bt b)
    (hx : (combine inst.parameters.cutThickness a b i j v).w ≤ bt.w)
    (hy : (combine inst.parameters.cutThickness a b i j v).h ≤ bt.h)
    (hc : validCopies inst a.itemCopies b.itemCopies = true) :
    Good inst bt R (combine inst.parameters.cutThickness a b i j v)
    ∧ (combine inst.parameters.cutThickness a b i j v).numberOfItems ≠ 1 := by
  have h1 := ha.many
  have h2 := hb.many
  have h3 : (combine inst.parameters.cutThickness a b i j v).numberOfItems
    = a.numberOfItems + b.numberOfItems := rfl
  have h4 : (combine inst.parameters.cutThickness a b i j v).numberOfItems ≠ 1 := by omega
  exact ⟨⟨inv_combine v i j ht ha hb hx hy hc, fun h => absurd h h4,
    .inr ⟨i, j, a, b, v, hi, hj, rfl⟩⟩, h4⟩

theorem St.tryCombine {inst : Instance} {bt : BinType} {K : List Key} {q : Queue} {R : List Block}
    {M : Nat} (ht : 0 ≤ inst.parameters.cutThickness) (h : St inst bt K q R)
    {block existing : Block} {i j : Nat} (v : Bool)
    (hb : R[i]? = some block) (he : R[j]? = some existing)
    (hM : K = [] ∨ 2 * inst.numberOfItemTypes ≤ M) :
    St inst bt K (q.tryCombine inst bt M block existing i j v) R
    ∧ (q.tryCombine inst bt M block existing i j v).blocks.length ≤ q.blocks.length + 1 := by
  have same : St inst bt K q R ∧ q.blocks.length ≤ q.blocks.length + 1 := ⟨h, by omega⟩
  unfold Queue.tryCombine
  dsimp only
  split
  · exact same
  split
  · exact same
  rename_i _ hfit
  split
  · exact same
  split
  · exact same
  rename_i _ _ hv
  split
  · exact same
  rename_i hs
  have hv' : validCopies inst block.itemCopies existing.itemCopies = true := by simpa using hv
  obtain ⟨hg, h1⟩ := good_combine v ht hb he
    (h.good _ (List.mem_append_right _ (List.mem_of_getElem? hb))).inv
    (h.good _ (List.mem_append_right _ (List.mem_of_getElem? he))).inv (by omega) (by omega) hv'
  exact ⟨h.enqueue hg hs (fun e => absurd e h1) (fun k hk => .inl hk) hM, length_enqueue _ _ _⟩

theorem St.combineAll {inst : Instance} {bt : BinType} {K : List Key} {R : List Block} {M : Nat}
    (ht : 0 ≤ inst.parameters.cutThickness) {block : Block} {i : Nat} (hb : R[i]? = some block)
    (hM : K = [] ∨ 2 * inst.numberOfItemTypes ≤ M) :
    ∀ (l : List Block) (j : Nat) (q : Queue), (∀ k e, l[k]? = some e → R[j + k]? = some e) →
    St inst bt K q R →
    St inst bt K (q.combineAll inst bt M block i j l) R
    ∧ (q.combineAll inst bt M block i j l).blocks.length ≤ q.blocks.length + 2 * l.length := by
  intro l
  induction l with
  | nil => intro j q _ h; exact ⟨h, by simp [Queue.combineAll]⟩
  | cons e l ih =>
    intro j q he h
    have hj : R[j]? = some e := he 0 e rfl
    obtain ⟨h1, l1⟩ := h.tryCombine (M := M) ht true hb hj hM
    obtain ⟨h2, l2⟩ := h1.tryCombine (M := M) ht false hb hj hM
    obtain ⟨h3, l3⟩ := ih (j + 1) _ (fun k e' he' => by
      have := he (k + 1) e' he'
      rw [show j + 1 + k = j + (k + 1) by omega]; exact this) h2
    refine ⟨h3, ?_⟩
    refine le_trans l3 ?_
    rw [List.length_cons]
    omega

theorem mainLoop_ok {inst : Instance} {bt : BinType} {K : List Key} {M : Nat}
    (ht : 0 ≤ inst.parameters.cutThickness)
    (hM : K = [] ∨ 2 * inst.numberOfItemTypes ≤ M) :
    ∀ (n : Nat) (q : Queue) (R : List Block), St inst bt K q R → R.length ≤ M →
    q.blocks.length + M * M < n + R.length * R.length →
    ∃ l, mainLoop inst bt M n q R = some l ∧ (∀ b ∈ l, Good inst bt l b)
      ∧ (∀ k b, l[k]? = some b → Made inst bt (l.take k) b)
      ∧ (inst.numberOfItemTypes ≤ 3 → ∀ b ∈ l, b.fillRate = 1) ∧ (l.map key).Nodup
      ∧ l.length ≤ M ∧ ∀ k ∈ K, k ∈ l.map key := by
  intro n
  induction n with
  | zero =>
    intro q R h hR hn
    have : R.length * R.length ≤ M * M := Nat.mul_le_mul hR hR
    omega
  | succ n ih =>
    intro q R h hR hn
    unfold mainLoop
    have hgoodR : ∀ b ∈ R, Good inst bt R b := fun b hb => h.good b (List.mem_append_right _ hb)
    have hnodupR : (R.map key).Nodup := by
      have := h.nodup
      rw [List.map_append] at this
      exact this.of_append_right
    rcases List.eq_nil_or_concat q.blocks with hq | ⟨Q, block, hq⟩
    · rw [hq, List.getLast?_nil]
      refine ⟨R, rfl, hgoodR, h.order, h.rate, hnodupR, hR, ?_⟩
      obtain ⟨A, B, e, _, _, _, hK⟩ := h.split
      rw [hq] at e
      obtain ⟨_, rfl⟩ := List.append_eq_nil_iff.mp e.symm
      simpa using hK
    · rw [List.concat_eq_append] at hq
      rw [hq, List.getLast?_append, List.getLast?_singleton]
      simp only [Option.some_or, List.dropLast_concat]
      -- the last part of the queue
      obtain ⟨A, B, e, hA, hB, hBR, hK⟩ := h.split
      by_cases hlen : R.length ≥ M
      · rw [if_pos hlen]
        refine ⟨R, rfl, hgoodR, h.order, h.rate, hnodupR, hR, ?_⟩
        intro k hk
        cases hBc : B with
        | nil => rw [hBc] at hK; simpa using hK k hk
        | cons b B' =>
          exfalso
          rcases hM with hM | hM
          · rw [hM] at hk; simp at hk
          · have hR1 := hBR (by rw [hBc]; simp)
            have hall : (B ++ R).length ≤ 2 * inst.numberOfItemTypes := by
              apply length_singles_le (bt := bt) (R := R)
              · intro b hb
                apply h.good
                rw [e]
                rcases List.mem_append.mp hb with hb | hb
                · exact List.mem_append_left _ (List.mem_append_right _ hb)
                · exact List.mem_append_right _ hb
              · intro b hb
                rcases List.mem_append.mp hb with hb | hb
                · exact hB b hb
                · exact hR1 b hb
              · have := h.nodup
                rw [e, List.append_assoc, List.map_append] at this
                exact this.of_append_right
            rw [List.length_append, hBc, List.length_cons] at hall
            omega
      · rw [if_neg hlen]
        have hlq : q.blocks.length = Q.length + 1 := by rw [hq]; simp
        -- the state after removing the block from the queue
        have hpop : ∃ A' B', Q = A' ++ B' ∧ (∀ b ∈ A', b.numberOfItems ≠ 1)
            ∧ (∀ b ∈ B', b.numberOfItems = 1)
            ∧ (B' ≠ [] → block.numberOfItems = 1 ∧ ∀ b ∈ R, b.numberOfItems = 1)
            ∧ (∀ k ∈ K, k ∈ (B' ++ R).map key ∨ (block.numberOfItems = 1 ∧ k = block.key)) := by
          rcases List.eq_nil_or_concat B with hBn | ⟨B', b', hBc⟩
          · subst hBn
            rw [List.append_nil, hq] at e
            refine ⟨Q, [], by simp, ?_, by simp, by simp, ?_⟩
            · intro b hb
              exact hA b (by rw [← e]; exact List.mem_append_left _ hb)
            · intro k hk; exact .inl (hK k hk)
          · rw [List.concat_eq_append] at hBc
            subst hBc
            rw [hq, ← List.append_assoc] at e
            obtain ⟨e1, e2⟩ := List.append_inj' e rfl
            obtain rfl : block = b' := by simpa using e2
            refine ⟨A, B', e1, hA, fun b hb => hB b (List.mem_append_left _ hb),
              fun _ => ⟨hB block (by simp), hBR (by simp)⟩, ?_⟩
            intro k hk
            have := hK k hk
            simp only [List.map_append, List.mem_append, List.map_cons, List.map_nil,
              List.mem_singleton] at this ⊢
            rcases this with (h1 | h1) | h1
            · exact .inl (.inl h1)
            · exact .inr ⟨hB block (by simp), h1⟩
            · exact .inl (.inr h1)
        obtain ⟨A', B', eQ, hA', hB', hBR', hK'⟩ := hpop
        have hperm : (Q ++ (R ++ [block])).Perm (q.blocks ++ R) := by
          rw [hq, List.append_assoc]
          exact List.Perm.append_left Q List.perm_append_comm
        by_cases hskip : inst.numberOfItemTypes ≤ 3 ∧ block.fillRate ≠ 1
        · rw [if_pos hskip]
          have hn1 : block.numberOfItems ≠ 1 := fun h1 =>
            hskip.2 ((h.good block (by rw [hq]; simp)).inv.fillRate_single h1)
          refine ih _ R ⟨?_, h.order, h.rate, ?_, ?_, ?_⟩ hR (by show Q.length + M * M < _; omega)
          · intro b hb
            apply h.good
            rw [hq]
            rcases List.mem_append.mp hb with hb | hb
            · exact List.mem_append_left _ (List.mem_append_left _ hb)
            · exact List.mem_append_right _ hb
          · have := h.nodup
            rw [← (hperm.map key).nodup_iff, ← List.append_assoc, List.map_append] at this
            exact this.of_append_left
          · intro b hb
            apply h.seen
            rw [hq]
            rcases List.mem_append.mp hb with hb | hb
            · exact List.mem_append_left _ (List.mem_append_left _ hb)
            · exact List.mem_append_right _ hb
          · refine ⟨A', B', eQ, hA', hB', fun hne => (hBR' hne).2, ?_⟩
            intro k hk
            rcases hK' k hk with h1 | ⟨h1, _⟩
            · exact h1
            · exact absurd h1 hn1
        · rw [if_neg hskip]
          have hst : St inst bt K { q with blocks := Q } (R ++ [block]) := by
            refine ⟨fun b hb => by
                have hg := h.good b (hperm.mem_iff.mp hb)
                exact ⟨hg.inv, hg.single, hg.made.mono _⟩, ?_, ?_, ?_,
              fun b hb => h.seen b (hperm.mem_iff.mp hb), A', B', eQ, hA', hB', ?_, ?_⟩
            · intro k b hk
              by_cases hlt : k < R.length
              · rw [List.getElem?_append_left hlt] at hk
                rw [List.take_append_of_le_length hlt.le]
                exact h.order k b hk
              · rw [List.getElem?_append_right (by omega)] at hk
                have hk0 : k - R.length = 0 := by
                  by_contra hn
                  rw [List.getElem?_eq_none (by rw [List.length_singleton]; omega)] at hk
                  simp at hk
                rw [hk0] at hk
                obtain rfl : block = b := by simpa using hk
                rw [show k = R.length by omega, List.take_left']
                · exact (h.good block (by rw [hq]; simp)).made
                · rfl
            · intro h3 b hb
              rcases List.mem_append.mp hb with hb | hb
              · exact h.rate h3 b hb
              · rw [List.mem_singleton.mp hb]
                by_contra hn
                exact hskip ⟨h3, hn⟩
            · rw [(hperm.map key).nodup_iff]; exact h.nodup
            · intro hne b hb
              rcases List.mem_append.mp hb with hb | hb
              · exact (hBR' hne).2 b hb
              · rw [List.mem_singleton.mp hb]; exact (hBR' hne).1
            · intro k hk
              simp only [List.map_append, List.mem_append, List.map_cons, List.map_nil,
                List.mem_singleton]
              rcases hK' k hk with h1 | ⟨_, h1⟩
              · simp only [List.map_append, List.mem_append] at h1
                rcases h1 with h1 | h1
                · exact .inl h1
                · exact .inr (.inl h1)
              · exact .inr (.inr h1)
          obtain ⟨h1, h2⟩ := St.combineAll (M := M) (block := block) (i := R.length)
            (R := R ++ [block]) ht (by simp) hM R 0 _
            (fun k e he => by
              have hlt : k < R.length := by
                by_contra hn; rw [List.getElem?_eq_none (by omega)] at he; simp at he
              rw [Nat.zero_add, List.getElem?_append_left hlt]; exact he) hst
          refine ih _ (R ++ [block]) h1 (by rw [List.length_append, List.length_singleton]; omega) ?_
          rw [List.length_append, List.length_singleton]
          have h2' : (Queue.combineAll inst bt M block R.length 0 { q with blocks := Q } R).blocks.length
              ≤ Q.length + 2 * R.length := h2
          have : (R.length + 1) * (R.length + 1) = R.length * R.length + 2 * R.length + 1 := by ring
          omega

theorem addSimple_fold {inst : Instance} {bt : BinType} {M : Nat} :
    ∀ (l : List Block) (q : Queue) (K : List Key), (∀ b ∈ l, Good inst bt [] b) →
    St inst bt (if 2 * inst.numberOfItemTypes ≤ M then K else []) q [] →
    (∀ k ∈ q.seen, ∃ b ∈ q.blocks, b.key = k) →
    St inst bt (if 2 * inst.numberOfItemTypes ≤ M
      then (l.filter fun b => b.numberOfItems = 1).map key ++ K else [])
      (l.foldl (Queue.addSimple M) q) [] := by
  intro l
  induction l with
  | nil => intro q K _ h _; simpa using h
  | cons c l ih =>
    intro q K hg h hseen
    rw [List.foldl_cons]
    have hc := hg c (by simp)
    have hl : ∀ b ∈ l, Good inst bt [] b := fun b hb => hg b (List.mem_cons_of_mem _ hb)
    -- the keys after the block
    have key1 : St inst bt (if 2 * inst.numberOfItemTypes ≤ M
        then (if c.numberOfItems = 1 then c.key :: K else K) else []) (q.addSimple M c) []
        ∧ ∀ k ∈ (q.addSimple M c).seen, ∃ b ∈ (q.addSimple M c).blocks, b.key = k := by
      unfold Queue.addSimple
      by_cases hs : c.key ∈ q.seen
      · rw [if_pos hs]
        refine ⟨?_, hseen⟩
        by_cases h2 : 2 * inst.numberOfItemTypes ≤ M
        · rw [if_pos h2] at h ⊢
          by_cases h1 : c.numberOfItems = 1
          · rw [if_pos h1]
            refine ⟨h.good, h.order, h.rate, h.nodup, h.seen, ?_⟩
            obtain ⟨A, B, e, hA, hB, hBR, hK⟩ := h.split
            refine ⟨A, B, e, hA, hB, hBR, ?_⟩
            intro k hk
            rcases List.mem_cons.mp hk with rfl | hk
            · obtain ⟨b, hb, ek⟩ := hseen _ hs
              have hb1 : b.numberOfItems = 1 := by
                rw [(h.good b (List.mem_append_left _ hb)).inv.total,
                  show b.itemCopies = c.itemCopies from congrArg Prod.snd ek, ← hc.inv.total, h1]
              rw [e] at hb
              rcases List.mem_append.mp hb with hb | hb
              · exact absurd hb1 (hA b hb)
              · exact List.mem_map.mpr ⟨b, List.mem_append_left _ hb, ek⟩
            · exact hK k hk
          · rw [if_neg h1]; exact h
        · rw [if_neg h2] at h ⊢; exact h
      · rw [if_neg hs]
        constructor
        · refine h.enqueue hc hs (fun _ => rfl) ?_ ?_
          · intro k hk
            by_cases h2 : 2 * inst.numberOfItemTypes ≤ M
            · rw [if_pos h2] at hk ⊢
              by_cases h1 : c.numberOfItems = 1
              · rw [if_pos h1] at hk
                rcases List.mem_cons.mp hk with hk | hk
                · exact .inr ⟨h1, hk⟩
                · exact .inl hk
              · rw [if_neg h1] at hk; exact .inl hk
            · rw [if_neg h2] at hk; simp at hk
          · by_cases h2 : 2 * inst.numberOfItemTypes ≤ M
            · exact .inr h2
            · rw [if_neg h2]; exact .inl rfl
        · have hp := insertSorted_perm c q.blocks
          have hall : ∀ k ∈ c.key :: q.seen, ∃ b ∈ insertSorted c q.blocks, b.key = k := by
            intro k hk
            rcases List.mem_cons.mp hk with rfl | hk
            · exact ⟨c, hp.mem_iff.mpr (by simp), rfl⟩
            · obtain ⟨b, hb, e⟩ := hseen k hk
              exact ⟨b, hp.mem_iff.mpr (List.mem_cons_of_mem _ hb), e⟩
          unfold Queue.enqueue
          dsimp only
          split
          · intro k hk
            obtain ⟨hk, hne⟩ := List.mem_filter.mp hk
            rw [decide_eq_true_iff] at hne
            obtain ⟨b, hb, e⟩ := hall k hk
            generalize insertSorted c q.blocks = l at *
            cases l with
            | nil => simp at hb
            | cons a l =>
              rcases List.mem_cons.mp hb with rfl | hb
              · exact absurd e.symm hne
              · exact ⟨b, hb, e⟩
          · exact hall
    have := ih _ _ hl key1.1 key1.2
    refine ⟨this.good, this.order, this.rate, this.nodup, this.seen, ?_⟩
    obtain ⟨A, B, e, hA, hB, hBR, hK⟩ := this.split
    refine ⟨A, B, e, hA, hB, hBR, ?_⟩
    intro k hk
    apply hK
    by_cases h2 : 2 * inst.numberOfItemTypes ≤ M
    · rw [if_pos h2] at hk ⊢
      by_cases h1 : c.numberOfItems = 1
      · rw [if_pos h1]
        rw [List.filter_cons_of_pos (by simpa using h1)] at hk
        simp only [List.map_cons, List.cons_append, List.mem_cons, List.mem_append] at hk ⊢
        tauto
      · rw [if_neg h1]
        rw [List.filter_cons_of_neg (by simpa using h1)] at hk
        exact hk
    · rw [if_neg h2] at hk; simp at hk

/-- The generation of blocks succeeds. -/
theorem computeBlocks_ok {inst : Instance} {bt : BinType} {M : Nat}
    (ht : 0 ≤ inst.parameters.cutThickness) (hs : PosItems inst) :
    ∃ l, computeBlocks inst bt M = .ok l ∧ (∀ c ∈ l, Good inst bt l c)
      ∧ (∀ k b, l[k]? = some b → Made inst bt (l.take k) b)
      ∧ (inst.numberOfItemTypes ≤ 3 → ∀ b ∈ l, b.fillRate = 1)
      ∧ (l.map key).Nodup ∧ l.length ≤ M
      ∧ (2 * inst.numberOfItemTypes ≤ M → ∀ c ∈ simpleBlocks inst bt,
        c.numberOfItems = 1 → ∃ c' ∈ l, c'.key = c.key) := by
  have hdiv : divides inst bt = true := by
    unfold divides
    dsimp only
    rw [List.all_eq_true]
    intro i hi
    have hi := List.mem_range.mp hi
    by_cases hc : (inst.itemType i).copies < 1
    · simp [hc]
    · simp only [Bool.or_eq_true, decide_eq_true_iff, List.all_eq_true, Bool.and_eq_true]
      refine .inr fun r _ => ?_
      obtain ⟨h1, h2⟩ := widthOf_pos hs hi r
      exact ⟨by omega, .inr (by omega)⟩
  have h0 : St inst bt (if 2 * inst.numberOfItemTypes ≤ M then [] else [])
      ({} : Queue) [] :=
    ⟨by simp, by simp, by simp, by simp, by simp, [], [], rfl, by simp, by simp, by simp, by simp⟩
  have h1 := addSimple_fold (M := M) (simpleBlocks inst bt) {} []
    (fun c hc => good_of_mem_simpleBlocks ht hs hc) h0 (by simp)
  unfold computeBlocks
  dsimp only
  rw [hdiv]
  simp only [Bool.not_true, Bool.false_eq_true, if_false]
  obtain ⟨l, e, hg, ho, hf, hn, hl, hK⟩ := mainLoop_ok (M := M) ht (by
      by_cases h2 : 2 * inst.numberOfItemTypes ≤ M
      · exact .inr h2
      · rw [if_neg h2]; exact .inl rfl)
    (((simpleBlocks inst bt).foldl (Queue.addSimple M) {}).blocks.length + M * M + 1)
    _ [] h1 (by simp) (by simp)
  refine ⟨l, by rw [e], hg, ho, hf, hn, hl, ?_⟩
  intro h2 c hc h1c
  have := hK c.key (by
    rw [if_pos h2, List.append_nil]
    exact List.mem_map_of_mem (List.mem_filter.mpr ⟨hc, by simpa using h1c⟩))
  obtain ⟨c', hc', e'⟩ := List.mem_map.mp this
  exact ⟨c', hc', e'⟩

end Block

end PackingSolver.Guil.Spaces
