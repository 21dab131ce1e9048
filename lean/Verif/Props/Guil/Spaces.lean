import Verif.Lemmas.Guil.SpacesInv
import Verif.Lemmas.Rect.Run
import Mathlib.Algebra.BigOperators.Group.Finset.Basic
import Mathlib.Algebra.Order.BigOperators.Group.Finset

/-!
# States of the search over unused rectangles (C115)
-/

namespace PackingSolver.Guil.Spaces

open PackingSolver.Guil.Spec
open PackingSolver.Rect.Block (cnt)

section
variable {inst : Instance} {sc : Scheme} {n n' g : State} {ins : Insertion}

/-- **C115**: every state that the search can meet stands for a way to cut the whole bin, by cuts from
side to side of the given thickness, into items: the numbers of copies, the profit, the area and the
number of items of the state are those of this pattern, and no item type is used more often than it
has copies. -/
theorem space_state_ok (ht : 0 ≤ inst.parameters.cutThickness) (hi : PosItems inst)
    (h : scheme inst = .ok sc) (hr : Reached sc n) :
    ∃ p : Pattern, p.Fits inst.itemTypes inst.parameters.cutThickness sc.bt.w sc.bt.h
      ∧ p.Respects inst.itemTypes ∧ (∀ i, n.copies.getD i 0 = (p.count i : Int))
      ∧ n.profit = p.profit inst.itemTypes ∧ n.itemArea = p.area inst.itemTypes
      ∧ n.numberOfItems = (p.size : Int) := by
  obtain ⟨rfl, hok⟩ := scheme_ok ht hi h
  have hn := reached_inv hok hr
  obtain ⟨p, h1, h2, h3, h4, h5⟩ := hn.holed.closed
  have h2' : ∀ i, (p.count i : Int) = n.copies.getD i 0 := h2
  refine ⟨p, h1, ?_, fun i => (h2' i).symm, h3.symm, h4.symm, h5.symm⟩
  intro i it hit hpos
  have := hn.le i (by rw [← h2' i]; exact_mod_cast hpos)
  unfold Instance.itemType at this
  rw [← h2' i, List.getD_eq_getElem?_getD, hit] at this
  exact this

/-- **C115**: the insertions of a state put a block that fits, and of which enough copies are left, in
a space of smallest area; each of them can be carried out and adds exactly the items of its block. -/
theorem space_insertions_ok (ht : 0 ≤ inst.parameters.cutThickness) (hi : PosItems inst)
    (h : scheme inst = .ok sc) (hr : Reached sc n) (hins : ins ∈ sc.insertions n) :
    ∃ s b n', n.spaces[ins.spaceId]? = some s ∧ sc.blocks[ins.blockId]? = some b
      ∧ (∀ s' ∈ n.spaces, s.w * s.h ≤ s'.w * s'.h) ∧ b.w ≤ s.w ∧ b.h ≤ s.h
      ∧ (∀ p ∈ b.itemCopies, n.copies.getD p.1 0 + p.2 ≤ (inst.itemType p.1).copies)
      ∧ sc.apply n ins = .ok n' ∧ Reached sc n'
      ∧ (∀ i, n'.copies.getD i 0 = n.copies.getD i 0 + cnt b.itemCopies i)
      ∧ n'.profit = n.profit + b.itemProfit ∧ n'.itemArea = n.itemArea + b.itemArea
      ∧ n'.numberOfItems = n.numberOfItems + b.numberOfItems := by
  obtain ⟨rfl, hok⟩ := scheme_ok ht hi h
  have hn := reached_inv hok hr
  obtain ⟨s, hb, hs, hv, fw, fh, -⟩ := mem_insertions.mp hins
  obtain ⟨hlt, hval⟩ := (hn.valid _).mp hv
  obtain ⟨s', hs', hmin⟩ := bestSpace_some hb
  rw [hs] at hs'
  cases hs'
  have ha := apply_eq (ins := ins) hs hlt
  refine ⟨s, sc.block ins.blockId, _, hs, (block_some hlt).1, ?_, fw, fh, hval, ha,
    .child hr hins ha, ?_, rfl, rfl, rfl⟩
  · intro s'' hs''
    have : s.area ≤ s''.area := by
      rcases hmin s'' hs'' with h' | ⟨h', -⟩ <;> omega
    exact this
  · exact addCopies_getD _ _ fun p hp => by
      rw [hn.len]; exact (hok.blocks _ (block_some hlt).2).exist p hp

/-- **C115**: conversely, every block that fits in the chosen space and of which enough copies are
left is tried. -/
theorem space_insertions_all (ht : 0 ≤ inst.parameters.cutThickness) (hi : PosItems inst)
    (h : scheme inst = .ok sc) (hr : Reached sc n) {k : Nat} {s : Space}
    (hk : bestSpace n.spaces = some k) (hs : n.spaces[k]? = some s) {id : Nat} {b : Block}
    (hb : sc.blocks[id]? = some b) (hw : b.w ≤ s.w) (hh : b.h ≤ s.h)
    (hc : ∀ p ∈ b.itemCopies, n.copies.getD p.1 0 + p.2 ≤ (inst.itemType p.1).copies) :
    ∃ ins ∈ sc.insertions n, ins.blockId = id := by
  obtain ⟨rfl, hok⟩ := scheme_ok ht hi h
  have hn := reached_inv hok hr
  have hlt : id < sc.blocks.length := (List.getElem?_eq_some_iff.mp hb).1
  have hbl : sc.block id = b := by
    have := (block_some hlt).1
    rw [hb] at this
    exact (Option.some.inj this).symm
  refine ⟨⟨id, k, if s.co = .any then .vertical else s.co, guideOf s b⟩,
    mem_insertions.mpr ⟨s, hk, hs, (hn.valid id).mpr ⟨hlt, by rw [hbl]; exact hc⟩,
      by rw [hbl]; exact hw, by rw [hbl]; exact hh, by rw [hbl], ?_⟩, rfl⟩
  by_cases hco : s.co = .any <;> simp [hco]

/-- **C115**: after an insertion, a space is dropped exactly if no block of which enough copies are
left fits in it: nothing that could still be placed is lost. -/
theorem space_insertion_spaces (ht : 0 ≤ inst.parameters.cutThickness) (hi : PosItems inst)
    (h : scheme inst = .ok sc) (hr : Reached sc n) (hins : ins ∈ sc.insertions n)
    (ha : sc.apply n ins = .ok n') :
    ∃ s b, n.spaces[ins.spaceId]? = some s ∧ sc.blocks[ins.blockId]? = some b
      ∧ ∀ s', s' ∈ n'.spaces ↔
        (s' ∈ n.spaces.eraseIdx ins.spaceId
          ∨ s' ∈ newSpaces inst.parameters.cutThickness s b.w b.h ins.co)
        ∧ ∃ c ∈ sc.blocks, c.w ≤ s'.w ∧ c.h ≤ s'.h
          ∧ ∀ p ∈ c.itemCopies, n'.copies.getD p.1 0 + p.2 ≤ (inst.itemType p.1).copies := by
  obtain ⟨rfl, hok⟩ := scheme_ok ht hi h
  have hn' := reached_inv hok (.child hr hins ha)
  obtain ⟨s, hb, hs, hv, fw, fh, -⟩ := mem_insertions.mp hins
  obtain ⟨hlt, hval⟩ := ((reached_inv hok hr).valid _).mp hv
  rw [apply_eq hs hlt] at ha
  refine ⟨s, sc.block ins.blockId, hs, (block_some hlt).1, ?_⟩
  intro s'
  have hmem : ∀ (keep : Space → Bool) (l : List Space), s' ∈ prune keep l ↔ s' ∈ l ∧ keep s' = true := by
    intro keep l
    rw [(prune_perm keep l).mem_iff, List.mem_filter]
  have hsp : n'.spaces = _ := (congrArg State.spaces (Except.ok.inj ha)).symm
  have hva : n'.valid = _ := (congrArg State.valid (Except.ok.inj ha)).symm
  dsimp only at hsp hva
  rw [hsp, hmem, List.mem_append, ← hva]
  refine and_congr_right fun _ => ?_
  unfold Scheme.hasFitting
  rw [List.any_eq_true]
  constructor
  · rintro ⟨id, hid, hf⟩
    obtain ⟨h1, h2⟩ := (hn'.valid id).mp hid
    exact ⟨sc.block id, (block_some h1).2, (fits_iff.mp hf).1, (fits_iff.mp hf).2, h2⟩
  · rintro ⟨c, hc, h1, h2, h3⟩
    obtain ⟨id, hid, rfl⟩ := List.getElem_of_mem hc
    have hbl : sc.block id = sc.blocks[id] := by
      unfold Scheme.block; rw [List.getD_eq_getElem _ _ hid]
    exact ⟨id, (hn'.valid id).mpr ⟨hid, by rw [hbl]; exact h3⟩,
      fits_iff.mpr (by rw [hbl]; exact ⟨h1, h2⟩)⟩

/-- **C115**: the greedy completion of a state ends, keeps the blocks already placed, and — when no
profit is negative — stops only when no block of which enough copies are left fits in a space. -/
theorem space_greedy_ok (ht : 0 ≤ inst.parameters.cutThickness) (hi : PosItems inst)
    (hc : ∀ it ∈ inst.itemTypes, 0 ≤ it.copies) (h : scheme inst = .ok sc) (hr : Reached sc n) :
    ∃ g, sc.greedy sc.greedyFuel n = .ok g ∧ Reached sc g ∧ n.placed <+: g.placed
      ∧ ((∀ b ∈ sc.blocks, 0 ≤ b.itemProfit) → ∀ s ∈ g.spaces, ∀ b ∈ sc.blocks,
        (∀ p ∈ b.itemCopies, g.copies.getD p.1 0 + p.2 ≤ (inst.itemType p.1).copies) →
        ¬ (b.w ≤ s.w ∧ b.h ≤ s.h)) := by
  obtain ⟨rfl, hok⟩ := scheme_ok ht hi h
  have hnum := reached_number_nonneg hok hr
  obtain ⟨g, h1, h2, h3, h4⟩ := greedy_ok hok hc sc.greedyFuel hr (by
    unfold Scheme.greedyFuel
    have := Int.self_le_toNat ((sc.inst.itemTypes.map ItemType.copies).sum)
    push_cast
    omega)
  refine ⟨g, h1, h2, h4, ?_⟩
  intro hprofit
  -- no insertion at all
  have hnone : ∀ ins, ins ∉ sc.insertions g := by
    intro ins hins
    have hle := bestInsertion_none h3 ins hins
    obtain ⟨s, hb, hs, hv, fw, fh, hg, -⟩ := mem_insertions.mp hins
    obtain ⟨hlt, -⟩ := ((reached_inv hok h2).valid _).mp hv
    have hp := hprofit _ (block_some hlt).2
    have : 0 ≤ guideOf s (sc.block ins.blockId) := by
      unfold guideOf
      split
      · next ha => exact div_nonneg hp (by exact_mod_cast ha.le)
      · exact le_refl _
    rw [hg] at hle
    linarith
  cases hb : bestSpace g.spaces with
  | none =>
    rw [bestSpace_none.mp hb]
    simp
  | some k =>
    obtain ⟨s, hs, -⟩ := bestSpace_some hb
    have key : ∀ b ∈ sc.blocks,
        (∀ p ∈ b.itemCopies, g.copies.getD p.1 0 + p.2 ≤ (sc.inst.itemType p.1).copies) →
        ¬ (b.w ≤ s.w ∧ b.h ≤ s.h) := by
      rintro b hbm hcp ⟨h5, h6⟩
      obtain ⟨id, hid, rfl⟩ := List.getElem_of_mem hbm
      obtain ⟨ins, hm, -⟩ := space_insertions_all ht hi h h2 hb hs
        (List.getElem?_eq_getElem hid) h5 h6 hcp
      exact hnone ins hm
    cases h2 with
    | root =>
      intro s' hs'
      have e1 : s' = sc.rootSpace := List.mem_singleton.mp hs'
      have e2 : s = sc.rootSpace := List.mem_singleton.mp (List.mem_of_getElem? hs)
      rw [e1, ← e2]
      exact key
    | child hr' hins ha =>
      exfalso
      obtain ⟨_, _, -, -, hiff⟩ := space_insertion_spaces ht hi h hr' hins ha
      obtain ⟨-, c, hcm, h5, h6, h7⟩ := (hiff s).mp (List.mem_of_getElem? hs)
      exact key c hcm h7 ⟨h5, h6⟩

/-- **C115**: the block chosen by the greedy completion is one of the insertions, and none of the
others has a larger profit. -/
theorem space_greedy_choice (ht : 0 ≤ inst.parameters.cutThickness) (hi : PosItems inst)
    (h : scheme inst = .ok sc) (hr : Reached sc n) (hb : sc.bestInsertion n = some ins) :
    ins ∈ sc.insertions n ∧ ∀ ins' ∈ sc.insertions n,
      (sc.block ins'.blockId).itemProfit ≤ (sc.block ins.blockId).itemProfit := by
  obtain ⟨rfl, hok⟩ := scheme_ok ht hi h
  obtain ⟨h1, h2⟩ := bestInsertion_some hb
  refine ⟨h1, fun ins' h' => ?_⟩
  obtain ⟨s, hk, hs, hv, fw, fh, hg, -⟩ := mem_insertions.mp h1
  obtain ⟨s', hk', hs', hv', fw', fh', hg', -⟩ := mem_insertions.mp h'
  rw [hk] at hk'
  rw [← Option.some.inj hk', hs] at hs'
  cases hs'
  have hle := h2 ins' h'
  obtain ⟨hlt, -⟩ := ((reached_inv hok hr).valid _).mp hv
  have hinv := hok.blocks _ (block_some hlt).2
  have hpos : (0 : Int) < s.area := by
    have := hinv.posW
    have := hinv.posH
    exact mul_pos (by omega) (by omega)
  rw [hg, hg'] at hle
  unfold guideOf at hle
  rw [if_pos hpos, if_pos hpos] at hle
  have hq : (0 : ℚ) < (s.area : ℚ) := by exact_mod_cast hpos
  exact (div_le_div_iff_of_pos_right hq).mp hle

/-- The profit of a pattern, from its numbers of copies. -/
theorem pattern_profit (items : List ItemType) (t : Int) : ∀ (p : Pattern) (w h : Int),
    p.Fits items t w h → p.profit items
      = ∑ i ∈ Finset.range items.length, (p.count i : ℚ) * (items.getD i default).profit := by
  intro p
  induction p with
  | waste => intro w h _; simp [Pattern.profit, Pattern.count]
  | item id r =>
    rintro w h ⟨it, hit, -⟩
    have hid : id < items.length := (List.getElem?_eq_some_iff.mp hit).1
    simp only [Pattern.profit, Pattern.count]
    rw [Finset.sum_eq_single id]
    · simp
    · intro b _ hb; simp [Ne.symm hb]
    · intro hn; exact absurd (Finset.mem_range.mpr hid) hn
  | vertical x l r ih1 ih2 =>
    rintro w h ⟨-, -, h1, h2⟩
    have e2 : r.profit items
        = ∑ i ∈ Finset.range items.length, (r.count i : ℚ) * (items.getD i default).profit := by
      rcases h2 with ⟨-, h2⟩ | ⟨-, rfl⟩
      · exact ih2 _ _ h2
      · simp [Pattern.profit, Pattern.count]
    simp only [Pattern.profit, Pattern.count]
    rw [ih1 _ _ h1, e2, ← Finset.sum_add_distrib]
    refine Finset.sum_congr rfl fun i _ => ?_
    push_cast; ring
  | horizontal x l r ih1 ih2 =>
    rintro w h ⟨-, -, h1, h2⟩
    have e2 : r.profit items
        = ∑ i ∈ Finset.range items.length, (r.count i : ℚ) * (items.getD i default).profit := by
      rcases h2 with ⟨-, h2⟩ | ⟨-, rfl⟩
      · exact ih2 _ _ h2
      · simp [Pattern.profit, Pattern.count]
    simp only [Pattern.profit, Pattern.count]
    rw [ih1 _ _ h1, e2, ← Finset.sum_add_distrib]
    refine Finset.sum_congr rfl fun i _ => ?_
    push_cast; ring

/-- Lists that are at most each other entry by entry and have the same sum are equal. -/
theorem getD_eq_of_sum : ∀ (l m : List Int), l.length = m.length →
    (∀ i, l.getD i 0 ≤ m.getD i 0) → l.sum = m.sum → ∀ i, l.getD i 0 = m.getD i 0 := by
  intro l
  induction l with
  | nil => intro m h _ _ i; cases m with
    | nil => rfl
    | cons => simp at h
  | cons a l ih =>
    intro m h hle hsum i
    cases m with
    | nil => simp at h
    | cons b m =>
      have h0 : a ≤ b := by simpa using hle 0
      have hle' : ∀ i, l.getD i 0 ≤ m.getD i 0 := fun i => by simpa using hle (i + 1)
      have h1 := sum_le_of_getD l m (by simpa using h) hle'
      simp only [List.sum_cons] at hsum
      cases i with
      | zero => show a = b; omega
      | succ i => exact ih m (by simpa using h) hle' (by omega) i

/-- **C115**: a state is a leaf exactly if it holds every copy of every item. -/
theorem space_leaf_iff (ht : 0 ≤ inst.parameters.cutThickness) (hi : PosItems inst)
    (hc : ∀ it ∈ inst.itemTypes, 0 ≤ it.copies)
    (hN : inst.numberOfItems = (inst.itemTypes.map ItemType.copies).sum)
    (h : scheme inst = .ok sc) (hr : Reached sc n) :
    sc.leaf n = true ↔ ∀ i, n.copies.getD i 0 = (inst.itemType i).copies := by
  obtain ⟨rfl, hok⟩ := scheme_ok ht hi h
  have hn := reached_inv hok hr
  have hlen : n.copies.length = (sc.inst.itemTypes.map ItemType.copies).length := by
    rw [hn.len, List.length_map]; rfl
  have hle : ∀ i, n.copies.getD i 0 ≤ (sc.inst.itemTypes.map ItemType.copies).getD i 0 := by
    intro i
    rw [getD_copies]
    by_cases h0 : 0 < n.copies.getD i 0
    · exact hn.le i h0
    · have : 0 ≤ (sc.inst.itemType i).copies := by
        unfold Instance.itemType
        rw [List.getD_eq_getElem?_getD]
        cases he : sc.inst.itemTypes[i]? with
        | none => exact le_refl _
        | some it => exact hc it (List.mem_of_getElem? he)
      omega
  unfold Scheme.leaf
  rw [decide_eq_true_iff, hN, ← hn.sum]
  constructor
  · intro hs i
    rw [getD_eq_of_sum _ _ hlen hle hs i, getD_copies]
  · intro hall
    congr 1
    refine List.ext_getElem hlen fun i h1 h2 => ?_
    have := hall i
    rw [← getD_copies, List.getD_eq_getElem _ _ h1, List.getD_eq_getElem _ _ h2] at this
    exact this

/-- **C115**: when no profit is negative, what the bound cuts off is never better than the state it
is compared with. -/
theorem space_bound_safe (ht : 0 ≤ inst.parameters.cutThickness) (hi : PosItems inst)
    (hc : ∀ it ∈ inst.itemTypes, 0 ≤ it.copies) (hp : ∀ it ∈ inst.itemTypes, 0 ≤ it.profit)
    (hN : inst.numberOfItems = (inst.itemTypes.map ItemType.copies).sum)
    (h : scheme inst = .ok sc) {n1 n2 : State} (h2 : Reached sc n2)
    (hb : sc.bound n1 n2 = .ok true) : ∀ n, Reached sc n → n.profit ≤ n2.profit := by
  intro n hr
  have hleaf : sc.leaf n2 = true := by
    unfold Scheme.bound at hb
    split at hb
    · exact Except.ok.inj hb
    · exact Except.ok.inj hb
    · cases hb
  rw [space_leaf_iff ht hi hc hN h h2] at hleaf
  obtain ⟨p, f1, r1, c1, p1, -⟩ := space_state_ok ht hi h hr
  obtain ⟨q, f2, r2, c2, p2, -⟩ := space_state_ok ht hi h h2
  rw [p1, p2, pattern_profit _ _ _ _ _ f1, pattern_profit _ _ _ _ _ f2]
  refine Finset.sum_le_sum fun i hi' => ?_
  have hlt := Finset.mem_range.mp hi'
  have hg : inst.itemTypes[i]? = some inst.itemTypes[i] := List.getElem?_eq_getElem hlt
  rw [List.getD_eq_getElem _ _ hlt]
  refine mul_le_mul_of_nonneg_right ?_ (hp _ (List.getElem_mem hlt))
  have e2 : (q.count i : Int) = inst.itemTypes[i].copies := by
    rw [← c2, hleaf]
    unfold Instance.itemType
    rw [List.getD_eq_getElem _ _ hlt]
  have : (p.count i : Int) ≤ (q.count i : Int) := by
    rw [e2]
    by_cases h0 : 0 < p.count i
    · exact r1 i _ hg h0
    · have := hc _ (List.getElem_mem hlt)
      omega
  exact_mod_cast this

end

/-! ## Concrete cases -/

namespace SpacesEx

/-- A bin of 10 × 6; two copies of a 4 × 3 item that may be rotated and one of each of 5 × 3, 2 × 2
and 9 × 9 items; cuts of thickness 1; the first cut may have any direction. -/
def inst : Instance :=
  { objective := .knapsack
    parameters := { cutThickness := 1, firstStageOrientation := .any }
    binTypes := [{ w := 10, h := 6, copies := 1 }]
    binTypeIds := [0]
    numberOfItems := 5
    itemTypes := [{ w := 4, h := 3, profit := 12, copies := 2, oriented := false },
      { w := 5, h := 3, profit := 15, copies := 1, oriented := true },
      { w := 2, h := 2, profit := 4, copies := 1, oriented := true },
      { w := 9, h := 9, profit := 81, copies := 1, oriented := true }] }

/-- Its scheme. -/
def sc : Scheme := OneDim.Examples.okD ⟨inst, 0, [], .any⟩ (scheme inst)

theorem sc_eq : scheme inst = .ok sc := Rect.eq_ok_okD (by decide +kernel)

/-- The hypotheses of the theorems. -/
example : 0 ≤ inst.parameters.cutThickness ∧ PosItems inst
    ∧ (∀ it ∈ inst.itemTypes, 0 ≤ it.copies ∧ 0 ≤ it.profit)
    ∧ (∀ b ∈ sc.blocks, 0 ≤ b.itemProfit) := by
  unfold PosItems; decide +kernel

/-- Nineteen blocks, each of which can be tried in two directions at the root. -/
example : sc.blocks.length = 19 ∧ (sc.insertions sc.root).length = 38 := by decide +kernel

/-- The greedy completion of the root places a block of three items, after which nothing fits. -/
theorem greedy_root : (sc.greedy sc.greedyFuel sc.root).toOption.map
    (fun g => (g.placed, g.copies, g.profit, g.spaces))
      = some ([⟨16, 0, 0, .vertical⟩], [1, 1, 1, 0], 31, []) := by decide +kernel

/-- The same without the last item, in a bin of 10 × 7. -/
def few : Instance :=
  { inst with itemTypes := inst.itemTypes.take 3, binTypes := [{ w := 10, h := 7, copies := 1 }], numberOfItems := 4 }

/-- Its scheme. -/
def scFew : Scheme := OneDim.Examples.okD ⟨few, 0, [], .any⟩ (scheme few)

theorem scFew_eq : scheme few = .ok scFew := Rect.eq_ok_okD (by decide +kernel)

/-- The greedy completion of its root is a leaf: it places four blocks, one after the other. -/
theorem greedy_few : (scFew.greedy scFew.greedyFuel scFew.root).toOption.map
    (fun g => (g.placed.map (fun p => (p.blockId, p.x, p.y)), g.copies, scFew.leaf g))
      = some ([(1, 0, 0), (3, 0, 4), (2, 6, 0), (0, 6, 5)], [2, 1, 1], true) := by decide +kernel

/-- The number of items is that of the copies, as the builder of instances makes it. -/
example : few.numberOfItems = (few.itemTypes.map ItemType.copies).sum
    ∧ inst.numberOfItems = (inst.itemTypes.map ItemType.copies).sum := by decide +kernel

/-- So the bound cuts off every other state once this one has been met. -/
example : ∃ n, Reached scFew n ∧ scFew.bound scFew.root n = .ok true := by
  obtain ⟨g, h1, h2, -⟩ := space_greedy_ok (inst := few) (by decide)
    (by unfold PosItems; decide +kernel) (by decide +kernel) scFew_eq .root
  refine ⟨g, h2, ?_⟩
  have h := greedy_few
  rw [h1] at h
  have hl : scFew.leaf g = true := by
    simp only [Except.toOption, Option.map_some, Option.some.injEq, Prod.mk.injEq] at h
    exact h.2.2
  unfold Scheme.bound
  rw [show scFew.inst.objective = .knapsack by decide +kernel, hl]

/-- With a negative profit the bound may cut off better states: after both items of this instance
have been placed, nothing else is looked at, although the first item alone is worth more. -/
def negative : Instance :=
  { objective := .knapsack, parameters := { firstStageOrientation := .vertical }, binTypes := [{ w := 4, h := 2, copies := 1 }], binTypeIds := [0], numberOfItems := 2, itemTypes := [{ w := 2, h := 2, profit := 3, copies := 1, oriented := true }, { w := 1, h := 2, profit := -1, copies := 1, oriented := true }] }

/-- Its scheme. -/
def scNegative : Scheme := OneDim.Examples.okD ⟨negative, 0, [], .any⟩ (scheme negative)

theorem scNegative_eq : scheme negative = .ok scNegative := Rect.eq_ok_okD (by decide +kernel)

theorem bound_unsafe : ∃ n1 n2, Reached scNegative n1 ∧ Reached scNegative n2
    ∧ scNegative.bound n1 n2 = .ok true ∧ n2.profit < n1.profit := by
  refine ⟨OneDim.Examples.okD {} (scNegative.apply scNegative.root ⟨0, 0, .vertical, 3 / 8⟩),
    OneDim.Examples.okD {} (scNegative.apply scNegative.root ⟨2, 0, .vertical, 2 / 8⟩),
    .child .root (ins := ⟨0, 0, .vertical, 3 / 8⟩) (by decide +kernel)
      (Rect.eq_ok_okD (by decide +kernel)),
    .child .root (ins := ⟨2, 0, .vertical, 2 / 8⟩) (by decide +kernel)
      (Rect.eq_ok_okD (by decide +kernel)), ?_, by decide +kernel⟩
  unfold Scheme.bound
  rw [show scNegative.inst.objective = .knapsack by decide +kernel]
  exact congrArg Except.ok (by decide +kernel)

end SpacesEx

end PackingSolver.Guil.Spaces
