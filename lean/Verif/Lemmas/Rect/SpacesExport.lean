import Verif.Lemmas.Rect.SpacesFull
import Verif.Lemmas.Rect.Reach
import Verif.Props.Rect.Build
import Verif.Props.Rect.Block
import Verif.Props.Rect.Solution
import Verif.Lemmas.Rect.TreeBound
import Verif.Lemmas.Rect.Dantzig

/-!
Helper lemmas: the scheme of a built instance, export of nodes.
-/

namespace PackingSolver.Rect.MaximalSpaces

open Rect.Spec
open Rect.MaximalSpaces.Spec (Reached)

variable {ops : List InstanceBuilder.Op} {inst : Instance} {maximum : Nat} {s : Scheme} {n : Node}
  {guide : Node → Nat → ℚ} {sol : Solution}

theorem makeScheme_fields (hs : makeScheme inst maximum = .ok s) :
    s.inst = inst ∧ (∃ r, inst.binTypeIds = s.binTypeId :: r)
    ∧ Block.computeBlocks inst s.binTypeId maximum = .ok s.blocks
    ∧ s.binX = maxReachable inst true (inst.binType s.binTypeId).x.toNat
    ∧ s.binY = maxReachable inst false (inst.binType s.binTypeId).y.toNat := by
  unfold makeScheme at hs
  split at hs
  · cases hs
  · next b r hb =>
    obtain ⟨l, h1, h2⟩ := bind_ok.mp hs
    cases h2
    exact ⟨rfl, ⟨r, hb⟩, h1, rfl, rfl⟩

theorem bin_of_ids (hb : InstanceBuilder.runOps ops = .ok inst) {b : Nat} {r : List Nat}
    (h : inst.binTypeIds = b :: r) : b < inst.numberOfBinTypes ∧ 1 ≤ (inst.binType b).copies := by
  have ha := (build_aggregates hb).binTypeIds
  rw [h] at ha
  have hm : b ∈ binPositions inst.binTypes := by rw [← ha]; simp
  unfold binPositions at hm
  obtain ⟨⟨t, k⟩, hp, hm⟩ := List.mem_flatMap.mp hm
  dsimp only at hm
  obtain ⟨h0, rfl⟩ := List.mem_replicate.mp hm
  obtain ⟨_, h2, h3⟩ := List.mem_zipIdx hp
  have hlt : b < inst.binTypes.length := by omega
  refine ⟨hlt, ?_⟩
  unfold Instance.binType
  rw [List.getD_eq_getElem _ _ hlt]
  have e : t = inst.binTypes[b] := by rw [h3]; congr 1
  rw [← e]
  omega

theorem ctx_of_scheme (hb : InstanceBuilder.runOps ops = .ok inst) (hp : Positive inst)
    (hs : makeScheme inst maximum = .ok s) : Ctx s := by
  obtain ⟨rfl, ⟨r, hr⟩, hc, hx, hy⟩ := makeScheme_fields hs
  have hbin := (bin_of_ids hb hr).1
  obtain ⟨l, h1, hg, _⟩ := Block.computeBlocks_ok (b := s.binTypeId) (M := maximum) (positive_sized hp)
  rw [hc] at h1
  cases h1
  have hbm : s.inst.binType s.binTypeId ∈ s.inst.binTypes := by
    unfold Instance.binType
    rw [List.getD_eq_getElem _ _ hbin]; exact List.getElem_mem hbin
  have hpos := hp.bins _ hbm
  have gx := largestSide_ge true hbm
  have gy := largestSide_ge false hbm
  simp only [if_true, Bool.false_eq_true, if_false] at gx gy
  refine ⟨hp, hbin, fun b hb => (hg b hb).inv, ⟨?_, ?_⟩, ?_, ?_⟩
  · rw [hx]; exact Int.natCast_nonneg _
  · have := (maxReachable_exact hp true (v := (s.inst.binType s.binTypeId).x.toNat) (by omega)).2.1
    rw [hx]
    show _ ≤ (s.inst.binType s.binTypeId).x
    omega
  · rw [hy]; exact Int.natCast_nonneg _
  · have := (maxReachable_exact hp false (v := (s.inst.binType s.binTypeId).y.toNat) (by omega)).2.1
    rw [hy]
    show _ ≤ (s.inst.binType s.binTypeId).y
    omega

/-- The calls by which a node is exported. -/
def exportOps (b : Nat) (items : List PlacedItem) : List BuilderOp :=
  .addBin b 1 :: items.map fun p => .addItem 0 p.itemTypeId p.x p.y p.rotate

theorem opsPacking_export (b : Nat) (items : List PlacedItem) :
    opsPacking (exportOps b items) = [⟨b, 1, items⟩] := by
  have key : ∀ (l done : List PlacedItem),
      (l.map fun p => BuilderOp.addItem 0 p.itemTypeId p.x p.y p.rotate).foldl opStep
        [⟨b, 1, done⟩] = [⟨b, 1, done ++ l⟩] := by
    intro l
    induction l with
    | nil => intro done; simp
    | cons p l ih =>
      intro done
      rw [List.map_cons, List.foldl_cons]
      have := ih (done ++ [p])
      rw [List.append_assoc] at this
      exact this
  exact key items []

theorem runOps_export {b : Nat} (hb : b < inst.numberOfBinTypes) {items : List PlacedItem}
    (hi : ∀ p ∈ items, p.itemTypeId < inst.numberOfItemTypes)
    (hr : ∀ p ∈ items, p.rotate = true → (inst.itemType p.itemTypeId).oriented = false) :
    ∃ sol, SolutionBuilder.runOps inst (exportOps b items) = .ok sol := by
  have key : ∀ (l : List PlacedItem) (sb : SolutionBuilder), 0 < sb.sol.bins.length →
      (∀ p ∈ l, p.itemTypeId < inst.numberOfItemTypes) →
      (∀ p ∈ l, p.rotate = true → (inst.itemType p.itemTypeId).oriented = false) →
      ∃ sb', (l.map fun p => BuilderOp.addItem 0 p.itemTypeId p.x p.y p.rotate).foldlM
        (SolutionBuilder.step inst) sb = .ok sb' := by
    intro l
    induction l with
    | nil => intro sb _ _ _; exact ⟨sb, rfl⟩
    | cons p l ih =>
      intro sb h0 h1 h2
      obtain ⟨sb1, e⟩ := builder_accepts sb 0 p.itemTypeId p.x p.y p.rotate h0 (h1 p (by simp))
        (h2 p (by simp))
      have hlen : sb1.sol.bins.length = sb.sol.bins.length := by
        unfold SolutionBuilder.addItem at e
        split_ifs at e
        cases e
        simp
      obtain ⟨sb', h⟩ := ih sb1 (by omega) (fun q hq => h1 q (List.mem_cons_of_mem _ hq))
        (fun q hq => h2 q (List.mem_cons_of_mem _ hq))
      refine ⟨sb', ?_⟩
      rw [List.map_cons, List.foldlM_cons]
      exact bind_ok.mpr ⟨sb1, e, h⟩
  obtain ⟨sb0, e0⟩ : ∃ sb0, (SolutionBuilder.new inst).addBin inst b 1 = .ok sb0 := by
    unfold SolutionBuilder.addBin
    rw [if_pos hb]
    exact ⟨_, rfl⟩
  have hlen : 0 < sb0.sol.bins.length := by
    unfold SolutionBuilder.addBin at e0
    rw [if_pos hb] at e0
    cases e0
    simp
  obtain ⟨sb, h⟩ := key items sb0 hlen hi hr
  have hall : (exportOps b items).foldlM (SolutionBuilder.step inst) (SolutionBuilder.new inst)
      = .ok sb := by
    unfold exportOps
    rw [List.foldlM_cons]
    exact bind_ok.mpr ⟨sb0, e0, h⟩
  have hraw := raw_ops _ sb hall
  rw [opsPacking_export] at hraw
  obtain ⟨sol, h2⟩ := build_succeeds hraw (by
    intro k hk
    rw [List.mem_singleton.mp hk]
    exact ⟨hb, hi⟩)
  exact ⟨sol, bind_ok.mpr ⟨sb, hall, h2⟩⟩

/-- What the invariant says of the items. -/
theorem inv_items (hc : Ctx s) (h : Inv s n) :
    BinPacking s.inst s.binTypeId (placedItems s n) ∧ AvoidsDefects s.inst s.binTypeId (placedItems s n)
    ∧ WithinCopies s.inst (placedItems s n)
    ∧ ∀ p ∈ placedItems s n, Inside s.binX s.binY (occupies s.inst p) := by
  rw [placedItems_eq]
  have hmem : ∀ p ∈ itemsAt s n.placedBlocks, ∃ b ∈ n.placedBlocks, ∃ it ∈ (s.block b.1).items,
      p = Block.shift b.2.1 b.2.2 it := by
    intro p hp
    obtain ⟨b, hb, hp⟩ := List.mem_flatMap.mp hp
    obtain ⟨it, hit, rfl⟩ := List.mem_map.mp hp
    exact ⟨b, hb, it, hit, rfl⟩
  have hin : ∀ b ∈ n.placedBlocks, ∀ it ∈ (s.block b.1).items,
      Within (occupies s.inst (Block.shift b.2.1 b.2.2 it))
        ⟨b.2.1, b.2.2, (s.block b.1).x, (s.block b.1).y⟩ := by
    intro b hb it hit
    have := (hc.block (h.ids b hb)).inside it hit
    rw [Block.occupies_shift]
    unfold Inside at this
    unfold Within
    dsimp only
    omega
  have hclip : ∀ p ∈ itemsAt s n.placedBlocks, Inside s.binX s.binY (occupies s.inst p) := by
    intro p hp
    obtain ⟨b, hb, it, hit, rfl⟩ := hmem p hp
    exact (hin b hb it hit).inside (h.inside b hb)
  refine ⟨⟨?_, ?_, ?_, ?_⟩, ?_, h.within, hclip⟩
  · exact itemsAt_exist hc h.ids
  · intro p hp
    obtain ⟨b, hb, it, hit, rfl⟩ := hmem p hp
    exact (hc.block (h.ids b hb)).rotation it hit
  · intro p hp
    have h1 := hclip p hp
    have h2 := hc.binX.2
    have h3 := hc.binY.2
    unfold Scheme.binType at h2 h3
    unfold Inside at h1 ⊢
    omega
  · unfold itemsAt
    rw [List.pairwise_flatMap]
    constructor
    · intro b hb
      rw [List.pairwise_map]
      refine (hc.block (h.ids b hb)).separated.imp ?_
      intro p q hpq
      exact Block.separated_shift hpq
    · refine List.Pairwise.imp_of_mem ?_ h.sep
      intro b c hb hcm hbc p hp q hq
      obtain ⟨it, hit, rfl⟩ := List.mem_map.mp hp
      obtain ⟨it', hit', rfl⟩ := List.mem_map.mp hq
      have h1 := hin b hb it hit
      have h2 := hin c hcm it' hit'
      unfold Separated rectOf at hbc
      unfold Separated
      unfold Within at h1 h2
      dsimp only at h1 h2 hbc
      omega
  · intro p hp d hd
    obtain ⟨b, hb, it, hit, rfl⟩ := hmem p hp
    exact (hin b hb it hit).separated (h.defects b hb d hd)

theorem export_ok (hc : Ctx s) (h : Inv s n) (guide : Node → Nat → ℚ) :
    ∃ g sol, greedy s guide n = some g ∧ Inv s g ∧ bestInsertion s guide g = none
      ∧ n.placedBlocks <+: g.placedBlocks
      ∧ toSolution s guide n = .ok sol ∧ Reachable s.inst sol
      ∧ packingOf sol = [⟨s.binTypeId, 1, placedItems s g⟩] := by
  obtain ⟨g, h1, h2, h3, h4⟩ := greedy_ok hc guide h
  obtain ⟨hp, _⟩ := inv_items hc h2
  obtain ⟨sol, hs⟩ := runOps_export hc.bin hp.exist hp.rotation
  refine ⟨g, sol, h1, h2, h3, h4, ?_, .built _ sol hs, ?_⟩
  · unfold toSolution
    rw [h1]
    exact hs
  · rw [(builder_packing hs).1, opsPacking_export]

/-! ## Leaves -/

theorem range_map_sum (N : Nat) (f : Nat → ℚ) :
    ((List.range N).map f).sum = ∑ j ∈ Finset.range N, f j := by
  rw [Finset.sum_range, ← List.sum_ofFn]
  congr 1
  apply List.ext_getElem <;> simp

theorem leaf_all (hb : InstanceBuilder.runOps ops = .ok s.inst) (hc : Ctx s) (h : Inv s n)
    (hl : leaf s n = true) {i : Nat} (hi : i < s.inst.numberOfItemTypes) :
    count (placedItems s n) i = (s.inst.itemType i).copies := by
  have hex := (inv_items hc h).1.exist
  have hw := (inv_items hc h).2.2.1
  unfold leaf at hl
  rw [decide_eq_true_eq, h.number, ← placedItems_eq, (build_aggregates hb).numberOfItems,
    TreeSearch.sum_types] at hl
  have e := DffLemmas.sum_by_type_rat (placedItems s n) s.inst.numberOfItemTypes (fun _ => 1) hex

  have e2 : ((placedItems s n).length : Int)
      = ∑ j ∈ Finset.range s.inst.numberOfItemTypes, count (placedItems s n) j := by
    have : (((placedItems s n).length : Int) : ℚ)
        = ((∑ j ∈ Finset.range s.inst.numberOfItemTypes, count (placedItems s n) j : Int) : ℚ) := by
      push_cast
      rw [List.map_const', List.sum_replicate] at e
      rw [range_map_sum] at e
      simpa using e
    exact_mod_cast this
  rw [e2] at hl
  exact (Finset.sum_eq_sum_iff_of_le fun j hj => hw j (Finset.mem_range.mp hj)).mp hl i
    (Finset.mem_range.mpr hi)

theorem profit_mono {items items' : List PlacedItem}
    (h1 : ∀ p ∈ items, p.itemTypeId < inst.numberOfItemTypes)
    (h2 : ∀ p ∈ items', p.itemTypeId < inst.numberOfItemTypes)
    (hp : ∀ t ∈ inst.itemTypes, 0 ≤ t.profit)
    (hle : ∀ i, i < inst.numberOfItemTypes → count items i ≤ count items' i) :
    itemsProfit inst items ≤ itemsProfit inst items' := by
  unfold itemsProfit
  rw [DffLemmas.sum_by_type_rat items inst.numberOfItemTypes (fun i => (inst.itemType i).profit) h1,
    DffLemmas.sum_by_type_rat items' inst.numberOfItemTypes (fun i => (inst.itemType i).profit) h2]
  apply List.sum_le_sum
  intro i hi
  have hi := List.mem_range.mp hi
  refine mul_le_mul_of_nonneg_right (by exact_mod_cast hle i hi) (hp _ ?_)
  unfold Instance.itemType
  rw [List.getD_eq_getElem _ _ hi]
  exact List.getElem_mem hi

/-! ## The value of a node is not used by the search -/

theorem apply_value (s : Scheme) (n : Node) (i : Insertion) (v : ℚ) :
    applyInsertion s { n with greedyValue := v } i = { applyInsertion s n i with greedyValue := v } := by
  have key : ∀ (l : List (Nat × Int)) (n : Node),
      addCopies s { n with greedyValue := v } l = { addCopies s n l with greedyValue := v } := by
    intro l
    induction l with
    | nil => intro n; rfl
    | cons a l ih =>
      intro n
      unfold addCopies at ih ⊢
      rw [List.foldl_cons, List.foldl_cons]
      exact ih { n with
        itemNumberOfCopies := addAt n.itemNumberOfCopies a.1 a.2
        profit := n.profit + (s.inst.itemType a.1).profit * (a.2 : ℚ) }
  unfold applyInsertion
  dsimp only
  rw [key]
  rfl

theorem greedyLoop_value (s : Scheme) {guide : Node → Nat → ℚ} (v : ℚ)
    (hg : ∀ m, guide { m with greedyValue := v } = guide m) : ∀ (k : Nat) (n : Node),
    greedyLoop s guide k { n with greedyValue := v }
      = (greedyLoop s guide k n).map fun g => { g with greedyValue := v }
  | 0, n => rfl
  | k + 1, n => by
    unfold greedyLoop
    have e : bestInsertion s guide { n with greedyValue := v } = bestInsertion s guide n := by
      unfold bestInsertion
      rw [hg]
      rfl
    rw [e]
    cases hb : bestInsertion s guide n with
    | none => rfl
    | some i =>
      dsimp only
      rw [apply_value]
      exact greedyLoop_value s v hg k _

end PackingSolver.Rect.MaximalSpaces
