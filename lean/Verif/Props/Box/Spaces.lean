import Verif.Lemmas.Box.SpacesExport

/-!
# The search over maximal spaces of boxes (C103, C104, C105)
-/

namespace PackingSolver.Box.MaximalSpaces

open Box.Spec
open Box.MaximalSpaces.Spec (Reached Descends IgnoresValue itemsOf)

variable {ops : List InstanceBuilder.Op} {inst : Instance} {maximum : Nat} {s : Scheme} {n : Node}
  {guide : Node → Nat → ℚ} {sol : Solution}

/-! ## C103: what the search exports is a valid packing -/

/-- The search can be set up for every instance with a bin. -/
theorem spaces_setup (hp : Positive inst) (h : inst.binTypeIds ≠ []) (maximum : Nat) :
    ∃ s, makeScheme inst maximum = .ok s := by
  unfold makeScheme
  cases hb : inst.binTypeIds with
  | nil => exact absurd hb h
  | cons b r =>
    obtain ⟨l, hl, _⟩ := blocks_total hp b maximum
    exact ⟨_, bind_ok.mpr ⟨l, hl, rfl⟩⟩

/-- Every insertion offered in a reached node makes a child, whatever the fitness. -/
theorem spaces_child_total (hb : InstanceBuilder.runOps .default ops = .ok inst) (hp : Positive inst)
    (hs : makeScheme inst maximum = .ok s) (hn : Reached s n) {i : Insertion}
    (hi : i ∈ insertions s n) (guide : Node → Nat → ℚ) : ∃ n', child s guide n i = .ok n' :=
  child_ok (ctx_of_scheme hb hp hs) guide (inv_reached (ctx_of_scheme hb hp hs) hn) hi

/-- Every node a search reaches can be turned into a solution, whatever the fitness.  The solution
has been obtained with the public operations.  It has one bin, the first one of the instance.  The
items exist, are rotated only as allowed, lie in the bin, do not overlap, respect the maximum weight
and the numbers of copies.  If the bin has no hard resource, resources are respected. -/
theorem spaces_export_valid_partial (hb : InstanceBuilder.runOps .default ops = .ok inst) (hp : Positive inst)
    (hs : makeScheme inst maximum = .ok s) (hn : Reached s n) (guide : Node → Nat → ℚ) :
    ∃ sol, toSolution s guide n = .ok sol ∧ Reachable inst sol
      ∧ ∃ b r items, inst.binTypeIds = b :: r ∧ packingOf sol = [⟨b, 1, items⟩]
        ∧ BinPacking inst b items ∧ WithinCopies inst items
        ∧ (items ≠ [] → ∀ m, (inst.binType b).maximumWeight = .fin m → binWeight inst items ≤ m)
        ∧ ((∀ m, (inst.binType b).maximumWeight = .fin m → 0 ≤ m) → BinValid inst b items)
        ∧ ((∀ r ∈ (inst.binType b).resources, r.penalize = true) →
          ResourcesRespected inst b items) := by
  have hc := ctx_of_scheme hb hp hs
  obtain ⟨rfl, ⟨r, hr⟩, -⟩ := makeScheme_fields hs
  obtain ⟨g, sol, -, h2, -, -, h5, h6, h7⟩ := export_ok hc (inv_reached hc hn) guide
  obtain ⟨i1, i3, -⟩ := inv_items hc h2
  have hw : placedItems s g ≠ [] → ∀ m, (s.inst.binType s.binTypeId).maximumWeight = .fin m →
      binWeight s.inst (placedItems s g) ≤ m := by
    intro hne m hm
    rw [placedItems_eq] at hne ⊢
    rw [← h2.weight]
    refine h2.weightLe ?_ m hm
    intro e
    rw [e] at hne
    exact hne rfl
  refine ⟨sol, h5, h6, s.binTypeId, r, _, hr, h7, i1, i3, hw, fun hm => ⟨i1, ?_⟩, fun hres => ?_⟩
  · intro hne m e
    have h1 := hw hne m e
    have h2 := hm m e
    have : m ≤ m * (1 + 1 / 10 ^ 9) := by
      rw [mul_add, mul_one]
      have : 0 ≤ m * (1 / 10 ^ 9) := mul_nonneg h2 (by norm_num)
      linarith
    linarith
  · intro q hq h0
    rw [hres q hq] at h0
    cases h0

/-- The totals kept in a reached node are those of the items it has placed. -/
theorem spaces_totals (hb : InstanceBuilder.runOps .default ops = .ok inst) (hp : Positive inst)
    (hs : makeScheme inst maximum = .ok s) (hn : Reached s n) :
    n.numberOfItems = ((placedItems s n).length : Int)
    ∧ n.itemVolume = ((placedItems s n).map fun p => volumeOf (inst.itemType p.itemTypeId).box).sum
    ∧ n.weight = binWeight inst (placedItems s n)
    ∧ n.profit = itemsProfit inst (placedItems s n)
    ∧ ∀ i, i < inst.numberOfItemTypes →
      n.itemNumberOfCopies[i]? = some (count (placedItems s n) i) := by
  have hc := ctx_of_scheme hb hp hs
  obtain ⟨rfl, -⟩ := makeScheme_fields hs
  have h := inv_reached hc hn
  rw [placedItems_eq]
  refine ⟨h.number, h.itemVolume, h.weight, h.profit, fun i hi => ?_⟩
  have hl : i < n.itemNumberOfCopies.length := by rw [h.len]; exact hi
  rw [List.getElem?_eq_getElem hl, ← h.cnt i hi, List.getD_eq_getElem _ _ hl]

/-- The items a node has placed are the first ones of the solution it is exported to. -/
theorem spaces_export_keeps (hb : InstanceBuilder.runOps .default ops = .ok inst) (hp : Positive inst)
    (hs : makeScheme inst maximum = .ok s) (hn : Reached s n)
    (h : toSolution s guide n = .ok sol) : placedItems s n <+: itemsOf (packingOf sol) := by
  have hc := ctx_of_scheme hb hp hs
  obtain ⟨g, sol', -, -, -, h4, h5, -, h7⟩ := export_ok hc (inv_reached hc hn) guide
  rw [h] at h5
  cases h5
  rw [h7, placedItems_eq]
  obtain ⟨t, ht⟩ := h4
  show _ <+: (placedItems s g ++ [])
  rw [List.append_nil, placedItems_eq, ← ht]
  unfold itemsAt
  rw [List.flatMap_append]
  exact List.prefix_append _ _

/-- A node that counts as complete has placed all copies of all items. -/
theorem spaces_leaf_all (hb : InstanceBuilder.runOps .default ops = .ok inst) (hp : Positive inst)
    (hs : makeScheme inst maximum = .ok s) (hn : Reached s n) :
    leaf s n = true ↔ ∀ i, i < inst.numberOfItemTypes →
      count (placedItems s n) i = (inst.itemType i).copies := by
  have hc := ctx_of_scheme hb hp hs
  obtain ⟨rfl, -⟩ := makeScheme_fields hs
  have h := inv_reached hc hn
  refine ⟨fun hl i hi => leaf_all hb hc h hl hi, fun hall => ?_⟩
  have hex := (inv_items hc h).1.exist
  have e := DffLemmas.sum_by_type_rat (placedItems s n) s.inst.numberOfItemTypes (fun _ => 1) hex
  unfold leaf
  rw [decide_eq_true_eq, h.number, ← placedItems_eq, (instance_aggregates hb).numberOfItems,
    TreeSearch.sum_types]
  rw [range_map_sum, List.map_const', List.sum_replicate] at e
  have e2 : (((placedItems s n).length : Int) : ℚ)
      = ((∑ j ∈ Finset.range s.inst.numberOfItemTypes, (s.inst.itemType j).copies : Int) : ℚ) := by
    push_cast
    have e3 : ∑ j ∈ Finset.range s.inst.numberOfItemTypes, ((s.inst.itemType j).copies : ℚ)
        = ∑ j ∈ Finset.range s.inst.numberOfItemTypes, (count (placedItems s n) j : ℚ) * 1 := by
      apply Finset.sum_congr rfl
      intro j hj
      rw [hall j (Finset.mem_range.mp hj), mul_one]
    rw [e3, ← e]
    simp
  exact_mod_cast e2

/-! ## C104: values, comparison, cuts -/

/-- The value of a child is the total profit of the items of the solution it is exported to, if the
fitness is the same at both times. -/
theorem spaces_value (hb : InstanceBuilder.runOps .default ops = .ok inst) (hp : Positive inst)
    (hs : makeScheme inst maximum = .ok s) (hn : Reached s n) {i : Insertion} {n' : Node}
    (hi : i ∈ insertions s n) (hg : IgnoresValue guide) (hc : child s guide n i = .ok n')
    (h : toSolution s guide n' = .ok sol) :
    n'.greedyValue = itemsProfit inst (itemsOf (packingOf sol)) := by
  have hx := ctx_of_scheme hb hp hs
  obtain ⟨rfl, -⟩ := makeScheme_fields hs
  obtain ⟨g, sol', h1, h2, -, -, h5, -, h7⟩ := export_ok hx (inv_reached hx (.child hn hi hc)) guide
  rw [h] at h5
  cases h5
  rw [h7]
  show _ = itemsProfit s.inst (placedItems s g ++ [])
  rw [List.append_nil, placedItems_eq, ← h2.profit]
  unfold child at hc
  dsimp only at hc
  cases hm : greedy s guide (applyInsertion s n i) with
  | none => rw [hm] at hc; cases hc
  | some g' =>
    rw [hm] at hc
    cases hc
    unfold greedy at h1 hm
    rw [greedyLoop_value s _ (fun m => hg m _), hm] at h1
    cases h1
    rfl

/-- With the objectives the search supports, a child is better than another one if the solution it
is exported to has a greater total profit. -/
theorem spaces_better (hb : InstanceBuilder.runOps .default ops = .ok inst) (hp : Positive inst)
    (hs : makeScheme inst maximum = .ok s)
    (ho : inst.objective = .knapsack ∨ inst.objective = .feasibility)
    {n₁ n₂ m₁ m₂ : Node} {i₁ i₂ : Insertion} {sol₁ sol₂ : Solution}
    (hn₁ : Reached s n₁) (hn₂ : Reached s n₂) (hi₁ : i₁ ∈ insertions s n₁)
    (hi₂ : i₂ ∈ insertions s n₂) (hg : IgnoresValue guide) (hc₁ : child s guide n₁ i₁ = .ok m₁)
    (hc₂ : child s guide n₂ i₂ = .ok m₂) (h₁ : toSolution s guide m₁ = .ok sol₁)
    (h₂ : toSolution s guide m₂ = .ok sol₂) :
    better s m₁ m₂ = .ok (decide (itemsProfit inst (itemsOf (packingOf sol₂))
      < itemsProfit inst (itemsOf (packingOf sol₁)))) := by
  rw [← spaces_value hb hp hs hn₁ hi₁ hg hc₁ h₁, ← spaces_value hb hp hs hn₂ hi₂ hg hc₂ h₂]
  obtain ⟨rfl, -⟩ := makeScheme_fields hs
  unfold better
  rcases ho with ho | ho <;> rw [ho]

/-- The other objectives are refused. -/
theorem spaces_unsupported (hs : makeScheme inst maximum = .ok s) (n₁ n₂ : Node) :
    (better s n₁ n₂ = .error .logicError ↔ inst.objective ≠ .knapsack ∧ inst.objective ≠ .feasibility)
    ∧ (bound s n₁ n₂ = .error .logicError
      ↔ inst.objective ≠ .knapsack ∧ inst.objective ≠ .feasibility) := by
  obtain ⟨rfl, -⟩ := makeScheme_fields hs
  unfold better bound
  cases s.inst.objective <;> simp

/-- If no profit is negative and a node is cut because of another one, nothing is lost: no
packing within the numbers of copies has a greater total profit than the solution the other one is
exported to. -/
theorem spaces_bound (hb : InstanceBuilder.runOps .default ops = .ok inst) (hp : Positive inst)
    (hs : makeScheme inst maximum = .ok s) (hpr : ∀ t ∈ inst.itemTypes, 0 ≤ t.profit)
    {n₁ n₂ : Node} (hn : Reached s n₂) (hbd : bound s n₁ n₂ = .ok true)
    (h : toSolution s guide n₂ = .ok sol) {items : List PlacedItem}
    (h1 : ∀ p ∈ items, p.itemTypeId < inst.numberOfItemTypes) (h2 : WithinCopies inst items) :
    itemsProfit inst items ≤ itemsProfit inst (itemsOf (packingOf sol)) := by
  have hl : leaf s n₂ = true := by
    unfold bound at hbd
    split at hbd
    · exact Except.ok.inj hbd
    · exact Except.ok.inj hbd
    · cases hbd
  have hx := ctx_of_scheme hb hp hs
  have hall := (spaces_leaf_all hb hp hs hn).mp hl
  obtain ⟨t, ht⟩ := spaces_export_keeps hb hp hs hn h
  obtain ⟨rfl, -⟩ := makeScheme_fields hs
  obtain ⟨g, sol', -, g2, -, -, g5, -, g7⟩ := export_ok hx (inv_reached hx hn) guide
  rw [h] at g5
  cases g5
  have hex : ∀ p ∈ itemsOf (packingOf sol), p.itemTypeId < s.inst.numberOfItemTypes := by
    rw [g7]
    show ∀ p ∈ placedItems s g ++ [], _
    rw [List.append_nil]
    exact (inv_items hx g2).1.exist
  refine profit_mono h1 hex hpr fun i hi => ?_
  have e := hall i hi
  have : count (placedItems s n₂) i ≤ count (itemsOf (packingOf sol)) i := by
    rw [← ht]
    unfold count
    rw [List.countP_append]
    omega
  have := h2 i hi
  omega

/-! ## C105: nothing more fits -/

/-- With at most three item types (no waste in blocks), no maximum weight and a positive fitness,
no further item fits into the solution a node is exported to, in the part of the bin bounded by
lengths that items put side by side can attain. -/
theorem spaces_maximal_partial (hb : InstanceBuilder.runOps .default ops = .ok inst) (hp : Positive inst)
    (hs : makeScheme inst maximum = .ok s) (hn : Reached s n)
    (h3 : inst.numberOfItemTypes ≤ 3) (hM : 6 * inst.numberOfItemTypes ≤ maximum)
    (hw : ∀ t ∈ inst.binTypes, t.maximumWeight = .inf) (hg : ∀ m b, 0 < guide m b)
    (h : toSolution s guide n = .ok sol) :
    ∃ b items, packingOf sol = [⟨b, 1, items⟩]
      ∧ ∀ D : Dims, (∀ d, D.along d ≤ (inst.binType b).box.along d ∧ Attained inst d (D.along d)) →
        ∀ p : PlacedItem, Inside D (occupies inst p) → BinPacking inst b (items ++ [p]) →
          ¬ WithinCopies inst (items ++ [p]) := by
  have hx := ctx_of_scheme hb hp hs
  obtain ⟨rfl, ⟨r, hr⟩, hbl, ex⟩ := makeScheme_fields hs
  have hbin := (bin_of_ids hb hr).1
  have hbm : s.inst.binType s.binTypeId ∈ s.inst.binTypes := by
    unfold Instance.binType
    rw [List.getD_eq_getElem _ _ hbin]; exact List.getElem_mem hbin
  obtain ⟨g, sol', g1, g2, g3, -, g5, -, g7⟩ := export_ok hx (inv_reached hx hn) guide
  rw [h] at g5
  cases g5
  refine ⟨_, _, g7, ?_⟩
  intro D hD p hin hpk hwc
  have hu : Usable s g := usable_greedy _ (usable_reached hn) g1
  have hi := bestInsertion_none (fun b _ => hg g b) g3
  have hpi := hpk.exist p (by simp)
  have hpos := positive_item hp hpi
  have q1 : Inside s.binBox (occupies s.inst p) := by
    have hpb := hp.bins _ hbm
    have key : ∀ d, D.along d ≤ s.binBox.along d := by
      intro d
      have g := largestSide_ge d hbm
      have hpd : 0 < (s.inst.binType s.binTypeId).box.along d := by
        cases d
        · exact hpb.1
        · exact hpb.2.1
        · exact hpb.2.2
      have hle : D.along d ≤ (s.inst.binType s.binTypeId).box.along d := (hD d).1
      have := (maxReachable_exact hp d (v := ((s.inst.binType s.binTypeId).box.along d).toNat)
        (by omega)).2.2 (D.along d) (by omega) (hD d).2
      rw [ex]
      exact this
    have kx : D.x ≤ s.binBox.x := key .x
    have ky : D.y ≤ s.binBox.y := key .y
    have kz : D.z ≤ s.binBox.z := key .z
    unfold Inside at hin ⊢
    omega
  have hsides : ∀ q : PlacedItem, q.itemTypeId < s.inst.numberOfItemTypes →
      0 < (occupies s.inst q).dx ∧ 0 < (occupies s.inst q).dy ∧ 0 < (occupies s.inst q).dz := by
    intro q hq
    exact ⟨positive_length hp hq q.rotation .x, positive_length hp hq q.rotation .y,
      positive_length hp hq q.rotation .z⟩
  have hsep : ∀ q ∈ placedItems s g, Separated (occupies s.inst p) (occupies s.inst q) := by
    intro q hq
    have := (List.pairwise_append.mp hpk.separated).2.2 q hq p (by simp)
    unfold Separated at this ⊢
    omega
  have q2 : ∀ b ∈ g.placedBlocks, Separated (occupies s.inst p) (rectOf s b) := by
    intro b hbk
    have hid := g2.ids b hbk
    refine separated_block (hx.block hid) (fun q hq => hsides q ((hx.block hid).exist q hq)) ?_
      (hsides p hpi).1 (hsides p hpi).2.1 (hsides p hpi).2.2 ?_
    · apply computeBlocks_full h3 hbl
      unfold Scheme.block
      rw [List.getD_eq_getElem _ _ hid]
      exact List.getElem_mem hid
    · intro q hq
      apply hsep
      rw [placedItems_eq]
      exact List.mem_flatMap.mpr ⟨b, hbk, hq⟩
  have hcnt : count (placedItems s g) p.itemTypeId + 1 ≤ (s.inst.itemType p.itemTypeId).copies := by
    have := hwc p.itemTypeId hpi
    unfold count at this ⊢
    rw [List.countP_append] at this
    simp only [List.countP_singleton, decide_true, if_true] at this
    omega
  have hc0 : 0 ≤ count (placedItems s g) p.itemTypeId := by unfold count; omega
  have hxy := hin
  unfold Inside at hxy
  have hbx := inside_axis.mp (hpk.inside p (by simp))
  obtain ⟨c, hc, cx, p', cp, ci, -⟩ := blocks_single_partial hp hbl hM hpi (by omega)
    (hpk.rotation p (by simp)) (r := p.rotation) (by
      intro d
      have := hbx d
      unfold len at this
      omega)
  obtain ⟨k, hk, ek⟩ := List.getElem_of_mem hc
  have ek' : s.block k = c := by
    unfold Scheme.block
    rw [List.getD_eq_getElem _ _ hk, ek]
  refine exhausted hx g2 hu (hw _ hbm) hi q1 q2 (b := k) ((g2.valid k).mpr ⟨hk, ?_⟩) ?_ ?_ ?_
  · intro e he
    have hl := ((hx.block hk).listed e.1 e.2).mp he
    rw [ek', cp] at hl
    have : e.1 = p.itemTypeId := by
      by_contra hne
      have : count [p'] e.1 = 0 := by
        unfold count
        rw [List.countP_singleton, ci]
        simp [Ne.symm hne]
      omega
    have h1 : count [p'] e.1 = 1 := by
      unfold count
      rw [List.countP_singleton, ci, this]
      simp
    rw [this, ← placedItems_eq]
    omega
  · rw [ek', cx]; exact le_refl _
  · rw [ek', cx]; exact le_refl _
  · rw [ek', cx]; exact le_refl _

end PackingSolver.Box.MaximalSpaces
