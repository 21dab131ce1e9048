import Verif.Lemmas.Bulk
import Verif.Props.Rect.Build

/-!
# C88: setting a field of all types of a rectangle instance
-/

namespace PackingSolver.Rect

open InstanceBuilder PackingSolver.BulkLemmas
open PackingSolver.Spec (IsLeastCover Row)
open PackingSolver.OneDim (getD_mem)

variable {ops : List Op} {inst : Instance} {b b' : InstanceBuilder}

theorem bulk_step {op : Op} (hb : ops.foldlM step new = .ok b) (h : step b op = .ok b') :
    (ops ++ [op]).foldlM step new = .ok b' :=
  foldlM_snoc_ok.mpr ⟨b, hb, h⟩

/-- **C88**: after `set_bin_types_infinite_x` and `build`, any choice of items, each along any of its
sides, fits side by side along the x axis in every bin; the length is the total of the longest
sides, and the other sides of the bins are those set. -/
theorem bulk_infinite_x (hb : ops.foldlM step new = .ok b)
    (h : b.setBinTypesInfiniteX.build = .ok inst) {r : Row}
    (hr : r.Valid inst.numberOfItemTypes (fun i => (inst.itemType i).copies)
      (fun i => [(inst.itemType i).x, (inst.itemType i).y])) :
    ∀ t < inst.numberOfBinTypes, r.length ≤ (inst.binType t).x
      ∧ (inst.binType t).x = (inst.itemTypes.map fun t => t.copies * max t.x t.y).sum
      ∧ (inst.binType t).y = (b.inst.binType t).y := by
  intro t ht
  have hb' : (ops ++ [Op.setBinTypesInfiniteX]).foldlM step new = .ok _ := bulk_step hb rfl
  have hF := fresh_ops hb
  obtain ⟨-, hn, hi, hnb, hbt⟩ := build_preserved hb' h
  have hn' : inst.itemTypes.length = b.inst.itemTypes.length := hn
  have hsame : ∀ i < inst.itemTypes.length, (inst.itemType i).x = (b.inst.itemType i).x
      ∧ (inst.itemType i).y = (b.inst.itemType i).y
      ∧ (inst.itemType i).copies = (b.inst.itemType i).copies := by
    intro i hi2
    have e1 := congrArg ItemType.x (hi i hi2)
    have e2 := congrArg ItemType.y (hi i hi2)
    have e3 := congrArg ItemType.copies (hi i hi2)
    exact ⟨e1, e2, e3⟩
  have hcost : (inst.itemTypes.map fun t => t.copies * max t.x t.y).sum
      = itemTypesMaxLengthSum b.inst := by
    unfold itemTypesMaxLengthSum
    rw [foldl_add_int, zero_add]
    congr 1
    apply List.ext_getElem
    · simpa using hn'
    · intro i h1 h2
      simp only [List.getElem_map]
      rw [List.length_map] at h1 h2
      have e := hsame i h1
      unfold Instance.itemType at e
      rw [List.getD_eq_getElem _ _ h1, List.getD_eq_getElem _ _ h2] at e
      rw [e.1, e.2.1, e.2.2]
  have hbin : (inst.binType t).x = itemTypesMaxLengthSum b.inst ∧ (inst.binType t).y = (b.inst.binType t).y := by
    have hget : b.setBinTypesInfiniteX.inst.binType t
        = { b.inst.binType t with x := itemTypesMaxLengthSum b.inst } := by
      have ht' : t < b.inst.binTypes.length := by
        have : inst.numberOfBinTypes = b.setBinTypesInfiniteX.inst.binTypes.length := hnb
        rw [this] at ht
        simpa [setBinTypesInfiniteX] using ht
      unfold Instance.binType setBinTypesInfiniteX
      rw [List.getD_eq_getElem _ _ (by simpa using ht'), List.getD_eq_getElem _ _ ht',
        List.getElem_map]
    have e := hbt t ht
    rw [hget] at e
    have e1 := congrArg BinType.x e
    have e2 := congrArg BinType.y e
    exact ⟨e1, e2⟩
  refine ⟨?_, hbin.1.trans hcost.symm, hbin.2⟩
  rw [hbin.1, ← hcost]
  refine row_le inst.itemTypes default (·.copies) (fun t => max t.x t.y) r
    (fun i => [(inst.itemType i).x, (inst.itemType i).y]) hr ?_ ?_
  · intro u hu
    have := (build_sizes_partial (ops := ops ++ [.setBinTypesInfiniteX])
      (by unfold runOps; rw [hb']; exact h)).items u hu
    omega
  · intro i _ s hs
    change s ≤ max (inst.itemType i).x (inst.itemType i).y
    simp only [List.mem_cons, List.not_mem_nil, or_false] at hs
    rcases hs with rfl | rfl <;> omega

/-- **C88**: after `set_bin_types_infinite_y` and `build`, any choice of items, each along any of its
sides, fits side by side along the y axis in every bin; the length is the total of the longest
sides, and the other sides of the bins are those set. -/
theorem bulk_infinite_y (hb : ops.foldlM step new = .ok b)
    (h : b.setBinTypesInfiniteY.build = .ok inst) {r : Row}
    (hr : r.Valid inst.numberOfItemTypes (fun i => (inst.itemType i).copies)
      (fun i => [(inst.itemType i).x, (inst.itemType i).y])) :
    ∀ t < inst.numberOfBinTypes, r.length ≤ (inst.binType t).y
      ∧ (inst.binType t).y = (inst.itemTypes.map fun t => t.copies * max t.x t.y).sum
      ∧ (inst.binType t).x = (b.inst.binType t).x := by
  intro t ht
  have hb' : (ops ++ [Op.setBinTypesInfiniteY]).foldlM step new = .ok _ := bulk_step hb rfl
  have hF := fresh_ops hb
  obtain ⟨-, hn, hi, hnb, hbt⟩ := build_preserved hb' h
  have hn' : inst.itemTypes.length = b.inst.itemTypes.length := hn
  have hsame : ∀ i < inst.itemTypes.length, (inst.itemType i).x = (b.inst.itemType i).x
      ∧ (inst.itemType i).y = (b.inst.itemType i).y
      ∧ (inst.itemType i).copies = (b.inst.itemType i).copies := by
    intro i hi2
    have e1 := congrArg ItemType.x (hi i hi2)
    have e2 := congrArg ItemType.y (hi i hi2)
    have e3 := congrArg ItemType.copies (hi i hi2)
    exact ⟨e1, e2, e3⟩
  have hcost : (inst.itemTypes.map fun t => t.copies * max t.x t.y).sum
      = itemTypesMaxLengthSum b.inst := by
    unfold itemTypesMaxLengthSum
    rw [foldl_add_int, zero_add]
    congr 1
    apply List.ext_getElem
    · simpa using hn'
    · intro i h1 h2
      simp only [List.getElem_map]
      rw [List.length_map] at h1 h2
      have e := hsame i h1
      unfold Instance.itemType at e
      rw [List.getD_eq_getElem _ _ h1, List.getD_eq_getElem _ _ h2] at e
      rw [e.1, e.2.1, e.2.2]
  have hbin : (inst.binType t).y = itemTypesMaxLengthSum b.inst ∧ (inst.binType t).x = (b.inst.binType t).x := by
    have hget : b.setBinTypesInfiniteY.inst.binType t
        = { b.inst.binType t with y := itemTypesMaxLengthSum b.inst } := by
      have ht' : t < b.inst.binTypes.length := by
        have : inst.numberOfBinTypes = b.setBinTypesInfiniteY.inst.binTypes.length := hnb
        rw [this] at ht
        simpa [setBinTypesInfiniteY] using ht
      unfold Instance.binType setBinTypesInfiniteY
      rw [List.getD_eq_getElem _ _ (by simpa using ht'), List.getD_eq_getElem _ _ ht',
        List.getElem_map]
    have e := hbt t ht
    rw [hget] at e
    have e1 := congrArg BinType.x e
    have e2 := congrArg BinType.y e
    exact ⟨e2, e1⟩
  refine ⟨?_, hbin.1.trans hcost.symm, hbin.2⟩
  rw [hbin.1, ← hcost]
  refine row_le inst.itemTypes default (·.copies) (fun t => max t.x t.y) r
    (fun i => [(inst.itemType i).x, (inst.itemType i).y]) hr ?_ ?_
  · intro u hu
    have := (build_sizes_partial (ops := ops ++ [.setBinTypesInfiniteY])
      (by unfold runOps; rw [hb']; exact h)).items u hu
    omega
  · intro i _ s hs
    change s ≤ max (inst.itemType i).x (inst.itemType i).y
    simp only [List.mem_cons, List.not_mem_nil, or_false] at hs
    rcases hs with rfl | rfl <;> omega

/-- **C88**: after `set_item_types_infinite_copies` and `build`, the copies of each item type are the
fewest whose total area reaches that of every bin (if there is a bin of positive area): no bin can
hold more of them. -/
theorem bulk_infinite_item_copies (hb : ops.foldlM step new = .ok b)
    (hc : b.setItemTypesInfiniteCopies = .ok b') (h : b'.build = .ok inst)
    (hbin : ∃ t ∈ inst.binTypes, 0 < t.x * t.y) :
    ∀ i < inst.numberOfItemTypes, IsLeastCover (inst.binTypes.map fun t => t.x * t.y)
      ((inst.itemType i).x * (inst.itemType i).y) (inst.itemType i).copies := by
  intro i hi
  have hb' : (ops ++ [Op.setItemTypesInfiniteCopies]).foldlM step new = .ok _ := bulk_step hb hc
  have hS := build_sizes_partial (ops := ops ++ [.setItemTypesInfiniteCopies]) (by unfold runOps; rw [hb']; exact h)
  obtain ⟨-, hn, hit, hnb, hbt⟩ := build_preserved hb' h
  unfold setItemTypesInfiniteCopies at hc
  split_ifs at hc with h0
  cases hc
  have hn' : inst.itemTypes.length = b.inst.itemTypes.length := by
    have : inst.itemTypes.length = (b.inst.itemTypes.map _).length := hn
    rw [this, List.length_map]
  have hi' : i < b.inst.itemTypes.length := by rw [← hn']; exact hi
  have hbl : inst.binTypes.length = b.inst.binTypes.length := hnb
  have hareas : inst.binTypes.map (fun t => t.x * t.y)
      = b.inst.binTypes.map fun t => t.x * t.y := by
    apply List.ext_getElem
    · simpa using hbl
    · intro t h1 h2
      rw [List.length_map] at h1 h2
      simp only [List.getElem_map]
      have e := hbt t h1
      unfold Instance.binType at e
      rw [List.getD_eq_getElem _ _ h1, List.getD_eq_getElem _ _ h2] at e
      have e1 := congrArg BinType.x e
      have e2 := congrArg BinType.y e
      dsimp only at e1 e2
      rw [e1, e2]
  have hbin' : ∃ t ∈ b.inst.binTypes, 0 < t.x * t.y := by
    obtain ⟨t, ht, h1⟩ := hbin
    have h2 : (t.x * t.y) ∈ b.inst.binTypes.map fun t => t.x * t.y := by
      rw [← hareas]; exact List.mem_map.mpr ⟨t, ht, rfl⟩
    obtain ⟨u, hu, h3⟩ := List.mem_map.mp h2
    exact ⟨u, hu, by rw [h3]; exact h1⟩
  have hitem : (inst.itemType i).copies
      = (binTypesAreaMax b.inst - 1).tdiv ((inst.itemType i).x * (inst.itemType i).y) + 1 := by
    have e := hit i hi
    have e1 := congrArg ItemType.x e
    have e2 := congrArg ItemType.y e
    have e4 := congrArg ItemType.copies e
    dsimp only at e1 e2 e4
    rw [e1, e2, e4]
    unfold Instance.itemType
    dsimp only
    rw [getD_map_lt _ hi']
    rfl
  rw [hitem, hareas]
  have hpos := hS.items (inst.itemType i) (getD_mem _ hi)
  refine least_cover (fun t : BinType => t.x * t.y) b.inst.binTypes ?_ hbin'
  exact mul_pos hpos.1 hpos.2.1

/-- **C88**: `set_bin_types_infinite_copies`: as many copies of each bin type as items. -/
theorem bulk_infinite_bin_copies (hb : ops.foldlM step new = .ok b)
    (h : b.setBinTypesInfiniteCopies.build = .ok inst) :
    ∀ t < inst.numberOfBinTypes, (inst.binType t).copies = inst.numberOfItems := by
  intro t ht
  obtain ⟨-, -, -, hnb, hbt⟩ := build_preserved
    (show (ops ++ [Op.setBinTypesInfiniteCopies]).foldlM step new = .ok _ from bulk_step hb rfl) h
  have ht' : t < b.setBinTypesInfiniteCopies.inst.binTypes.length := by rw [hnb] at ht; exact ht
  have e := congrArg BinType.copies (hbt t ht)
  refine e.trans ?_
  dsimp only
  rw [if_pos]
  unfold Instance.binType setBinTypesInfiniteCopies
  rw [getD_map_lt _ (by simpa [setBinTypesInfiniteCopies] using ht')]

/-- **C88**: `set_bin_types_unweighted`: the cost of each bin type is its area. -/
theorem bulk_unweighted_bins (hb : ops.foldlM step new = .ok b)
    (h : b.setBinTypesUnweighted.build = .ok inst) :
    ∀ t < inst.numberOfBinTypes, (inst.binType t).cost = (((inst.binType t).x * (inst.binType t).y : Int) : ℚ) := by
  intro t ht
  obtain ⟨-, -, -, hnb, hbt⟩ := build_preserved
    (show (ops ++ [Op.setBinTypesUnweighted]).foldlM step new = .ok _ from bulk_step hb rfl) h
  have ht' : t < b.inst.binTypes.length := by
    rw [hnb] at ht; simpa [Instance.numberOfBinTypes, setBinTypesUnweighted] using ht
  have hget : b.setBinTypesUnweighted.inst.binType t
      = { b.inst.binType t with cost := ((b.inst.binType t).area : ℚ) } := by
    unfold Instance.binType setBinTypesUnweighted
    rw [getD_map_lt _ ht']
  have e := hbt t ht
  rw [hget] at e
  have e1 := congrArg BinType.x e
  have e2 := congrArg BinType.y e
  have e3 := congrArg BinType.cost e
  dsimp only at e1 e2 e3
  rw [e1, e2, e3]; rfl

/-- **C88**: `set_item_types_unweighted`: the profit of each item type is its area. -/
theorem bulk_unweighted_items (hb : ops.foldlM step new = .ok b)
    (h : b.setItemTypesUnweighted.build = .ok inst) :
    ∀ i < inst.numberOfItemTypes, (inst.itemType i).profit = (((inst.itemType i).x * (inst.itemType i).y : Int) : ℚ) := by
  intro i hi
  obtain ⟨-, hn, hit, -⟩ := build_preserved
    (show (ops ++ [Op.setItemTypesUnweighted]).foldlM step new = .ok _ from bulk_step hb rfl) h
  have hi' : i < b.inst.itemTypes.length := by
    have := hn ▸ hi
    simpa [Instance.numberOfItemTypes, setItemTypesUnweighted] using this
  have hget : b.setItemTypesUnweighted.inst.itemType i
      = { b.inst.itemType i with profit := ((b.inst.itemType i).area : ℚ) } := by
    unfold Instance.itemType setItemTypesUnweighted
    rw [getD_map_lt _ hi']
  have e := hit i hi
  rw [hget] at e
  have e1 := congrArg ItemType.x e
  have e2 := congrArg ItemType.y e
  have e3 := congrArg ItemType.profit e
  dsimp only at e1 e2 e3
  rw [e1, e2, e3]; rfl

/-- **C88**: `multiply_item_types_copies`: each number of copies is multiplied. -/
theorem bulk_multiply (f : Int) (hb : ops.foldlM step new = .ok b)
    (h : (b.multiplyItemTypesCopies f).build = .ok inst) :
    ∀ i < inst.numberOfItemTypes, (inst.itemType i).copies = f * (b.inst.itemType i).copies := by
  intro i hi
  obtain ⟨-, hn, hit, -⟩ := build_preserved
    (show (ops ++ [Op.multiplyItemTypesCopies f]).foldlM step new = .ok _ from bulk_step hb rfl) h
  have hi' : i < b.inst.itemTypes.length := by
    have := hn ▸ hi
    simpa [Instance.numberOfItemTypes, multiplyItemTypesCopies] using this
  have hget : (b.multiplyItemTypesCopies f).inst.itemType i
      = { b.inst.itemType i with copies := (b.inst.itemType i).copies * f } := by
    unfold Instance.itemType multiplyItemTypesCopies
    rw [getD_map_lt _ hi']
  have e := hit i hi
  rw [hget] at e
  have e1 := congrArg ItemType.copies e
  dsimp only at e1
  rw [e1, mul_comm]

/-- **C88**: `set_item_types_oriented`: no item type may be turned. -/
theorem bulk_oriented (hb : ops.foldlM step new = .ok b)
    (h : b.setItemTypesOriented.build = .ok inst) :
    ∀ i < inst.numberOfItemTypes, (inst.itemType i).oriented = true := by
  intro i hi
  obtain ⟨-, hn, hit, -⟩ := build_preserved
    (show (ops ++ [Op.setItemTypesOriented]).foldlM step new = .ok _ from bulk_step hb rfl) h
  have hi' : i < b.inst.itemTypes.length := by
    have := hn ▸ hi
    simpa [Instance.numberOfItemTypes, setItemTypesOriented] using this
  have hget : b.setItemTypesOriented.inst.itemType i = { b.inst.itemType i with oriented := true } := by
    unfold Instance.itemType setItemTypesOriented
    rw [getD_map_lt _ hi']
  have e := hit i hi
  rw [hget] at e
  exact congrArg ItemType.oriented e

/-! ### Non-vacuity and a counterexample -/

/-- A history with two bin types and two item types. -/
def exBulk : List Op :=
  [.addBinType 10 6, .addBinType 5 8, .addItemType 4 2 false, .setItemTypeCopies 0 3, .addItemType 3 5 true]

/-- Selected data of the instance built by a history. -/
def bulkSummary (r : Except Err Instance) : Option (List Int × List Int × List Int) :=
  match r with
  | .ok i => some (i.binTypes.map (·.x), i.binTypes.map (·.copies), i.itemTypes.map (·.copies))
  | .error _ => none

/-- The hypotheses of the theorems above are met: each call can follow the history, and `build`
succeeds. -/
example : bulkSummary (runOps (exBulk ++ [.setBinTypesInfiniteX]))
      = some ([17, 17], [1, 1], [3, 1])
    ∧ bulkSummary (runOps (exBulk ++ [.setItemTypesInfiniteCopies]))
      = some ([10, 5], [1, 1], [8, 4])
    ∧ bulkSummary (runOps (exBulk ++ [.setBinTypesInfiniteCopies]))
      = some ([10, 5], [4, 4], [3, 1])
    ∧ (bulkSummary (runOps (exBulk ++ [.setBinTypesInfiniteY]))).isSome
    ∧ (bulkSummary (runOps (exBulk ++ [.setBinTypesUnweighted]))).isSome
    ∧ (bulkSummary (runOps (exBulk ++ [.setItemTypesUnweighted]))).isSome
    ∧ (bulkSummary (runOps (exBulk ++ [.setItemTypesOriented]))).isSome
    ∧ (bulkSummary (runOps (exBulk ++ [.multiplyItemTypesCopies 3]))).isSome := by
  decide +kernel

/-- A row of three copies of the first item type, of which one is turned, and the second item. -/
example : (⟨[(0, 4), (0, 4), (1, 5), (0, 2)]⟩ : Row).Valid 2 (fun i => [3, 1].getD i 0)
    (fun i => [[4, 2], [3, 5]].getD i []) :=
  ⟨by decide, by decide⟩

/-- **C88**, negation: `set_item_types_infinite_copies` does nothing useful before the bin types are
added: the item gets one copy, although the bin could hold six. -/
theorem bulk_infinite_too_early : bulkSummary (runOps 
    [.addItemType 4 2 false, .setItemTypesInfiniteCopies, .addBinType 12 4]) = some ([12], [1], [1]) := by
  decide +kernel

end PackingSolver.Rect
