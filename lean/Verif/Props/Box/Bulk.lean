import Verif.Lemmas.Bulk
import Verif.Props.Box.Build

/-!
# C88: setting a field of all types of a box instance
-/

namespace PackingSolver.Box

open InstanceBuilder PackingSolver.BulkLemmas
open PackingSolver.Spec (IsLeastCover Row)
open PackingSolver.OneDim (getD_mem)

variable {o : Objective} {ops : List Op} {inst : Instance} {b b' : InstanceBuilder}

theorem bulk_step {op : Op} (hb : ops.foldlM step (new o) = .ok b) (h : step b op = .ok b') :
    (ops ++ [op]).foldlM step (new o) = .ok b' :=
  foldlM_snoc_ok.mpr ⟨b, hb, h⟩

/-- **C88**: after `set_bin_types_infinite_x` and `build`, any choice of items, each along any of its
sides, fits side by side along the x axis in every bin; the length is the total of the longest
sides, and the other sides of the bins are those set. -/
theorem bulk_infinite_x (hb : ops.foldlM step (new o) = .ok b)
    (h : b.setBinTypesInfiniteX.build = .ok inst) {r : Row}
    (hr : r.Valid inst.numberOfItemTypes (fun i => (inst.itemType i).copies)
      (fun i => [(inst.itemType i).box.x, (inst.itemType i).box.y, (inst.itemType i).box.z])) :
    ∀ t < inst.numberOfBinTypes, r.length ≤ (inst.binType t).box.x
      ∧ (inst.binType t).box.x = (inst.itemTypes.map fun t => t.copies * max (max t.box.x t.box.y) t.box.z).sum
      ∧ (inst.binType t).box.y = (b.inst.binType t).box.y
      ∧ (inst.binType t).box.z = (b.inst.binType t).box.z := by
  intro t ht
  have hb' : (ops ++ [Op.setBinTypesInfiniteX]).foldlM step (new o) = .ok _ := bulk_step hb rfl
  have hF := fresh_ops hb
  obtain ⟨-, hn, hi, hnb, hbt⟩ := instance_preserved hb' h
  have hn' : inst.itemTypes.length = b.inst.itemTypes.length := hn
  have hsame : ∀ i < inst.itemTypes.length, (inst.itemType i).box = (b.inst.itemType i).box
      ∧ (inst.itemType i).copies = (b.inst.itemType i).copies := by
    intro i hi2
    obtain ⟨e1, -, e3, -⟩ := hi i hi2
    exact ⟨e1, e3⟩
  have hcost : (inst.itemTypes.map fun t => t.copies * max (max t.box.x t.box.y) t.box.z).sum
      = itemTypesMaxLengthSum b.inst := by
    unfold itemTypesMaxLengthSum
    rw [foldl_add_int, zero_add]
    congr 1
    apply List.ext_getElem
    · simpa using hn'
    · intro i h1 h2
      simp only [List.getElem_map]
      rw [List.length_map] at h1 h2
      have e := hsame i h1
      unfold Instance.itemType at e
      rw [List.getD_eq_getElem _ _ h1, List.getD_eq_getElem _ _ h2] at e
      rw [e.1, e.2]; rfl
  have hbin : (inst.binType t).box.x = itemTypesMaxLengthSum b.inst 
      ∧ (inst.binType t).box.y = (b.inst.binType t).box.y
      ∧ (inst.binType t).box.z = (b.inst.binType t).box.z := by
    have hget : b.setBinTypesInfiniteX.inst.binType t
        = { b.inst.binType t with box := { (b.inst.binType t).box with x := itemTypesMaxLengthSum b.inst } } := by
      have ht' : t < b.inst.binTypes.length := by
        have : inst.numberOfBinTypes = b.setBinTypesInfiniteX.inst.binTypes.length := hnb
        rw [this] at ht
        simpa [setBinTypesInfiniteX] using ht
      unfold Instance.binType setBinTypesInfiniteX
      rw [List.getD_eq_getElem _ _ (by simpa using ht'), List.getD_eq_getElem _ _ ht',
        List.getElem_map]
    have e := hbt t ht
    rw [hget] at e
    rw [e]
    exact ⟨rfl, rfl, rfl⟩
  refine ⟨?_, hbin.1.trans hcost.symm, hbin.2⟩
  rw [hbin.1, ← hcost]
  refine row_le inst.itemTypes default (·.copies) (fun t => max (max t.box.x t.box.y) t.box.z) r
    (fun i => [(inst.itemType i).box.x, (inst.itemType i).box.y, (inst.itemType i).box.z]) hr ?_ ?_
  · intro u hu
    have := (instance_sizes_partial (o := o) (ops := ops ++ [.setBinTypesInfiniteX])
      (by unfold runOps; rw [hb']; exact h)).items u hu
    omega
  · intro i _ s hs
    change s ≤ max (max (inst.itemType i).box.x (inst.itemType i).box.y) (inst.itemType i).box.z
    simp only [List.mem_cons, List.not_mem_nil, or_false] at hs
    rcases hs with rfl | rfl | rfl <;> omega

/-- **C88**: after `set_bin_types_infinite_y` and `build`, any choice of items, each along any of its
sides, fits side by side along the y axis in every bin; the length is the total of the longest
sides, and the other sides of the bins are those set. -/
theorem bulk_infinite_y (hb : ops.foldlM step (new o) = .ok b)
    (h : b.setBinTypesInfiniteY.build = .ok inst) {r : Row}
    (hr : r.Valid inst.numberOfItemTypes (fun i => (inst.itemType i).copies)
      (fun i => [(inst.itemType i).box.x, (inst.itemType i).box.y, (inst.itemType i).box.z])) :
    ∀ t < inst.numberOfBinTypes, r.length ≤ (inst.binType t).box.y
      ∧ (inst.binType t).box.y = (inst.itemTypes.map fun t => t.copies * max (max t.box.x t.box.y) t.box.z).sum
      ∧ (inst.binType t).box.x = (b.inst.binType t).box.x
      ∧ (inst.binType t).box.z = (b.inst.binType t).box.z := by
  intro t ht
  have hb' : (ops ++ [Op.setBinTypesInfiniteY]).foldlM step (new o) = .ok _ := bulk_step hb rfl
  have hF := fresh_ops hb
  obtain ⟨-, hn, hi, hnb, hbt⟩ := instance_preserved hb' h
  have hn' : inst.itemTypes.length = b.inst.itemTypes.length := hn
  have hsame : ∀ i < inst.itemTypes.length, (inst.itemType i).box = (b.inst.itemType i).box
      ∧ (inst.itemType i).copies = (b.inst.itemType i).copies := by
    intro i hi2
    obtain ⟨e1, -, e3, -⟩ := hi i hi2
    exact ⟨e1, e3⟩
  have hcost : (inst.itemTypes.map fun t => t.copies * max (max t.box.x t.box.y) t.box.z).sum
      = itemTypesMaxLengthSum b.inst := by
    unfold itemTypesMaxLengthSum
    rw [foldl_add_int, zero_add]
    congr 1
    apply List.ext_getElem
    · simpa using hn'
    · intro i h1 h2
      simp only [List.getElem_map]
      rw [List.length_map] at h1 h2
      have e := hsame i h1
      unfold Instance.itemType at e
      rw [List.getD_eq_getElem _ _ h1, List.getD_eq_getElem _ _ h2] at e
      rw [e.1, e.2]; rfl
  have hbin : (inst.binType t).box.y = itemTypesMaxLengthSum b.inst 
      ∧ (inst.binType t).box.x = (b.inst.binType t).box.x
      ∧ (inst.binType t).box.z = (b.inst.binType t).box.z := by
    have hget : b.setBinTypesInfiniteY.inst.binType t
        = { b.inst.binType t with box := { (b.inst.binType t).box with y := itemTypesMaxLengthSum b.inst } } := by
      have ht' : t < b.inst.binTypes.length := by
        have : inst.numberOfBinTypes = b.setBinTypesInfiniteY.inst.binTypes.length := hnb
        rw [this] at ht
        simpa [setBinTypesInfiniteY] using ht
      unfold Instance.binType setBinTypesInfiniteY
      rw [List.getD_eq_getElem _ _ (by simpa using ht'), List.getD_eq_getElem _ _ ht',
        List.getElem_map]
    have e := hbt t ht
    rw [hget] at e
    rw [e]
    exact ⟨rfl, rfl, rfl⟩
  refine ⟨?_, hbin.1.trans hcost.symm, hbin.2⟩
  rw [hbin.1, ← hcost]
  refine row_le inst.itemTypes default (·.copies) (fun t => max (max t.box.x t.box.y) t.box.z) r
    (fun i => [(inst.itemType i).box.x, (inst.itemType i).box.y, (inst.itemType i).box.z]) hr ?_ ?_
  · intro u hu
    have := (instance_sizes_partial (o := o) (ops := ops ++ [.setBinTypesInfiniteY])
      (by unfold runOps; rw [hb']; exact h)).items u hu
    omega
  · intro i _ s hs
    change s ≤ max (max (inst.itemType i).box.x (inst.itemType i).box.y) (inst.itemType i).box.z
    simp only [List.mem_cons, List.not_mem_nil, or_false] at hs
    rcases hs with rfl | rfl | rfl <;> omega

/-- **C88**: after `set_item_types_infinite_copies` and `build`, the copies of each item type are the
fewest whose total volume reaches that of every bin (if there is a bin of positive volume): no bin can
hold more of them. -/
theorem bulk_infinite_item_copies (hb : ops.foldlM step (new o) = .ok b)
    (hc : b.setItemTypesInfiniteCopies = .ok b') (h : b'.build = .ok inst)
    (hbin : ∃ t ∈ inst.binTypes, 0 < t.box.x * t.box.y * t.box.z) :
    ∀ i < inst.numberOfItemTypes, IsLeastCover (inst.binTypes.map fun t => t.box.x * t.box.y * t.box.z)
      ((inst.itemType i).box.x * (inst.itemType i).box.y * (inst.itemType i).box.z) (inst.itemType i).copies := by
  intro i hi
  have hb' : (ops ++ [Op.setItemTypesInfiniteCopies]).foldlM step (new o) = .ok _ := bulk_step hb hc
  have hS := instance_sizes_partial (o := o) (ops := ops ++ [.setItemTypesInfiniteCopies]) (by unfold runOps; rw [hb']; exact h)
  obtain ⟨-, hn, hit, hnb, hbt⟩ := instance_preserved hb' h
  unfold setItemTypesInfiniteCopies at hc
  split_ifs at hc with h0
  cases hc
  have hn' : inst.itemTypes.length = b.inst.itemTypes.length := by
    have : inst.itemTypes.length = (b.inst.itemTypes.map _).length := hn
    rw [this, List.length_map]
  have hi' : i < b.inst.itemTypes.length := by rw [← hn']; exact hi
  have hbl : inst.binTypes.length = b.inst.binTypes.length := hnb
  have hareas : inst.binTypes.map (fun t => t.box.x * t.box.y * t.box.z)
      = b.inst.binTypes.map fun t => t.box.x * t.box.y * t.box.z := by
    apply List.ext_getElem
    · simpa using hbl
    · intro t h1 h2
      rw [List.length_map] at h1 h2
      simp only [List.getElem_map]
      have e := hbt t h1
      unfold Instance.binType at e
      rw [List.getD_eq_getElem _ _ h1, List.getD_eq_getElem _ _ h2] at e
      rw [e]
  have hbin' : ∃ t ∈ b.inst.binTypes, 0 < t.box.x * t.box.y * t.box.z := by
    obtain ⟨t, ht, h1⟩ := hbin
    have h2 : (t.box.x * t.box.y * t.box.z) ∈ b.inst.binTypes.map fun t => t.box.x * t.box.y * t.box.z := by
      rw [← hareas]; exact List.mem_map.mpr ⟨t, ht, rfl⟩
    obtain ⟨u, hu, h3⟩ := List.mem_map.mp h2
    exact ⟨u, hu, by rw [h3]; exact h1⟩
  have hitem : (inst.itemType i).copies
      = (binTypesVolumeMax b.inst - 1).tdiv ((inst.itemType i).box.x * (inst.itemType i).box.y * (inst.itemType i).box.z) + 1 := by
    obtain ⟨e1, -, e4, -⟩ := hit i hi
    rw [e1, e4]
    unfold Instance.itemType
    dsimp only
    rw [getD_map_lt _ hi']
    rfl
  rw [hitem, hareas]
  have hpos := hS.items (inst.itemType i) (getD_mem _ hi)
  refine least_cover (fun t : BinType => t.box.x * t.box.y * t.box.z) b.inst.binTypes ?_ hbin'
  exact mul_pos (mul_pos hpos.1 hpos.2.1) hpos.2.2.1

/-- **C88**: `set_bin_types_infinite_copies`: as many copies of each bin type as items. -/
theorem bulk_infinite_bin_copies (hb : ops.foldlM step (new o) = .ok b)
    (h : b.setBinTypesInfiniteCopies.build = .ok inst) :
    ∀ t < inst.numberOfBinTypes, (inst.binType t).copies = inst.numberOfItems := by
  intro t ht
  obtain ⟨-, -, -, hnb, hbt⟩ := instance_preserved
    (show (ops ++ [Op.setBinTypesInfiniteCopies]).foldlM step (new o) = .ok _ from bulk_step hb rfl) h
  have ht' : t < b.setBinTypesInfiniteCopies.inst.binTypes.length := by rw [hnb] at ht; exact ht
  have e := congrArg BinType.copies (hbt t ht)
  refine e.trans ?_
  dsimp only
  rw [if_pos]
  unfold Instance.binType setBinTypesInfiniteCopies
  rw [getD_map_lt _ (by simpa [setBinTypesInfiniteCopies] using ht')]

/-- **C88**: `set_bin_types_unweighted`: the cost of each bin type is its volume. -/
theorem bulk_unweighted_bins (hb : ops.foldlM step (new o) = .ok b)
    (h : b.setBinTypesUnweighted.build = .ok inst) :
    ∀ t < inst.numberOfBinTypes, (inst.binType t).cost = (((inst.binType t).box.x * (inst.binType t).box.y * (inst.binType t).box.z : Int) : ℚ) := by
  intro t ht
  obtain ⟨-, -, -, hnb, hbt⟩ := instance_preserved
    (show (ops ++ [Op.setBinTypesUnweighted]).foldlM step (new o) = .ok _ from bulk_step hb rfl) h
  have ht' : t < b.inst.binTypes.length := by
    rw [hnb] at ht; simpa [Instance.numberOfBinTypes, setBinTypesUnweighted] using ht
  have hget : b.setBinTypesUnweighted.inst.binType t
      = { b.inst.binType t with cost := ((b.inst.binType t).volume : ℚ) } := by
    unfold Instance.binType setBinTypesUnweighted
    rw [getD_map_lt _ ht']
  have e := hbt t ht
  rw [hget] at e
  rw [e]; rfl

/-- **C88**: `set_item_types_unweighted`: the profit of each item type is its volume. -/
theorem bulk_unweighted_items (hb : ops.foldlM step (new o) = .ok b)
    (h : b.setItemTypesUnweighted.build = .ok inst) :
    ∀ i < inst.numberOfItemTypes, (inst.itemType i).profit = (((inst.itemType i).box.x * (inst.itemType i).box.y * (inst.itemType i).box.z : Int) : ℚ) := by
  intro i hi
  obtain ⟨-, hn, hit, -⟩ := instance_preserved
    (show (ops ++ [Op.setItemTypesUnweighted]).foldlM step (new o) = .ok _ from bulk_step hb rfl) h
  have hi' : i < b.inst.itemTypes.length := by
    have := hn ▸ hi
    simpa [Instance.numberOfItemTypes, setItemTypesUnweighted] using this
  have hget : b.setItemTypesUnweighted.inst.itemType i
      = { b.inst.itemType i with profit := ((b.inst.itemType i).volume : ℚ) } := by
    unfold Instance.itemType setItemTypesUnweighted
    rw [getD_map_lt _ hi']
  have e := hit i hi
  rw [hget] at e
  obtain ⟨e1, e2, -⟩ := e
  rw [e1, e2]; rfl

/-- **C88**: `set_item_types_oriented`: no item type may be turned. -/
theorem bulk_oriented (hb : ops.foldlM step (new o) = .ok b)
    (h : b.setItemTypesOriented.build = .ok inst) :
    ∀ i < inst.numberOfItemTypes, (inst.itemType i).rotations = [.xyz] := by
  intro i hi
  obtain ⟨-, hn, hit, -⟩ := instance_preserved
    (show (ops ++ [Op.setItemTypesOriented]).foldlM step (new o) = .ok _ from bulk_step hb rfl) h
  have hi' : i < b.inst.itemTypes.length := by
    have := hn ▸ hi
    simpa [Instance.numberOfItemTypes, setItemTypesOriented] using this
  have hget : b.setItemTypesOriented.inst.itemType i = { b.inst.itemType i with rotations := [.xyz] } := by
    unfold Instance.itemType setItemTypesOriented
    rw [getD_map_lt _ hi']
  have e := hit i hi
  rw [hget] at e
  rw [e.2.2.2.2.1]; rfl

/-! ### Non-vacuity and a counterexample -/

/-- A history with two bin types and two item types. -/
def exBulk : List Op :=
  [.addBinType 10 6 2, .addBinType 5 8 2, .addItemType 4 2 2, .setItemTypeCopies 0 3, .addItemType 3 5 2]

/-- Selected data of the instance built by a history. -/
def bulkSummary (r : Except Err Instance) : Option (List Int × List Int × List Int) :=
  match r with
  | .ok i => some (i.binTypes.map (·.box.x), i.binTypes.map (·.copies), i.itemTypes.map (·.copies))
  | .error _ => none

/-- The hypotheses of the theorems above are met: each call can follow the history, and `build`
succeeds. -/
example : bulkSummary (runOps .binPacking (exBulk ++ [.setBinTypesInfiniteX]))
      = some ([17, 17], [1, 1], [3, 1])
    ∧ bulkSummary (runOps .binPacking (exBulk ++ [.setItemTypesInfiniteCopies]))
      = some ([10, 5], [1, 1], [8, 4])
    ∧ bulkSummary (runOps .binPacking (exBulk ++ [.setBinTypesInfiniteCopies]))
      = some ([10, 5], [4, 4], [3, 1])
    ∧ (bulkSummary (runOps .binPacking (exBulk ++ [.setBinTypesInfiniteY]))).isSome
    ∧ (bulkSummary (runOps .binPacking (exBulk ++ [.setBinTypesUnweighted]))).isSome
    ∧ (bulkSummary (runOps .binPacking (exBulk ++ [.setItemTypesUnweighted]))).isSome
    ∧ (bulkSummary (runOps .binPacking (exBulk ++ [.setItemTypesOriented]))).isSome := by
  decide +kernel

/-- A row of three copies of the first item type, of which one is turned, and the second item. -/
example : (⟨[(0, 4), (0, 4), (1, 5), (0, 2)]⟩ : Row).Valid 2 (fun i => [3, 1].getD i 0)
    (fun i => [[4, 2, 2], [3, 5, 2]].getD i []) :=
  ⟨by decide, by decide⟩

/-- **C88**, negation: `set_item_types_infinite_copies` does nothing useful before the bin types are
added: the item gets one copy, although the bin could hold six. -/
theorem bulk_infinite_too_early : bulkSummary (runOps .binPacking 
    [.addItemType 4 2 2, .setItemTypesInfiniteCopies, .addBinType 12 4 2]) = some ([12], [1], [1]) := by
  decide +kernel

end PackingSolver.Box
