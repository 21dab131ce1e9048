import Verif.Lemmas.Bulk
import Verif.Props.OneDim.Build

/-!
# C88: setting a field of all types of a one-dimensional instance

The calls are stated on any builder, whatever was called before.
-/

namespace PackingSolver.OneDim

open InstanceBuilder PackingSolver.BulkLemmas
open PackingSolver.Spec (IsLeastCover)

/-- **C88**: `set_item_types_infinite_copies` gives each item type the fewest copies whose total
length reaches that of every bin, and changes nothing else (for item types of positive length, which
the builder does not check). -/
theorem bulk_infinite_item_copies {b b' : InstanceBuilder}
    (h : b.setItemTypesInfiniteCopies = .ok b') (hbin : ∃ t ∈ b.inst.binTypes, 0 < t.length) :
    b'.inst.binTypes = b.inst.binTypes ∧ b'.inst.numberOfItemTypes = b.inst.numberOfItemTypes
    ∧ ∀ i < b.inst.numberOfItemTypes, 0 < (b.inst.itemType i).length →
      IsLeastCover (b.inst.binTypes.map (·.length)) (b.inst.itemType i).length
        (b'.inst.itemType i).copies
      ∧ b'.inst.itemType i = { b.inst.itemType i with copies := (b'.inst.itemType i).copies } := by
  unfold setItemTypesInfiniteCopies at h
  split_ifs at h with h0
  cases h
  refine ⟨rfl, by simp [Instance.numberOfItemTypes], fun i hi hl => ?_⟩
  have e : ∀ f : ItemType → ItemType, (b.inst.itemTypes.map f).getD i default
      = f (b.inst.itemTypes.getD i default) := fun f => getD_map_lt default hi
  constructor
  · have := least_cover (fun t : BinType => t.length) b.inst.binTypes hl hbin
    unfold Instance.itemType at this ⊢
    dsimp only
    rw [e]
    exact this
  · unfold Instance.itemType
    dsimp only
    rw [e]

/-- **C88**: `set_item_types_infinite_copies` before any bin type is added gives one copy. -/
theorem bulk_infinite_too_early {b b' : InstanceBuilder}
    (h : b.setItemTypesInfiniteCopies = .ok b') (hbin : b.inst.binTypes = []) :
    ∀ i < b.inst.numberOfItemTypes, 1 < (b.inst.itemType i).length →
      (b'.inst.itemType i).copies = 1 := by
  unfold setItemTypesInfiniteCopies at h
  split_ifs at h with h0
  cases h
  intro i hi hl
  have e : ∀ f : ItemType → ItemType, (b.inst.itemTypes.map f).getD i default
      = f (b.inst.itemTypes.getD i default) := fun f => getD_map_lt default hi
  unfold Instance.itemType at hl ⊢
  dsimp only
  rw [e]
  dsimp only
  unfold binTypesLengthMax
  rw [hbin]
  change (-1 : Int).tdiv _ + 1 = 1
  rw [Int.neg_tdiv, Int.tdiv_eq_ediv_of_nonneg (by omega), Int.ediv_eq_zero_of_lt (by omega) hl]
  rfl

/-- **C88**: the costs of unweighted bin types are their lengths, the profits of unweighted item
types their lengths, and unlimited bin types get `-1` copies (resolved by `build`); nothing else
changes. -/
theorem bulk_setters (b : InstanceBuilder) :
    (∀ t < b.inst.numberOfBinTypes, b.setBinTypesUnweighted.inst.binType t
        = { b.inst.binType t with cost := ((b.inst.binType t).length : ℚ) }
      ∧ b.setBinTypesInfiniteCopies.inst.binType t = { b.inst.binType t with copies := -1 })
    ∧ (∀ i < b.inst.numberOfItemTypes, b.setItemTypesUnweighted.inst.itemType i
        = { b.inst.itemType i with profit := ((b.inst.itemType i).length : ℚ) }) := by
  refine ⟨fun t ht => ⟨?_, ?_⟩, fun i hi => ?_⟩
  · unfold Instance.binType setBinTypesUnweighted
    exact getD_map_lt default ht
  · unfold Instance.binType setBinTypesInfiniteCopies
    exact getD_map_lt default ht
  · unfold Instance.itemType setItemTypesUnweighted
    exact getD_map_lt default hi

/-- The hypotheses are met: bins of lengths 10 and 25, items of lengths 4 and 5; 7 and 5 copies.
Before the bins are added: one copy. -/
example : (match [Op.addBinType 10, .addBinType 25, .addItemType 4, .addItemType 5,
      .setItemTypesInfiniteCopies].foldlM step (new .knapsack) with
    | .ok b => b.inst.itemTypes.map (·.copies)
    | .error _ => []) = [7, 5]
  ∧ (match [Op.addItemType 4, .addItemType 5,
      .setItemTypesInfiniteCopies].foldlM step (new .knapsack) with
    | .ok b => b.inst.itemTypes.map (·.copies)
    | .error _ => []) = [1, 1] := by decide +kernel

end PackingSolver.OneDim
