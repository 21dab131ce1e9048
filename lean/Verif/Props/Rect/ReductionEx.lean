import Verif.Props.Rect.Reduction
import Verif.Lemmas.Rect.Run
import Verif.Props.Rect.Dff
import Mathlib.Data.List.Sort

/-!
# Rectangle bin packing: cases of the reduction

Concrete instances that meet the hypotheses of the theorems on the reduction, and instances on
which what a user expects fails.
-/

namespace PackingSolver.Rect.Reduction

open InstanceBuilder Rect.Spec
open PackingSolver.OneDim.Examples (okD)

/-- A modest solver: it answers one bin with one copy of the first item type in its corner if that
fits, and the empty packing otherwise. -/
def cornerAnswer (inst : Instance) : List PackedBin :=
  if 0 < inst.numberOfBinTypes ∧ 0 < inst.numberOfItemTypes ∧ 0 < (inst.itemType 0).copies
      ∧ 0 < (inst.binType 0).copies ∧ (inst.itemType 0).x ≤ (inst.binType 0).x
      ∧ (inst.itemType 0).y ≤ (inst.binType 0).y then
    [⟨0, 1, [⟨0, 0, 0, false⟩]⟩] else []

/-- What surrounds the reduction in the examples. -/
def modest : Around :=
  ⟨999, fun _ inst => cornerAnswer inst, fun _ => false,
    fun lt l => l.insertionSort fun a b => !lt b a = true⟩

theorem itemCopies_nil (i : Nat) : itemCopies [] i = 0 := rfl
theorem binCopies_nil (i : Nat) : Spec.binCopies [] i = 0 := rfl

/-- The modest solver answers valid packings. -/
theorem modest_trusted : Trusted modest := by
  refine ⟨fun t ops inst _ => ?_, fun lt l => List.perm_insertionSort _ _⟩
  change ValidPacking inst (cornerAnswer inst)
  unfold cornerAnswer
  split_ifs with h
  · obtain ⟨h1, h2, h3, h4, h5, h6⟩ := h
    refine ⟨fun b hb => ?_, fun i hi => ?_, fun i hi => ?_⟩
    · rw [List.mem_singleton.mp hb]
      refine ⟨h1, by decide, ?_⟩
      refine ⟨?_, ?_, ?_, by simp⟩ <;> intro p hp <;> rw [List.mem_singleton.mp hp]
      · exact h2
      · simp
      · exact ⟨le_refl _, by simpa [occupies, ItemType.width] using h5, le_refl _,
          by simpa [occupies, ItemType.height] using h6⟩
    · by_cases h0 : i = 0
      · subst h0
        have : itemCopies [⟨0, 1, [⟨0, 0, 0, false⟩]⟩] 0 = 1 := by decide
        rw [this]; omega
      · have : itemCopies [⟨0, 1, [⟨0, 0, 0, false⟩]⟩] i = 0 := by
          unfold itemCopies count
          simp [Ne.symm h0]
        rw [this]; omega
    · by_cases h0 : i = 0
      · subst h0
        have : Spec.binCopies [⟨0, 1, [⟨0, 0, 0, false⟩]⟩] 0 = 1 := by decide
        rw [this]; omega
      · have : Spec.binCopies [⟨0, 1, [⟨0, 0, 0, false⟩]⟩] i = 0 := by
          unfold Spec.binCopies
          simp [Ne.symm h0]
        rw [this]; omega
  · exact ⟨by simp, fun i _ => by rw [itemCopies_nil]; omega, fun i _ => by rw [binCopies_nil]; omega⟩

instance (inst : Instance) (b : Nat) (items : List PlacedItem) :
    Decidable (BinPacking inst b items) :=
  decidable_of_iff ((∀ p ∈ items, p.itemTypeId < inst.numberOfItemTypes)
    ∧ (∀ p ∈ items, p.rotate = true → (inst.itemType p.itemTypeId).oriented = false)
    ∧ (∀ p ∈ items, Inside (inst.binType b).x (inst.binType b).y (occupies inst p))
    ∧ items.Pairwise fun p q => Separated (occupies inst p) (occupies inst q))
    ⟨fun h => ⟨h.1, h.2.1, h.2.2.1, h.2.2.2⟩, fun h => ⟨h.1, h.2, h.3, h.4⟩⟩

instance (inst : Instance) (bins : List (List PlacedItem)) : Decidable (FullPacking inst bins) :=
  decidable_of_iff ((∀ items ∈ bins, BinPacking inst 0 items)
    ∧ ∀ i, i < inst.numberOfItemTypes → count bins.flatten i = (inst.itemType i).copies)
    ⟨fun h => ⟨h.1, h.2⟩, fun h => ⟨h.1, h.2⟩⟩

/-- Where nothing is built or reduced. -/
def noInst : Instance := { objective := .binPacking, itemTypes := [], binTypes := [] }
def noResult : Result := ⟨noInst, noInst, { items := [] }, [], false⟩

/-! ## A case that meets the hypotheses -/

/-- Bins of 10 × 10, and a 6 × 3, a 4 × 3 and a 10 × 10 item that may not be rotated. -/
def exKeeps : List Op :=
  [.setObjective .binPacking, .addBinType 10 10, .setBinTypeCopies 0 (-1),
   .addItemType 6 3 true, .addItemType 4 3 true, .addItemType 10 10 true]

/-- The instance and its reduction. -/
def exInst : Instance := okD noInst (runOps exKeeps)
def exResult (inst : Instance) : Except Err (Int × Bool × List (Int × Int × Int)) := do
  let r ← reduce modest inst
  .ok (r.dedicated, r.provenInfeasible,
    r.reduced.itemTypes.map fun (t : ItemType) => (t.x, t.y, t.copies))

/-- The hypotheses of `reduction_keeps_packings_partial`, of its oriented version and of the
theorems on the bounds are met: the instance is built, the reduction applies, absorbs the 4 × 3
item, enlarges the 6 × 3 item and reserves one bin for the 10 × 10 item, and the instance has a
packing. -/
example : runOps exKeeps = .ok exInst ∧ applies exInst = true
    ∧ (∀ t ∈ exInst.itemTypes, 0 ≤ t.copies) ∧ (∀ t ∈ exInst.itemTypes, t.oriented = true)
    ∧ 0 ≤ (exInst.binType 0).cost ∧ Trusted modest
    ∧ exResult exInst = .ok (1, false, [(10, 3, 1)])
    ∧ FullPacking exInst [[⟨2, 0, 0, false⟩], [⟨0, 0, 5, false⟩, ⟨1, 6, 0, false⟩]] :=
  ⟨eq_ok_okD (by decide +kernel), by decide +kernel, by decide +kernel, by decide +kernel,
    by decide +kernel, modest_trusted, by decide +kernel, by decide +kernel⟩

/-- One bin of 10 × 10 for a 10 × 10 and a 3 × 3 item. -/
def exInfeasible : List Op :=
  [.setObjective .feasibility, .addBinType 10 10, .setBinTypeCopies 0 1,
   .addItemType 10 10 true, .addItemType 3 3 true]

/-- The hypotheses of `proven_infeasible_sound_partial` are met. -/
example : runOps exInfeasible = .ok (okD noInst (runOps exInfeasible))
    ∧ applies (okD noInst (runOps exInfeasible)) = true
    ∧ (∀ t ∈ (okD noInst (runOps exInfeasible)).itemTypes, 0 ≤ t.copies)
    ∧ (∀ t ∈ (okD noInst (runOps exInfeasible)).itemTypes, t.oriented = true)
    ∧ exResult (okD noInst (runOps exInfeasible)) = .ok (1, true, [(3, 3, 1)]) :=
  ⟨eq_ok_okD (by decide +kernel), by decide +kernel, by decide +kernel, by decide +kernel,
    by decide +kernel⟩

/-! ## Items that may be turned -/

/-- Two 6 × 7 items that may be rotated, and bins of 10 × 12. -/
def exTurned : List Op :=
  [.setObjective .binPacking, .addBinType 10 12, .setBinTypeCopies 0 (-1),
   .addItemType 6 7 false, .setItemTypeCopies 0 2]

/-- **C107 is false of the code**: the two items fit in one bin, turned and stacked, but the
reduction sets two bins aside and reports a bound of two bins (whatever nonnegative bound is found
for the reduced instance). -/
theorem reduction_bound_unsound :
    ∃ ops inst ar r bins, runOps ops = .ok inst ∧ applies inst = true
      ∧ (∀ t ∈ inst.itemTypes, 0 ≤ t.copies) ∧ Trusted ar ∧ reduce ar inst = .ok r
      ∧ FullPacking inst bins ∧ ∀ b, 0 ≤ b → (bins.length : Int) < r.bound b := by
  have h : isOk (reduce modest (okD noInst (runOps exTurned))) = true := by decide +kernel
  have e := eq_ok_okD (d := noResult) h
  refine ⟨exTurned, okD noInst (runOps exTurned), modest, _, [[⟨0, 0, 0, true⟩, ⟨0, 0, 6, true⟩]],
    eq_ok_okD (by decide +kernel), by decide +kernel, by decide +kernel, modest_trusted, e,
    by decide +kernel, ?_⟩
  intro b hb
  have hd : (okD noResult
      (reduce modest (okD noInst (runOps exTurned)))).dedicated = 2 := by decide +kernel
  unfold Result.bound
  rw [hd]
  simp only [List.length_cons, List.length_nil]
  norm_num
  omega

/-- Two bins of 10 × 12, two 6 × 7 items that may be rotated and two 5 × 7 items that may not. -/
def exRefused : List Op :=
  [.setObjective .feasibility, .addBinType 10 12, .setBinTypeCopies 0 2,
   .addItemType 6 7 false, .setItemTypeCopies 0 2, .addItemType 5 7 true, .setItemTypeCopies 1 2]

/-- **C108 is false of the code**: an instance that has a packing is reported as infeasible. -/
theorem feasible_declared_infeasible :
    ∃ ops inst ar r bins, runOps ops = .ok inst ∧ applies inst = true
      ∧ (∀ t ∈ inst.itemTypes, 0 ≤ t.copies) ∧ Trusted ar ∧ reduce ar inst = .ok r
      ∧ r.provenInfeasible = true
      ∧ FullPacking inst bins ∧ (bins.length : Int) ≤ (inst.binType 0).copies := by
  have h : isOk (reduce modest (okD noInst (runOps exRefused))) = true := by decide +kernel
  have e := eq_ok_okD (d := noResult) h
  exact ⟨exRefused, okD noInst (runOps exRefused), modest, _,
    [[⟨0, 0, 0, true⟩, ⟨0, 0, 6, true⟩], [⟨1, 0, 0, false⟩, ⟨1, 5, 0, false⟩]],
    eq_ok_okD (by decide +kernel), by decide +kernel, by decide +kernel, modest_trusted, e,
    by decide +kernel, by decide +kernel, by decide +kernel⟩

/-! ## Fewer companions than copies -/

/-- Two 6 × 10 items and one 4 × 10 item in bins of 10 × 10. -/
def exFull : List Op :=
  [.setObjective .binPacking, .addBinType 10 10, .setBinTypeCopies 0 (-1),
   .addItemType 6 10 true, .setItemTypeCopies 0 2, .addItemType 4 10 true]

/-- **C109 is false of the code**: reducing an instance of three items reads an array of companions
beyond its end. -/
theorem reduction_undefined :
    ∃ ops inst ar, runOps ops = .ok inst ∧ applies inst = true
      ∧ (∀ t ∈ inst.itemTypes, 0 < t.copies) ∧ Trusted ar ∧ reduce ar inst = .error .ub := by
  refine ⟨exFull, okD noInst (runOps exFull), modest, eq_ok_okD (by decide +kernel), by decide +kernel,
    by decide +kernel, modest_trusted, ?_⟩
  have h : (match reduce modest (okD noInst (runOps exFull)) with
    | .error .ub => true | _ => false) = true := by decide +kernel
  split at h
  · rename_i e; exact e
  · cases h

/-- Two 6 × 3 items and one 4 × 3 item in bins of 10 × 10. -/
def exUnreduce : List Op :=
  [.setObjective .binPacking, .addBinType 10 10, .setBinTypeCopies 0 (-1),
   .addItemType 6 3 true, .setItemTypeCopies 0 2, .addItemType 4 3 true]

/-- **C109 is false of the code**: the reduction succeeds, and translating a valid complete packing
of the reduced instance back reads an array of companions beyond its end. -/
theorem unreduce_undefined :
    ∃ ops inst ar r sol, runOps ops = .ok inst ∧ applies inst = true
      ∧ (∀ t ∈ inst.itemTypes, 0 < t.copies) ∧ Trusted ar ∧ reduce ar inst = .ok r
      ∧ FullPacking r.reduced (sol.map PackedBin.items) ∧ (∀ b ∈ sol, b.binTypeId = 0 ∧ b.copies = 1)
      ∧ unreduce r sol = .error .ub := by
  have h : isOk (reduce modest (okD noInst (runOps exUnreduce))) = true := by decide +kernel
  have e := eq_ok_okD (d := noResult) h
  refine ⟨exUnreduce, okD noInst (runOps exUnreduce), modest, _,
    [⟨0, 1, [⟨0, 0, 0, false⟩, ⟨0, 0, 3, false⟩]⟩],
    eq_ok_okD (by decide +kernel), by decide +kernel, by decide +kernel, modest_trusted, e,
    by decide +kernel, by decide +kernel, ?_⟩
  have h : (match unreduce (okD noResult
      (reduce modest (okD noInst (runOps exUnreduce)))) [⟨0, 1, [⟨0, 0, 0, false⟩, ⟨0, 0, 3, false⟩]⟩] with
    | .error .ub => true | _ => false) = true := by decide +kernel
  split at h
  · rename_i e; exact e
  · cases h

/-! ## Eligibility -/

/-- A 6 × 10 item, and a 4 × 10 item that may only be packed in bins of eligibility 3: there are
none. -/
def exEligible : List Op :=
  [.setObjective .binPacking, .addBinType 10 10, .setBinTypeCopies 0 (-1),
   .addItemType 6 10 true, .addItemType 4 10 true, .setItemTypeEligibility 1 3]

/-- **C110 is false of the code**: the reduction puts an item in a bin in which it may not be
packed, and the translated solution contains it. -/
theorem reduction_ignores_eligibility :
    ∃ ops inst ar r, runOps ops = .ok inst ∧ applies inst = true
      ∧ (∀ t ∈ inst.itemTypes, 0 < t.copies) ∧ Trusted ar ∧ reduce ar inst = .ok r
      ∧ ∃ bins, unreducedBins r [] = .ok bins
        ∧ ∃ b ∈ bins, ∃ p ∈ b.2, ¬ EligibleIn inst p.itemTypeId b.1 := by
  have h : isOk (reduce modest (okD noInst (runOps exEligible))) = true := by decide +kernel
  have e := eq_ok_okD (d := noResult) h
  refine ⟨exEligible, okD noInst (runOps exEligible), modest, _, eq_ok_okD (by decide +kernel),
    by decide +kernel, by decide +kernel, modest_trusted, e,
    [(0, [⟨0, 0, 0, false⟩, ⟨1, 6, 0, false⟩])], by decide +kernel, _, List.mem_singleton_self _,
    ⟨1, 6, 0, false⟩, by decide, ?_⟩
  unfold EligibleIn
  decide +kernel

/-! ## Bins that must be used -/

/-- Two bins of 10 × 10 that must both be used, a 10 × 10 item and a 3 × 3 item. -/
def exMinimum : List Op :=
  [.setObjective .feasibility, .addBinType 10 10, .setBinTypeCopies 0 2, .setBinTypeCopiesMin 0 2,
   .addItemType 10 10 true, .addItemType 3 3 true]

/-- **C109 is false of the code**: reducing a feasible instance throws, since the copies are
decreased below the minimum before the minimum is decreased. -/
theorem reduction_throws :
    ∃ ops inst ar bins, runOps ops = .ok inst ∧ applies inst = true
      ∧ (∀ t ∈ inst.itemTypes, 0 < t.copies) ∧ Trusted ar
      ∧ FullPacking inst bins ∧ (inst.binType 0).copiesMin ≤ bins.length
      ∧ (bins.length : Int) ≤ (inst.binType 0).copies
      ∧ reduce ar inst = .error .invalidArgument := by
  refine ⟨exMinimum, okD noInst (runOps exMinimum), modest, [[⟨0, 0, 0, false⟩], [⟨1, 0, 0, false⟩]],
    eq_ok_okD (by decide +kernel), by decide +kernel,
    by decide +kernel, modest_trusted, by decide +kernel, by decide +kernel, by decide +kernel, ?_⟩
  have h : (match reduce modest (okD noInst (runOps exMinimum)) with
    | .error .invalidArgument => true | _ => false) = true := by decide +kernel
  split at h
  · rename_i e; exact e
  · cases h

end PackingSolver.Rect.Reduction
