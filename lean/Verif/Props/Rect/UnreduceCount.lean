import Verif.Lemmas.Rect.ReduceCountRun
import Verif.Props.Rect.Unreduce

/-!
# Rectangle bin packing: how often the translated solution packs an item
-/

namespace PackingSolver.Rect.Reduction

open InstanceBuilder Rect.Spec FlipLemmas
open PackingSolver.OneDim.Examples (okD)

theorem itemCopies_once (bins : List (Nat × List PlacedItem)) (j : Nat) :
    itemCopies (bins.map fun b => ⟨b.1, 1, b.2⟩) j = (bins.map fun b => count b.2 j).sum := by
  unfold itemCopies
  rw [List.map_map]
  congr 1
  apply List.map_congr_left
  intro b _
  simp

/-- **C110** (partial: no item may be both bigger than half of the bin and turned out of that
position, see `unreduce_overpacks`; that all items are packed and eligibility are not covered):
whatever the solver and the timer the reduction consults answer, every valid packing of the reduced
instance is translated to a packing that uses no item type more often than it has copies. -/
theorem unreduced_within_copies_partial {ops : List Op} {inst : Instance} {ar : Around} {r : Result}
    {bins : List (List PlacedItem)} {sol : List PackedBin} {s : Solution}
    (hb : runOps ops = .ok inst) (ha : applies inst = true)
    (hn : ∀ t ∈ inst.itemTypes, 0 ≤ t.copies) (hA : Trusted ar)
    (hT : NoTurning inst (shrunk inst).1 (shrunk inst).2)
    (h : reduce ar inst = .ok r) (hf : FullPacking inst bins)
    (hs : ValidPacking r.reduced sol) (hu : unreduce r sol = .ok s) :
    ∀ j, j < inst.numberOfItemTypes → itemCopies (packingOf s) j ≤ (inst.itemType j).copies := by
  intro j hj
  obtain ⟨-, hR, ho, hi⟩ := reduce_geo hb hA h
  have hW : Within (envOf ar inst) bins.length j (inst.itemType j).copies r.st := by
    unfold reduce at h
    obtain ⟨st, h1, h⟩ := bind_ok.mp h
    obtain ⟨red, h2, h⟩ := bind_ok.mp h
    cases h
    refine rounds_within ⟨hA.solve, hA.sort, hT⟩ h1
      ⟨start_inv (env := envOf ar inst) (envOf_sizes hb hn) (applies_one ha) rfl rfl hf, ?_⟩
    exact (start_uses inst hj).le
  unfold unreduce at hu
  obtain ⟨out, h1, hu⟩ := bind_ok.mp hu
  rw [ho] at hu
  rw [(builder_packing hu).1]
  change itemCopies (opsPacking (allCalls out)) j ≤ _
  rw [opsPacking_calls, itemCopies_once]
  exact (unreducedBins_count hi hR hs hW.1.nonNeg h1 j).trans hW.2

/-- The hypotheses are met by `exKeeps`: the packing of the reduced instance is valid and all three
items are packed once. -/
example : runOps exKeeps = .ok exInst ∧ applies exInst = true
    ∧ (∀ t ∈ exInst.itemTypes, 0 ≤ t.copies) ∧ Trusted modest
    ∧ NoTurning exInst (shrunk exInst).1 (shrunk exInst).2
    ∧ FullPacking exInst [[⟨2, 0, 0, false⟩], [⟨0, 0, 5, false⟩, ⟨1, 6, 0, false⟩]]
    ∧ (∃ r, reduce modest exInst = .ok r ∧ ValidPacking r.reduced [⟨0, 1, [⟨0, 0, 4, false⟩]⟩]
      ∧ isOk (unreduce r [⟨0, 1, [⟨0, 0, 4, false⟩]⟩]) = true)
    ∧ (List.range 3).map (itemCopies exUnreduced) = [1, 1, 1] := by
  refine ⟨eq_ok_okD (by decide +kernel), by decide +kernel, by decide +kernel, modest_trusted,
    noTurning_of_oriented (by decide +kernel) _ _, by decide +kernel,
    ⟨_, eq_ok_okD (d := noResult) (by decide +kernel), ⟨?_, ?_, ?_⟩, by decide +kernel⟩,
    by decide +kernel⟩
  · decide +kernel
  · decide +kernel
  · decide +kernel

/-! ## Items that may be turned -/

/-- Two 6 × 5 items, turned, side by side in a bin of 10 × 7, and a 1 × 1 item above them. -/
def turnedBin : List PlacedItem := [⟨0, 0, 0, true⟩, ⟨0, 5, 0, true⟩, ⟨1, 0, 6, false⟩]

/-- A solver that answers this bin wherever it is a valid packing, and the empty packing
otherwise. -/
def turnedAnswer (inst : Instance) : List PackedBin :=
  if 0 < inst.numberOfBinTypes ∧ 0 < (inst.binType 0).copies ∧ BinPacking inst 0 turnedBin
      ∧ 2 ≤ (inst.itemType 0).copies ∧ 1 ≤ (inst.itemType 1).copies then [⟨0, 1, turnedBin⟩]
  else []

def turning : Around :=
  ⟨999, fun _ inst => turnedAnswer inst, fun _ => false,
    fun lt l => l.insertionSort fun a b => !lt b a = true⟩

/-- It answers valid packings. -/
theorem turning_trusted : Trusted turning := by
  refine ⟨fun t ops inst _ => ?_, fun lt l => List.perm_insertionSort _ _⟩
  change ValidPacking inst (turnedAnswer inst)
  unfold turnedAnswer
  split_ifs with h
  · obtain ⟨h1, h2, h3, h4, h5⟩ := h
    refine ⟨fun b hb => ?_, fun i hi => ?_, fun i hi => ?_⟩
    · rw [List.mem_singleton.mp hb]
      exact ⟨h1, by decide, h3⟩
    · rcases i with _ | _ | i
      · have : itemCopies [⟨0, 1, turnedBin⟩] 0 = 2 := by decide
        rw [this]; omega
      · have : itemCopies [⟨0, 1, turnedBin⟩] 1 = 1 := by decide
        change itemCopies [⟨0, 1, turnedBin⟩] 1 ≤ max 0 (inst.itemType 1).copies
        rw [this]; omega
      · have : itemCopies [⟨0, 1, turnedBin⟩] (i + 1 + 1) = 0 := by
          unfold itemCopies count turnedBin
          simp
        rw [this]; omega
    · rcases i with _ | i
      · have : Spec.binCopies [⟨0, 1, turnedBin⟩] 0 = 1 := by decide
        rw [this]; omega
      · have : Spec.binCopies [⟨0, 1, turnedBin⟩] (i + 1) = 0 := by
          unfold Spec.binCopies
          simp
        rw [this]; omega
  · exact ⟨by simp, fun i _ => by rw [itemCopies_nil]; omega, fun i _ => by rw [binCopies_nil]; omega⟩

/-- Bins of 10 × 7, two 6 × 5 items that may be rotated and a 1 × 1 item. -/
def exTwice : List Op :=
  [.setObjective .binPacking, .addBinType 10 7, .setBinTypeCopies 0 (-1),
   .addItemType 6 5 false, .setItemTypeCopies 0 2, .addItemType 1 1 true]

/-- **C110 is false of the code**: the solver answers a valid packing with both copies of a big item
in one bin; the reduction takes one copy away, and the translated solution packs the item three
times although it has two copies. -/
theorem unreduce_overpacks :
    ∃ ops inst ar r s, runOps ops = .ok inst ∧ applies inst = true
      ∧ (∀ t ∈ inst.itemTypes, 0 < t.copies) ∧ Trusted ar ∧ reduce ar inst = .ok r
      ∧ FullPacking inst [turnedBin] ∧ ValidPacking r.reduced [] ∧ unreduce r [] = .ok s
      ∧ (inst.itemType 0).copies = 2 ∧ itemCopies (packingOf s) 0 = 3 := by
  have h : isOk (reduce turning (okD noInst (runOps exTwice))) = true := by decide +kernel
  have e := eq_ok_okD (d := noResult) h
  have h' : (match unreduce (okD noResult (reduce turning (okD noInst (runOps exTwice)))) [] with
    | .ok s => decide (itemCopies (packingOf s) 0 = 3) | .error _ => false) = true := by
    decide +kernel
  split at h'
  · rename_i s hs
    exact ⟨exTwice, okD noInst (runOps exTwice), turning, _, s, eq_ok_okD (by decide +kernel),
      by decide +kernel, by decide +kernel, turning_trusted, e, by decide +kernel,
      ⟨by simp, fun i _ => by rw [itemCopies_nil]; omega,
        fun i _ => by rw [binCopies_nil]; omega⟩, hs, by decide +kernel, of_decide_eq_true h'⟩
  · cases h'

end PackingSolver.Rect.Reduction
