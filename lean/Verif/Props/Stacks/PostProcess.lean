import Verif.Lemmas.Stacks.PostProcess
import Verif.Props.Stacks.Feasible
import Mathlib.Tactic.Ring

/-!
# C120: grouping the identical bins of boxstacks solutions
-/

namespace PackingSolver.Stacks

open Spec Grouping.Spec
open OneDim.Examples (okD)

variable {inst : Instance} {s : Solution}

/-- What makes two listed bins identical: the bin type and the stacks at their places with
their items. -/
def identity (b : PackedBin) : Nat × List PackedStack := (b.binTypeId, b.piles)

/-- **C120**: `group_identical_bins` returns a solution that lists every bin of the given one once,
in the order in which they first occur, each with the copies it has altogether. -/
theorem group_contents (h : Reachable inst s) :
    ∃ s', groupIdenticalBins inst s = .ok s' ∧ Reachable inst s'
      ∧ Grouped identity (·.copies) (packingOf s) (packingOf s') := by
  obtain ⟨s', h1, hr, hv⟩ := GroupLemmas.grouped h
  exact ⟨s', h1, hr, (Grouping.grouped_of_insAll identity (·.copies) _ _ hv).1⟩

/-- **C120**, the part of the indicators that holds: grouping keeps the number of bins, of stacks and of
items, the copies of each item and bin type, the cost, the areas, the volumes, the weight and the
profit, and the feasibility for a callback giving the same answer on both lists.
Missing: the extents, see `group_changes_extent`, and the reported violation of the weight constraints,
see `group_changes_violation`. -/
theorem group_indicators_partial (h : Reachable inst s) {s' : Solution}
    (hrun : groupIdenticalBins inst s = .ok s') :
    s'.numberOfBins = s.numberOfBins ∧ s'.numberOfStacks = s.numberOfStacks
      ∧ s'.numberOfItems = s.numberOfItems
      ∧ s'.binArea = s.binArea ∧ s'.binVolume = s.binVolume ∧ s'.stackArea = s.stackArea
      ∧ s'.itemVolume = s.itemVolume ∧ s'.itemWeight = s.itemWeight
      ∧ s'.itemProfit = s.itemProfit ∧ s'.binCost = s.binCost
      ∧ (∀ t, t < inst.numberOfBinTypes → s'.binCopies.getD t 0 = s.binCopies.getD t 0)
      ∧ (∀ i, i < inst.numberOfItemTypes → s'.itemCopies.getD i 0 = s.itemCopies.getD i 0)
      ∧ (TrucksOk inst → inst.callback (packingOf s') = inst.callback (packingOf s) →
          s'.feasible = s.feasible) := by
  obtain ⟨s2, h1, hr, hv⟩ := GroupLemmas.grouped h
  cases Except.ok.inj (h1.symm.trans hrun)
  obtain ⟨hgr, hsum⟩ := Grouping.grouped_of_insAll identity (·.copies) _ _ hv
  have hi := h.good.indic
  have hi' := hr.good.indic
  have hic : ∀ i, Spec.itemCopies (binsView s'.bins) i = Spec.itemCopies (binsView s.bins) i :=
    fun i => hsum (fun k c => k * count (c.2.flatMap (·.items)) i) (by intros; ring)
  refine ⟨?_, ?_, ?_, ?_, ?_, ?_, ?_, ?_, ?_, ?_, ?_, ?_, ?_⟩
  · rw [hi.numberOfBins, hi'.numberOfBins]
    exact hsum (fun k _ => k) (by intros; rfl)
  · rw [hi.numberOfStacks, hi'.numberOfStacks]
    exact hsum (fun k c => k * (c.2.length : Int)) (by intros; ring)
  · rw [hi.numberOfItems, hi'.numberOfItems]
    exact hsum (fun k c => k * ((c.2.flatMap (·.items)).length : Int)) (by intros; ring)
  · rw [hi.binArea, hi'.binArea]
    exact hsum (fun k c => k * ((inst.binType c.1).box.x * (inst.binType c.1).box.y))
      (by intros; ring)
  · rw [hi.binVolume, hi'.binVolume]
    exact hsum (fun k c => k * volumeOf (inst.binType c.1).box) (by intros; ring)
  · rw [hi.stackArea, hi'.stackArea]
    exact hsum (fun k c => k * (c.2.map floorArea).sum) (by intros; ring)
  · rw [hi.itemVolume, hi'.itemVolume]
    exact hsum (fun k c => k * (c.2.map (packedVolume inst)).sum) (by intros; ring)
  · rw [hi.itemWeight, hi'.itemWeight]
    exact hsum (fun k c => (k : ℚ) * ((c.2.flatMap (·.items)).map
      fun i => (inst.itemType i.1).weight).sum)
      (by intros; push_cast; ring)
  · rw [hi.itemProfit, hi'.itemProfit]
    exact hsum (fun k c => (k : ℚ) * itemsProfit inst (c.2.flatMap (·.items)))
      (by intros; push_cast; ring)
  · rw [hi.cost, hi'.cost]
    exact hsum (fun k c => (k : ℚ) * (inst.binType c.1).cost) (by intros; push_cast; ring)
  · intro t ht
    rw [hi.binCopies t ht, hi'.binCopies t ht]
    exact hsum (fun k c => if c.1 = t then k else 0) (by intro a b c; split_ifs <;> simp)
  · intro i hlt; rw [hi.itemCopies i hlt, hi'.itemCopies i hlt, hic]
  · intro hT hcb
    have hnil : packingOf s' = [] ↔ packingOf s = [] := hgr.nil_iff
    rw [Bool.eq_iff_iff]
    by_cases he : packingOf s = []
    · rw [feasible_empty h he, feasible_empty hr (hnil.mpr he)]
    · rw [feasible_iff_partial h he hT, feasible_iff_partial hr (fun e => he (hnil.mp e)) hT, hcb]
      have hw : (∀ b ∈ packingOf s', WeightOk inst b ∧ AxlesOk inst b)
          ↔ ∀ b ∈ packingOf s, WeightOk inst b ∧ AxlesOk inst b :=
        hgr.forall_iff (fun c => WeightOk inst ⟨c.1, 0, c.2⟩ ∧ AxlesOk inst ⟨c.1, 0, c.2⟩)
      have hc : CopiesOk inst (packingOf s') ↔ CopiesOk inst (packingOf s) := by
        unfold CopiesOk
        have : ∀ i, Spec.itemCopies (packingOf s') i = Spec.itemCopies (packingOf s) i := hic
        simp only [this]
      rw [hw, hc]

/-- A bin, the trailer, and the bin again. -/
def groupMid : Solution := okD {} (SolEx.second.appendBin SolEx.inst SolEx.first 0 1 [] [])

def groupSol : Solution := okD {} (groupMid.appendBin SolEx.inst SolEx.second 0 1 [] [])

theorem groupSol_reachable : Reachable SolEx.inst groupSol :=
  .appendBin groupMid groupSol SolEx.second 0 1 [] []
    (.appendBin SolEx.second groupMid SolEx.first 0 1 [] []
      (.built SolEx.ops2 _ (by decide +kernel)) (by decide +kernel)) (by decide +kernel)

example : Reachable SolEx.inst groupSol ∧ groupSol.feasible = true ∧ groupSol.bins.length = 3
    ∧ TrucksOk SolEx.inst
    ∧ (packingOf (okD {} (groupIdenticalBins SolEx.inst groupSol))).map
        (fun b => (b.binTypeId, b.copies, b.piles.length)) = [(1, 2, 1), (0, 1, 2)] :=
  ⟨groupSol_reachable, by decide +kernel, by decide +kernel, SolEx.trucksOk, by decide +kernel⟩

/-- **C120** fails for the extents: grouping moves another bin to the last place. -/
theorem group_changes_extent : ∃ (inst : Instance) (s s' : Solution), Reachable inst s
    ∧ s.feasible = true ∧ groupIdenticalBins inst s = .ok s' ∧ s'.xMax ≠ s.xMax :=
  ⟨SolEx.inst, groupSol, okD {} (groupIdenticalBins SolEx.inst groupSol), groupSol_reachable,
    by decide +kernel, by decide +kernel, by decide +kernel⟩

/-- Two trailers with a heavy rear. -/
def rearTwice : Solution := okD {} (rearSol.appendBin SolEx.inst rearSol 0 1 [] [])

/-- **C120** fails for the reported violation of the weight constraints: the violation of a group is
counted once. -/
theorem group_changes_violation : ∃ (inst : Instance) (s s' : Solution), Reachable inst s
    ∧ groupIdenticalBins inst s = .ok s' ∧ s'.weightViolation inst ≠ s.weightViolation inst :=
  ⟨SolEx.inst, rearTwice, okD {} (groupIdenticalBins SolEx.inst rearTwice),
    .appendBin rearSol rearTwice rearSol 0 1 [] [] (.built rearOps _ (by decide +kernel))
      (by decide +kernel), by decide +kernel, by decide +kernel⟩

end PackingSolver.Stacks
