import Verif.Lemmas.Guil.Grouping
import Verif.Props.Guil.SolutionEx
import Mathlib.Tactic.Ring

/-!
# C120: grouping the identical bins of guillotine solutions
-/

namespace PackingSolver.Guil

open Spec Grouping.Spec

variable {inst : Instance} {s s' : Solution}

/-- What makes two listed plates identical: the type, the direction of the first cuts and the nodes. -/
def identity (p : Plate) : Nat × CutOrientation × List Node := (p.binTypeId, p.orientation, p.nodes)

/-! ## Which solutions are regular -/

/-- The empty solution lists no plate. -/
theorem regular_empty (inst : Instance) : Regular inst (plates (Solution.init inst)) :=
  ⟨(by intro p hp; cases hp), (by intro p hp; cases hp)⟩

/-- Solutions of the builder are regular, whatever calls were made, unless an item was set on the root
of a plate. -/
theorem regular_built {ops : List Op}
    (h : (SolutionBuilder.run inst ops).build inst = .ok s)
    (hroot : ∀ p ∈ plates s, ∀ n ∈ p.nodes, n.f = none → n.itemTypeId = p.binTypeId) :
    Regular inst (plates s) :=
  ⟨fun p hp n hn hf => ⟨hroot p hp n hn hf, GroupLemmas.built_roots h p hp n hn hf⟩,
    GroupLemmas.built_marks h⟩

/-- Appending a bin to a regular solution, from any solution of any instance with any renaming of the
types, gives a regular solution. -/
theorem regular_append {other : Solution} {pos : Nat} {copies : Int} {binTypeIds itemTypeIds : List Nat}
    (hs : Regular inst (plates s)) (ht : ∀ p ∈ plates other, ∀ n ∈ p.nodes, 0 ≤ n.t)
    (h : s.appendBin inst other pos copies binTypeIds itemTypeIds = .ok s') :
    Regular inst (plates s') := by
  obtain ⟨p, hp, -, e⟩ := append_bin_plates h ht
  rw [e]
  refine ⟨?_, ?_⟩
  · intro q hq n hn hf
    rcases List.mem_append.mp hq with hq | hq
    · unfold withoutResidual at hq
      rcases List.eq_nil_or_concat (plates s) with h0 | ⟨front, r, h0⟩
      · rw [h0] at hq; cases hq
      · rw [List.concat_eq_append] at h0
        rw [h0, List.reverse_append] at hq
        have hq' : q ∈ front.reverse.reverse ++ [{ r with
          nodes := match r.nodes.reverse with
            | [] => []
            | n :: l => l.reverse
              ++ [if n.itemTypeId = -3 then { n with itemTypeId := -1 } else n] }] := hq
        rw [List.reverse_reverse] at hq'
        rcases List.mem_append.mp hq' with hq | hq
        · exact hs.roots q (by rw [h0]; exact List.mem_append_left _ hq) n hn hf
        · have hr := hs.roots r (by rw [h0]; simp)
          rw [List.mem_singleton.mp hq] at hn ⊢
          dsimp only at hn ⊢
          rcases List.eq_nil_or_concat r.nodes with h1 | ⟨l, m, h1⟩
          · rw [h1] at hn; cases hn
          · rw [List.concat_eq_append] at h1
            rw [h1, List.reverse_append] at hn
            have hn' : n ∈ l.reverse.reverse
              ++ [if m.itemTypeId = -3 then { m with itemTypeId := -1 } else m] := hn
            rw [List.reverse_reverse] at hn'
            rcases List.mem_append.mp hn' with hn | hn
            · exact hr n (by rw [h1]; exact List.mem_append_left _ hn) hf
            · rw [List.mem_singleton.mp hn] at hf ⊢
              split_ifs at hf ⊢ with h3
              · have := (hr m (by rw [h1]; simp) hf).1
                omega
              · exact hr m (by rw [h1]; simp) hf
    · rw [List.mem_singleton.mp hq] at hn ⊢
      dsimp only at hn ⊢
      obtain ⟨m, -, rfl⟩ := List.mem_map.mp hn
      unfold importedNode at hf ⊢
      split_ifs at hf ⊢ with h1
      · exact ⟨rfl, rfl, rfl⟩
      · exact absurd hf h1
      · exact absurd hf h1
  · rw [List.dropLast_concat]
    exact GroupLemmas.withoutResidual_unmarked _ hs.marks

/-! ## What grouping does -/

/-- **C120**: grouping a regular solution gives a solution that lists every plate of the given one once,
in the order in which they first occur, each with the copies it has altogether. -/
theorem group_contents (h : Assembled inst s) (hreg : Regular inst (plates s))
    (hrun : groupIdenticalBins inst s = .ok s') :
    Assembled inst s' ∧ Regular inst (plates s')
      ∧ Grouped identity (·.copies) (plates s) (plates s') := by
  have hgr := (Grouping.grouped_of_insAll identity (·.copies) _ _ (GroupLemmas.grouped hreg hrun)).1
  refine ⟨?_, ⟨?_, ?_⟩, hgr⟩
  · unfold groupIdenticalBins at hrun
    exact foldlM_inv (Assembled inst) (.empty inst)
      (fun g a b _ ha hab => .append ha h hab) hrun
  · exact (hgr.forall_iff fun c => ∀ n ∈ c.2.2, n.f = none → n.itemTypeId = (c.1 : Int)
      ∧ n.r = (inst.binType c.1).w ∧ n.t = (inst.binType c.1).h).mpr hreg.roots
  · intro p hp
    have hk := GroupLemmas.keys_unmarked
      (fun c : Nat × CutOrientation × List Node => GroupLemmas.Unmarked c.2.2)
      ((plates s).map identity) (by
        intro x hx
        rw [← List.map_dropLast] at hx
        obtain ⟨q, hq, rfl⟩ := List.mem_map.mp hx
        exact hreg.marks q hq)
    rw [← hgr.order, ← List.map_dropLast] at hk
    exact hk _ (List.mem_map_of_mem hp)

/-- **C120**: the number of bins and of items, the copies of each bin type and item type, the cost, the
areas, the missing copies and the waste of all bins are kept, and the profit when no resource is
penalized.
Missing: the waste, the width and the height, which depend on the last plate, see
`GroupEx.group_changes_width`, and the profit with penalized resources; for the feasibility see
`group_feasible_partial`. -/
theorem group_totals_partial (h : Assembled inst s) (hreg : Regular inst (plates s))
    (hrun : groupIdenticalBins inst s = .ok s') :
    s'.numberOfBins = s.numberOfBins ∧ s'.numberOfItems = s.numberOfItems
      ∧ s'.cost = s.cost ∧ s'.fullArea = s.fullArea ∧ s'.itemArea = s.itemArea
      ∧ s'.fullWaste = s.fullWaste
      ∧ (∀ b < inst.numberOfBinTypes, s'.binCopies.getD b 0 = s.binCopies.getD b 0)
      ∧ (∀ i < inst.numberOfItemTypes, s'.itemCopies.getD i 0 = s.itemCopies.getD i 0)
      ∧ s'.numberOfInfeasibleItemCopiesMin = s.numberOfInfeasibleItemCopiesMin
      ∧ (ResourceIdsOk inst → CapacitiesNonneg inst → ConsumptionsNonneg inst →
          (∀ p ∈ plates s, p.binTypeId < inst.numberOfBinTypes) →
          (∀ b ∈ inst.binTypes, ∀ r ∈ b.resources, r.penalize = false) →
          s'.profit = s.profit) := by
  obtain ⟨hgr, hsum⟩ :=
    Grouping.grouped_of_insAll identity (·.copies) _ _ (GroupLemmas.grouped hreg hrun)
  have ha := (group_contents h hreg hrun).1
  obtain ⟨⟨a1, a2, a3, a4⟩, ⟨a5, a6, a7, a8⟩, ⟨-, a9⟩, -⟩ := assembled_totals h
  obtain ⟨⟨b1, b2, b3, b4⟩, ⟨b5, b6, b7, b8⟩, ⟨-, b9⟩, -⟩ := assembled_totals ha
  have hic : ∀ i, itemCopies (plates s') i = itemCopies (plates s) i :=
    fun i => hsum (fun k c => k * ((itemsOf c.2.2).count i : Int)) (by intros; ring)
  have hfa : fullArea inst (plates s') = fullArea inst (plates s) :=
    hsum (fun k c => k * trimmedArea (inst.binType c.1)) (by intros; ring)
  have hia : itemArea inst (plates s') = itemArea inst (plates s) :=
    hsum (fun k c => k * ((itemsOf c.2.2).map fun i =>
      (inst.itemType i).w * (inst.itemType i).h).sum) (by intros; ring)
  refine ⟨?_, ?_, ?_, ?_, ?_, ?_, ?_, ?_, ?_, ?_⟩
  · rw [a1, b1]; exact hsum (fun k _ => k) (by intros; rfl)
  · rw [a5, b5]
    exact hsum (fun k c => k * ((itemsOf c.2.2).length : Int)) (by intros; ring)
  · rw [a3, b3]
    exact hsum (fun k c => (k : ℚ) * (inst.binType c.1).cost) (by intros; push_cast; ring)
  · rw [a4, b4, hfa]
  · rw [a6, b6, hia]
  · rw [a9, b9, hfa, hia]
  · intro b hb
    rw [a2 b hb, b2 b hb]
    exact hsum (fun k c => if c.1 = b then k else 0) (by intro a b c; split_ifs <;> simp)
  · intro i hi
    rw [a7 i hi, b7 i hi, hic]
  · rw [a8, b8]
    unfold missing
    simp only [hic]
  · intro hR hcap hnn hty hpen
    have hty' : ∀ p ∈ plates s', p.binTypeId < inst.numberOfBinTypes :=
      (hgr.forall_iff fun c => c.1 < inst.numberOfBinTypes).mpr hty
    rw [assembled_profit h hR hcap hnn, assembled_profit ha hR hcap hnn,
      GroupLemmas.penalties_zero hty hpen, GroupLemmas.penalties_zero hty' hpen]
    exact hsum (fun k c => (k : ℚ) * ((itemsOf c.2.2).map fun i => (inst.itemType i).profit).sum)
      (by intros; push_cast; ring)

/-- **C120**, the part of the feasibility that is proved: every condition on single plates and every
condition on the copies of the items holds of both solutions or of neither.
Missing: that the same is true of the order of the stacks, of the callback and of the number of stages
of the bins. -/
theorem group_feasible_partial (h : Assembled inst s) (hreg : Regular inst (plates s))
    (hrun : groupIdenticalBins inst s = .ok s') (hne : s.bins ≠ [])
    (hst : 0 ≤ inst.parameters.numberOfStages) (hc : ∀ p ∈ plates s, 0 ≤ p.copies)
    (hi : ∀ i < inst.numberOfItemTypes, 0 ≤ (inst.itemType i).copies)
    (hR : ResourceIdsOk inst) (hcap : CapacitiesNonneg inst)
    (hstacks : StacksOk inst (plates s') ↔ StacksOk inst (plates s))
    (hcb : inst.callback s'.bins = inst.callback s.bins)
    (hstages : (∀ b ∈ s'.bins, b.numberOfStages ≤ inst.parameters.numberOfStages)
      ↔ ∀ b ∈ s.bins, b.numberOfStages ≤ inst.parameters.numberOfStages) :
    s'.feasible = s.feasible := by
  have hv := GroupLemmas.grouped hreg hrun
  obtain ⟨hgr, hsum⟩ := Grouping.grouped_of_insAll identity (·.copies) _ _ hv
  have ha := (group_contents h hreg hrun).1
  have hne' : s'.bins ≠ [] := by
    intro e
    have h1 : plates s' = [] := by unfold plates; rw [e]; rfl
    have h2 := hgr.nil_iff.mp h1
    unfold plates at h2
    exact hne (List.map_eq_nil_iff.mp h2)
  have hc' : ∀ p ∈ plates s', 0 ≤ p.copies := by
    intro p hp
    refine Grouping.insAll_nonneg _ ?_ (GroupLemmas.content p, p.copies)
      (hv ▸ List.mem_map_of_mem (f := fun p : Plate => (GroupLemmas.content p, p.copies)) hp)
    intro g hg
    obtain ⟨q, hq, rfl⟩ := List.mem_map.mp hg
    exact hc q hq
  have hic : ∀ i, itemCopies (plates s') i = itemCopies (plates s) i :=
    fun i => hsum (fun k c => k * ((itemsOf c.2.2).count i : Int)) (by intros; ring)
  have hcop : CopiesOk inst (plates s') ↔ CopiesOk inst (plates s) := by
    unfold CopiesOk
    simp only [hic]
  rw [Bool.eq_iff_iff, assembled_feasible_iff h hne hst hc hi hR hcap,
    assembled_feasible_iff ha hne' hst hc' hi hR hcap, hstages, hstacks, hcb, hcop]
  have hplates := hgr.forall_iff fun c =>
    (fun p : Plate => WasteOk inst p
        ∧ DistancesOk 1 inst.parameters.minimumDistance1Cuts
            inst.parameters.maximumDistance1Cuts p
        ∧ DistancesOk 2 inst.parameters.minimumDistance2Cuts
            inst.parameters.maximumDistance2Cuts p
        ∧ Number1Ok inst p ∧ Number2Ok inst p ∧ DefectsOk inst p ∧ CutThroughOk inst p
        ∧ ResourcesOk inst p.binTypeId p.items) ⟨c.1, 0, c.2.1, c.2.2⟩
  exact and_congr_right fun _ => and_congr_left fun _ => hplates

/-- **C120**, partial: grouping the bins of a solution of the builder returns.
Missing: instances with a minimum waste length above one, where the indicators may end the program. -/
theorem group_returns_partial {ops : List Op} (ht : TablesOk inst)
    (hs : ∀ bt ∈ inst.binTypes, Sized bt) (hw : inst.parameters.minimumWasteLength ≤ 1)
    (hb : (SolutionBuilder.run inst ops).build inst = .ok s) :
    ∃ s', groupIdenticalBins inst s = .ok s' := by
  unfold groupIdenticalBins
  have hlt := (Grouping.binGroups_view binContent (fun b : SolutionBin => b.copies) s.bins).2
  have h0 : (Solution.init inst).minimumWasteLengthFeasible = true := rfl
  generalize Solution.init inst = t at h0
  generalize Grouping.binGroups binContent (fun b : SolutionBin => b.copies) s.bins = gs at hlt
  induction gs generalizing t with
  | nil => exact ⟨t, rfl⟩
  | cons g gs ih =>
    obtain ⟨t1, h1, h2, -⟩ := PostProcess.appendBin_returns (s := t) (copies := g.2) ht hs hw hb
      (List.getElem?_eq_getElem (hlt g (by simp))) h0
    obtain ⟨s', h3⟩ := ih t1 h2 (fun x hx => hlt x (List.mem_cons_of_mem _ hx))
    exact ⟨s', by rw [List.foldlM_cons, h1]; exact h3⟩

namespace GroupEx

/-- A plate with one item, one with two, the first again, and the first with a residual. -/
def ops : List Op :=
  [.addBin 0 1 .vertical, .addNode 1 10, .setItem 0,
   .addBin 0 2 .vertical, .addNode 1 10, .setItem 0, .addNode 1 20, .setItem 0,
   .addBin 0 3 .vertical, .addNode 1 10, .setItem 0,
   .addBin 0 1 .vertical, .addNode 1 10, .setItem 0]

def sol : Solution := NegEx.made NegEx.instPlain ops

def grouped : Solution := match groupIdenticalBins NegEx.instPlain sol with
  | .ok s => s
  | .error _ => {}

theorem sol_built : (SolutionBuilder.run NegEx.instPlain ops).build NegEx.instPlain = .ok sol := by
  decide +kernel

theorem sol_grouped : groupIdenticalBins NegEx.instPlain sol = .ok grouped := by decide +kernel

theorem sol_regular : Regular NegEx.instPlain (plates sol) :=
  regular_built sol_built (by decide +kernel)

/-- The hypotheses hold of this solution. -/
example : Assembled NegEx.instPlain sol ∧ Regular NegEx.instPlain (plates sol)
    ∧ groupIdenticalBins NegEx.instPlain sol = .ok grouped
    ∧ (plates grouped).map (fun p => (p.copies, p.items.length)) = [(4, 1), (2, 2), (1, 1)]
    ∧ (∀ p ∈ plates sol, ∀ n ∈ p.nodes, 0 ≤ n.t)
    ∧ grouped.numberOfBins = 7 ∧ grouped.numberOfItems = 9 :=
  ⟨.built sol_built, sol_regular, sol_grouped, by decide +kernel, by decide +kernel,
    by decide +kernel, by decide +kernel⟩

/-- **C120** fails for bins with the same cuts: the residual of the last plate keeps it apart from plates
that have the same items at the same places. -/
theorem group_keeps_residual_apart : ∃ (inst : Instance) (s s' : Solution), Assembled inst s
    ∧ groupIdenticalBins inst s = .ok s'
    ∧ ∃ p ∈ plates s', ∃ q ∈ plates s', p ≠ q ∧ p.binTypeId = q.binTypeId
      ∧ p.orientation = q.orientation
      ∧ p.nodes.map (fun n => (region n, itemsOf [n])) = q.nodes.map (fun n => (region n, itemsOf [n])) := by
  refine ⟨NegEx.instPlain, sol, grouped, .built sol_built, sol_grouped, ?_⟩
  decide +kernel

/-- Plates of two sizes. -/
def twoSizes : Instance := {
  objective := .binPacking
  itemTypes := [{ w := 10, h := 60, copies := 9, copiesMin := 0, resourceIds := [[], []] }]
  binTypes := [{ w := 100, h := 60, copies := 2 }, { w := 50, h := 60, copies := 1 }] }

/-- A large plate, a small one, and the large one again. -/
def sizeOps : List Op :=
  [.addBin 0 1 .vertical, .addNode 1 90, .addNode 1 100, .setItem 0,
   .addBin 1 1 .vertical, .addNode 1 10, .setItem 0,
   .addBin 0 1 .vertical, .addNode 1 90, .addNode 1 100, .setItem 0]

def sizeSol : Solution := NegEx.made twoSizes sizeOps

def sizeGrouped : Solution := match groupIdenticalBins twoSizes sizeSol with
  | .ok s => s
  | .error _ => {}

theorem sizeSol_built : (SolutionBuilder.run twoSizes sizeOps).build twoSizes = .ok sizeSol := by
  decide +kernel

/-- **C120** fails for the width: grouping moves another plate to the last place. -/
theorem group_changes_width : ∃ (inst : Instance) (s s' : Solution), Assembled inst s
    ∧ Regular inst (plates s) ∧ groupIdenticalBins inst s = .ok s' ∧ s'.width ≠ s.width :=
  ⟨twoSizes, sizeSol, sizeGrouped, .built sizeSol_built,
    regular_built sizeSol_built (by decide +kernel), by decide +kernel, by decide +kernel⟩

/-- An item as large as the plate. -/
def fullInst : Instance := {
  objective := .binPacking
  itemTypes := [{ w := 7, h := 7, copies := 1, copiesMin := 0, resourceIds := [[]] },
    { w := 10, h := 10, copies := 9, copiesMin := 0, resourceIds := [[]] }]
  binTypes := [{ w := 10, h := 10, copies := 3 }] }

/-- An uncut plate, and one whose root was given an item. -/
def rootOps : List Op := [.addBin 0 1 .vertical, .addBin 0 1 .vertical, .setItem 1]

/-- **C120** needs regular solutions: an item set on the root of a plate keeps it apart from an empty
plate, and is then forgotten, so that the same plate is listed twice. -/
theorem group_lists_plate_twice : ∃ (inst : Instance) (s s' : Solution), Assembled inst s
    ∧ groupIdenticalBins inst s = .ok s' ∧ ¬((plates s').map identity).Nodup := by
  let s := NegEx.made fullInst rootOps
  let s' := match groupIdenticalBins fullInst s with
    | .ok s => s
    | .error _ => {}
  have hb : (SolutionBuilder.run fullInst rootOps).build fullInst = .ok s := by decide +kernel
  exact ⟨fullInst, s, s', .built hb, by decide +kernel, by decide +kernel⟩

theorem twoSizes_stacks (ps : List Plate) : StacksOk twoSizes ps := by
  intro _ p _ _ _ n _ _ _ _ hpos
  have h : ∀ i, (twoSizes.itemType i).stackPos = 0 := by
    intro i
    match i with
    | 0 => rfl
    | i + 1 => rfl
  rw [h] at hpos
  omega

theorem twoSizes_resources : ResourceIdsOk twoSizes := by
  have h : ∀ i < twoSizes.numberOfItemTypes, ∀ b < twoSizes.numberOfBinTypes,
      (twoSizes.itemType i).resourceIds.getD b [] = []
        ∧ (twoSizes.binType b).resources.length = 0 := by
    decide
  intro i hi b hb
  obtain ⟨h1, h2⟩ := h i hi b hb
  rw [h1, h2]
  exact ⟨List.nodup_nil, fun r =>
    ⟨fun h => (List.not_mem_nil h).elim, fun h => (Nat.not_lt_zero r h.1).elim⟩⟩

/-- The hypotheses of `group_feasible_partial` and `group_returns_partial` hold of the solution with two
sizes. -/
example : sizeSol.bins ≠ [] ∧ sizeSol.feasible = true ∧ TablesOk twoSizes
    ∧ (∀ bt ∈ twoSizes.binTypes, Sized bt) ∧ twoSizes.parameters.minimumWasteLength ≤ 1
    ∧ 0 ≤ twoSizes.parameters.numberOfStages ∧ ResourceIdsOk twoSizes ∧ CapacitiesNonneg twoSizes
    ∧ (StacksOk twoSizes (plates sizeGrouped) ↔ StacksOk twoSizes (plates sizeSol))
    ∧ (∀ b ∈ sizeGrouped.bins, b.numberOfStages ≤ twoSizes.parameters.numberOfStages)
    ∧ (∀ b ∈ sizeSol.bins, b.numberOfStages ≤ twoSizes.parameters.numberOfStages) := by
  refine ⟨by decide +kernel, by decide +kernel, ⟨by decide, by decide, by decide, by decide⟩, ?_,
    by decide +kernel, by decide +kernel, twoSizes_resources, ?_,
    iff_of_true (twoSizes_stacks _) (twoSizes_stacks _), by decide +kernel, by decide +kernel⟩
  · intro bt hbt
    rcases List.mem_cons.mp hbt with rfl | hbt
    · exact ⟨by decide, by decide, by decide, by decide, by decide, by decide⟩
    · rw [List.mem_singleton.mp hbt]
      exact ⟨by decide, by decide, by decide, by decide, by decide, by decide⟩
  · unfold CapacitiesNonneg; decide +kernel

end GroupEx

end PackingSolver.Guil
