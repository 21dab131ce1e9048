import Mathlib.Data.List.Sort
import Verif.Props.Guil.PostProcess

/-!
# Guillotine patterns rebuilt from the places of the items: examples

Property C117.
-/

namespace PackingSolver.Guil

open Guil.Spec
open PackingSolver.Spec (IsSortOf)
open PostProcess

/-! ## Recursions that never end -/

section
variable {inst : Instance} {bt : BinType} {b : Nat} {o : CutOrientation}
  {σ : Bool → List ItemPlacement → List ItemPlacement}

/-- All items of the region form one group in both directions, without waste before it. -/
def Stuck (σ : Bool → List ItemPlacement → List ItemPlacement) (ct : Int) (R : Region)
    (P : List ItemPlacement → Prop) : Prop :=
  ∀ items, P items → items ≠ [] ∧ fillsRegion R.l R.r R.b R.t items = none
    ∧ ∀ v, ∃ g, findGroups σ items v ct = [g] ∧ g.cutPosition = R.high v
      ∧ ¬ groupStart v g - ct > R.low v ∧ P g.items

theorem stuck_region {R : Region} {P : List ItemPlacement → Prop} (hR : R.Nonempty) (ho : o ≠ .any)
    (hP : Stuck σ inst.parameters.cutThickness R P) : ∀ (fuel : Nat) (items : List ItemPlacement)
    (d : Int) (nodes : List Node), 0 ≤ d → P items → Spaces.OpenLeaf inst bt b nodes d R →
    ∃ ops nodes', regionOps σ inst.parameters.cutThickness o fuel R.l R.r R.b R.t items (d + 1)
      = ⟨ops, false⟩ ∧ nodesRun inst o nodes ops = some nodes' := by
  intro fuel
  induction fuel with
  | zero => intro items d nodes _ _ _; exact ⟨[], nodes, rfl, rfl⟩
  | succ fuel ih =>
    intro items d nodes hd hp hl
    obtain ⟨hne, hfill, hg⟩ := hP items hp
    obtain ⟨g, e1, e2, e3, e4⟩ := hg (vert o d)
    obtain ⟨n1, c1, hcut⟩ := (PostProcess.OpenLeaf.at (o := o) hl).cut hd (pos := R.high (vert o d))
      (region_low_lt hR) (le_refl _)
    have hleaf := hcut.leaf.openLeaf
    have hstrip : strip (vert o d) R (R.low (vert o d)) (R.high (vert o d)) = R := by
      cases vert o d <;> rfl
    rw [hstrip] at hleaf
    obtain ⟨ops, n2, r1, r2⟩ := ih g.items (d + 1) n1 (by omega) e4 hleaf
    refine ⟨.addNode (d + 1) (R.high (vert o d)) :: ops, n2, ?_, ?_⟩
    · unfold regionOps
      rw [if_neg (by rw [List.isEmpty_iff]; exact hne), hfill]
      have hnone : (if d + 1 > 1 then (none : Option Nat) else none) = none := by
        split_ifs <;> rfl
      rw [hnone]
      dsimp only
      rw [isVerticalCut_eq ho, show d + 1 - 1 = d by omega, e1]
      unfold groupsOps
      dsimp only
      have hprev : (if vert o d = true then R.l else R.b) = R.low (vert o d) := rfl
      simp only [hprev, decide_eq_false e3, Bool.false_eq_true, if_false, e2]
      have hsub : regionOps σ inst.parameters.cutThickness o fuel
          (if vert o d = true then R.low (vert o d) else R.l)
          (if vert o d = true then R.high (vert o d) else R.r)
          (if vert o d = true then R.b else R.low (vert o d))
          (if vert o d = true then R.t else R.high (vert o d)) g.items (d + 1 + 1) = ⟨ops, false⟩ := by
        rw [← r1]
        cases vert o d <;> rfl
      rw [hsub]
      rfl
    · rw [nodesRun_addNode, if_neg (by omega), c1]
      exact r2

/-- Then the rebuilding does not end, however large the call stack. -/
theorem stuck_never_returns {P : List ItemPlacement → Prop} (hb : b < inst.numberOfBinTypes)
    (hs : Sized (inst.binType b)) (hP : Stuck σ inst.parameters.cutThickness (usable (inst.binType b)) P)
    {items : List ItemPlacement} (hp : P items) (fuel : Nat) :
    buildGuillotineSolutions inst σ fuel b items = .error .ub := by
  have hone : ∀ o : CutOrientation, o ≠ .any → tryBuild inst σ fuel b items o = .error .ub := by
    intro o ho
    obtain ⟨ops, nodes', e1, e2⟩ := stuck_region (inst := inst) (b := b) (o := o)
      (usable_nonempty hs) ho hP fuel items 0 _ (le_refl _) hp (openLeaf_initial hs)
    have hne : ¬ items.isEmpty = true := by rw [List.isEmpty_iff]; exact (hP items hp).1
    unfold tryBuild
    rw [if_neg (by omega)]
    dsimp only
    rw [if_neg hne]
    rw [usable_eq] at e1
    dsimp only at e1
    rw [show (0 : Int) + 1 = 1 from rfl] at e1
    rw [e1]
    dsimp only
    have hadd : (SolutionBuilder.new inst).step inst (.addBin b 1 o)
        = (⟨{ (SolutionBuilder.new inst).sol with bins := [] ++ [{ binTypeId := b, copies := 1, firstCutOrientation := o, nodes := initialNodes (inst.binType b) b }] }⟩, none) := by
      show (SolutionBuilder.new inst).addBin inst b 1 o = _
      unfold SolutionBuilder.addBin
      rw [if_neg (by omega)]
      rfl
    have hthrow : ∃ sb, (SolutionBuilder.new inst).runOrThrow inst (.addBin b 1 o :: ops) = .ok sb := by
      unfold SolutionBuilder.runOrThrow
      rw [hadd]
      exact ⟨_, runOrThrow_nodes rfl e2⟩
    obtain ⟨sb, hsb⟩ := hthrow
    rw [hsb]
    rfl
  have hor : ∃ o l, orientations inst = o :: l := by
    unfold orientations
    cases inst.parameters.firstStageOrientation <;> exact ⟨_, _, rfl⟩
  obtain ⟨o, l, he⟩ := hor
  unfold buildGuillotineSolutions
  rw [he, List.foldlM_cons]
  unfold tryOrientation
  rw [hone o (orientations_ok o (by rw [he]; simp)).1]
  rfl

end

namespace PostProcessEx

/-- A sort. -/
def sort (v : Bool) (l : List ItemPlacement) : List ItemPlacement :=
  l.insertionSort fun p q => PostProcess.itemStart v p ≤ PostProcess.itemStart v q

theorem sort_ok (v : Bool) (l : List ItemPlacement) : IsSortOf (startsBefore v) l (sort v l) := by
  refine ⟨List.perm_insertionSort _ l, ?_⟩
  have : Std.Total (fun p q : ItemPlacement => PostProcess.itemStart v p ≤ PostProcess.itemStart v q) :=
    ⟨fun a b => le_total _ _⟩
  have : IsTrans ItemPlacement (fun p q : ItemPlacement => PostProcess.itemStart v p ≤ PostProcess.itemStart v q) :=
    ⟨fun a b c => le_trans⟩
  refine (List.pairwise_insertionSort (fun p q : ItemPlacement => PostProcess.itemStart v p ≤ PostProcess.itemStart v q) l).imp ?_
  intro a b h
  exact decide_eq_false (by omega)

/-- Items of 2 × 1 and 1 × 2 for a bin of 3 × 3. -/
def inst (t : Int) : Instance :=
  { objective := .knapsack
    parameters := { cutThickness := t, firstStageOrientation := .any }
    itemTypes := [{ w := 2, h := 1, profit := 2, copies := 4, copiesMin := 0, oriented := true, stackId := 0, resourceIds := [[]] }, { w := 1, h := 2, profit := 2, copies := 4, copiesMin := 0, oriented := true, stackId := 1, resourceIds := [[]] }]
    binTypes := [{ w := 3, h := 3 }]
    stackOffsets := [0, 1, 2]
    itemTypeIds := [0, 1]
    binTypeIds := [0]
    previousBinsArea := [0]
    numberOfItems := 8 }

/-- Three items that guillotine cuts separate: a column of one, and a column of two. -/
def items : List ItemPlacement := [⟨0, 0, 2, 0, 1⟩, ⟨0, 0, 2, 1, 2⟩, ⟨1, 2, 3, 0, 2⟩]

theorem sized (t : Int) : ∀ bt ∈ (inst t).binTypes, Sized bt := by
  intro bt h
  have h' : bt = { w := 3, h := 3 } := List.mem_singleton.mp h
  rw [h']
  constructor <;> decide

/-- They are cut in two stages: the columns and the waste above them, and the pieces of each. -/
theorem items_cut : Cuts 0 2 true (usable ((inst 0).binType 0))
    [⟨0, 2, 0, 1⟩, ⟨0, 2, 1, 2⟩, ⟨0, 2, 2, 3⟩, ⟨2, 3, 0, 2⟩, ⟨2, 3, 2, 3⟩] := by
  have e1 : Cuts 0 1 false ⟨0, 2, 0, 3⟩ ([⟨0, 2, 0, 1⟩] ++ ([⟨0, 2, 1, 2⟩] ++ [⟨0, 2, 2, 3⟩])) :=
    .cut (p := 1) (by decide) (by decide) (.piece ⟨by decide, by decide⟩)
      (.cut (p := 2) (by decide) (by decide) (.piece ⟨by decide, by decide⟩)
        (.piece ⟨by decide, by decide⟩))
  have e2 : Cuts 0 1 false ⟨2, 3, 0, 3⟩ ([⟨2, 3, 0, 2⟩] ++ [⟨2, 3, 2, 3⟩]) :=
    .cut (p := 2) (by decide) (by decide) (.piece ⟨by decide, by decide⟩)
      (.piece ⟨by decide, by decide⟩)
  have e3 : Cuts 0 2 true ⟨2, 3, 0, 3⟩ ([⟨2, 3, 0, 2⟩] ++ [⟨2, 3, 2, 3⟩]) :=
    .last (p := 3) (by decide) (by decide) (by decide) e2
  have e4 : Cuts 0 2 true ⟨0, 3, 0, 3⟩ (([⟨0, 2, 0, 1⟩] ++ ([⟨0, 2, 1, 2⟩] ++ [⟨0, 2, 2, 3⟩]))
      ++ ([⟨2, 3, 0, 2⟩] ++ [⟨2, 3, 2, 3⟩])) :=
    .cut (p := 2) (by decide) (by decide) e1 e3
  exact e4

/-- The hypotheses of `guillotine_solutions_complete_partial`, and of `guillotine_solutions_sound`
together with the next example. -/
example : (inst 0).parameters.cutThickness = 0
    ∧ (∀ v l, IsSortOf (startsBefore v) l (sort v l)) ∧ (∀ bt ∈ (inst 0).binTypes, Sized bt)
    ∧ TablesOk (inst 0) ∧ (inst 0).parameters.minimumWasteLength ≤ 1
    ∧ 0 < (inst 0).numberOfBinTypes
    ∧ Cuts 0 2 true (usable ((inst 0).binType 0))
      [⟨0, 2, 0, 1⟩, ⟨0, 2, 1, 2⟩, ⟨0, 2, 2, 3⟩, ⟨2, 3, 0, 2⟩, ⟨2, 3, 2, 3⟩]
    ∧ (items.map reg).Subperm
      [⟨0, 2, 0, 1⟩, ⟨0, 2, 1, 2⟩, ⟨0, 2, 2, 3⟩, ⟨2, 3, 0, 2⟩, ⟨2, 3, 2, 3⟩]
    ∧ ∀ p ∈ items, Fits (inst 0) p := by
  refine ⟨rfl, sort_ok, sized 0, ⟨by decide, by decide, by decide, by decide⟩, by decide, by decide,
    items_cut, List.Sublist.subperm (by decide), ?_⟩
  unfold Fits
  decide

/-- Two solutions: two stages with vertical first cuts, three with horizontal first cuts. -/
theorem two_solutions : (buildGuillotineSolutions (inst 0) sort 5 0 items).toOption.map
    (fun l => l.map fun s => s.bins.map fun b => (b.firstCutOrientation, b.numberOfStagesReal, (places b.nodes).length))
    = some [[(.vertical, 2, 3)], [(.horizontal, 3, 3)]] := by
  decide +kernel

/-- The solution with the fewest stages is returned. -/
example : (buildGuillotineSolution (inst 0) sort 5 0 items).toOption.map (·.numberOfStages)
    = some 2 := by
  decide +kernel

/-- Items whose rectangles do not have the dimensions of their types: no solution. -/
example : buildGuillotineSolutions (inst 0) sort 5 0 [⟨0, 0, 1, 0, 1⟩] = .ok [] := by
  decide +kernel

/-- The pinwheel: four items in a circle around a hole. -/
def pinwheel : List ItemPlacement :=
  [⟨0, 0, 2, 0, 1⟩, ⟨1, 2, 3, 0, 2⟩, ⟨0, 1, 3, 2, 3⟩, ⟨1, 0, 1, 1, 3⟩]

/-- The orders in which the recursion meets the items. -/
def orders : List (List ItemPlacement) :=
  [pinwheel, sort true pinwheel, sort false pinwheel, sort false (sort true pinwheel),
    sort true (sort false pinwheel)]

/-- **C117**, negative: for a placement that no guillotine cuts separate the documentation promises
an empty vector.  In fact `build_region` calls itself with the same items and the same region for
ever: whatever the size of the call stack, it overflows. -/
theorem pinwheel_never_returns (fuel : Nat) :
    buildGuillotineSolutions (inst 0) sort fuel 0 pinwheel = .error .ub := by
  refine stuck_never_returns (P := fun l => l ∈ orders) (by decide) (sized 0 _ (by decide)) ?_
    (by decide) fuel
  intro l hl
  have h : ∀ l ∈ orders, l ≠ [] ∧ fillsRegion 0 3 0 3 l = none
      ∧ ∀ v, (findGroups sort l v 0).length = 1 ∧ ∀ g ∈ findGroups sort l v 0, g.cutPosition = 3
        ∧ ¬ groupStart v g - 0 > 0 ∧ g.items ∈ orders := by decide +kernel
  obtain ⟨h1, h2, h3⟩ := h l hl
  refine ⟨h1, h2, fun v => ?_⟩
  obtain ⟨g1, g2⟩ := h3 v
  obtain ⟨g, hg⟩ := List.length_eq_one_iff.mp g1
  obtain ⟨k1, k2, k3⟩ := g2 g (by rw [hg]; simp)
  refine ⟨g, hg, ?_, ?_, k3⟩
  · rw [k1]; cases v <;> rfl
  · cases v <;> exact k2

/-- No cut separates the items of the pinwheel: their places are in no pattern. -/
theorem pinwheel_not_cut (k : Nat) (v : Bool) (L : List Region)
    (h : Cuts 0 k v (usable ((inst 0).binType 0)) L) : ¬ (pinwheel.map reg).Subperm L := by
  intro hsub
  obtain ⟨sols, hs, -⟩ := guillotine_solutions_complete_partial (b := 0) (items := pinwheel) rfl
    sort_ok (sized 0) ⟨by decide, by decide, by decide, by decide⟩ (by decide) (by decide) h hsub
    (by unfold Fits; decide) (le_refl _)
  rw [pinwheel_never_returns] at hs
  cases hs

/-- **C117**, negative: with cuts of thickness 2, one item at distance 1 from the side of the bin:
the gap is not wider than a cut, no node closes it, and the recursion does not end. -/
theorem gap_never_returns (fuel : Nat) :
    buildGuillotineSolutions (inst 2) sort fuel 0 [⟨0, 1, 3, 2, 3⟩] = .error .ub := by
  refine stuck_never_returns (P := fun l => l = [⟨0, 1, 3, 2, 3⟩]) (by decide)
    (sized 2 _ (by decide)) ?_ rfl fuel
  rintro l rfl
  have h3 : ∀ v, (findGroups sort [⟨0, 1, 3, 2, 3⟩] v 2).length = 1
      ∧ ∀ g ∈ findGroups sort [⟨0, 1, 3, 2, 3⟩] v 2, g.cutPosition = 3
        ∧ ¬ groupStart v g - 2 > 0 ∧ g.items = [⟨0, 1, 3, 2, 3⟩] := by decide +kernel
  refine ⟨by simp, by decide, fun v => ?_⟩
  obtain ⟨g1, g2⟩ := h3 v
  obtain ⟨g, hg⟩ := List.length_eq_one_iff.mp g1
  obtain ⟨k1, k2, k3⟩ := g2 g (by rw [hg]; simp)
  refine ⟨g, hg, ?_, ?_, k3⟩
  · rw [k1]; cases v <;> rfl
  · cases v <;> exact k2

end PostProcessEx

end PackingSolver.Guil
