import Verif.Lemmas.Guil.SpacesReplay
import Verif.Props.Guil.Rebuild
import Verif.Props.Guil.SpaceBlock
import Verif.Props.Guil.Spaces

/-!
# The solutions of the guillotine search over unused rectangles

Property C116.
-/

namespace PackingSolver.Guil

open Spec
open Guil.Spec
open Guil.Spaces

/-- No part of the bins is lost to trims on which items must not lie. -/
def NoHardTrims (bt : BinType) : Prop :=
  (bt.leftTrimType = .hard → bt.leftTrim = 0) ∧ (bt.rightTrimType = .hard → bt.rightTrim = 0)
    ∧ (bt.bottomTrimType = .hard → bt.bottomTrim = 0) ∧ (bt.topTrimType = .hard → bt.topTrim = 0)

section
variable {inst : Instance} {sc : Scheme} {n : State}

theorem usable_whole {bt : BinType} (h : NoHardTrims bt) : usable bt = ⟨0, bt.w, 0, bt.h⟩ := by
  obtain ⟨h1, h2, h3, h4⟩ := h
  unfold usable
  congr 1
  · split
    · rename_i h; exact h1 h
    · rfl
  · split
    · rename_i h; rw [h2 h]; omega
    · rfl
  · split
    · rename_i h; exact h3 h
    · rfl
  · split
    · rename_i h; rw [h4 h]; omega
    · rfl

theorem scheme_made (ht : 0 ≤ inst.parameters.cutThickness) (hi : PosItems inst)
    (h : scheme inst = .ok sc) : inst.binTypeIds.head? = some sc.bin
      ∧ (∀ k c, sc.blocks[k]? = some c → Block.Made inst sc.bt (sc.blocks.take k) c)
      ∧ (inst.numberOfItemTypes ≤ 3 → 0 < inst.parameters.cutThickness →
        ∀ c ∈ sc.blocks, c.numberOfItems = 1) := by
  unfold scheme at h
  cases hb : inst.binTypeIds.head? with
  | none => rw [hb] at h; cases h
  | some b =>
    rw [hb] at h
    obtain ⟨l, e, -, hm, -⟩ := Block.computeBlocks_ok (bt := inst.binType b) (M := 10000) ht hi
    dsimp only at h
    rw [e] at h
    cases h
    exact ⟨rfl, hm, fun h3 hp c hc => (space_blocks_few ht hi e h3 c hc).2 hp⟩

/-- **C116**: when cuts have no thickness, or when there are at most three item types, no block
leaves a gap that a cut would swallow. -/
theorem space_blocks_gapless (ht : 0 ≤ inst.parameters.cutThickness) (hi : PosItems inst)
    (h : scheme inst = .ok sc)
    (hg : inst.parameters.cutThickness = 0 ∨ inst.numberOfItemTypes ≤ 3) :
    Gapless inst.parameters.cutThickness sc.blocks := by
  obtain ⟨rfl, hok⟩ := scheme_ok ht hi h
  obtain ⟨-, hm, h3⟩ := scheme_made ht hi h
  intro c hc i j a e c1 c2 hi' hj
  obtain ⟨k, hk⟩ := List.mem_iff_getElem?.mp hc
  rcases hm k c hk with hs | ⟨i', j', a', e', v, hi'', hj'', rfl⟩
  · obtain ⟨i0, -, -, r, -, cx, -, -, cy, -, -, rfl⟩ := Block.mem_simpleBlocks.mp hs
    cases c1
  · cases c1
    cases c2
    have l1 : i < k := by
      by_contra hn
      rw [List.getElem?_eq_none (by rw [List.length_take]; omega)] at hi''; simp at hi''
    have l2 : j < k := by
      by_contra hn
      rw [List.getElem?_eq_none (by rw [List.length_take]; omega)] at hj''; simp at hj''
    rw [List.getElem?_take_of_lt l1, hi'] at hi''
    rw [List.getElem?_take_of_lt l2, hj] at hj''
    cases hi''
    cases hj''
    by_cases h0 : sc.inst.parameters.cutThickness = 0
    · rw [h0]
      cases v
      · show (a.w = max a.w e.w ∨ a.w + 0 < max a.w e.w) ∧ (e.w = max a.w e.w ∨ e.w + 0 < max a.w e.w)
        omega
      · show (a.h = max a.h e.h ∨ a.h + 0 < max a.h e.h) ∧ (e.h = max a.h e.h ∨ e.h + 0 < max a.h e.h)
        omega
    · exfalso
      have e1 : a.numberOfItems + e.numberOfItems = 1 :=
        h3 (hg.resolve_left h0) (by omega) _ hc
      have e2 := (hok.blocks a (List.mem_of_getElem? hi')).many
      have e3 := (hok.blocks e (List.mem_of_getElem? hj)).many
      omega

/-- **C116**: every state that the search reaches is turned into a solution, without exception: one
bin of the first type with exactly the items of the state completed greedily, and their profit but
for the penalties of exceeded resources.  The solution comes from calls of the solution builder, so
what is proved of built solutions (C67 to C71) holds of it.  Partial: no block may leave a gap not
wider than a cut (`Gapless`, see `space_blocks_gapless`), and the bin must have no hard trims; see
`SpaceSolutionEx.gap_throws` and `SpaceSolutionEx.trim_throws`. -/
theorem space_solution_partial (ht : 0 ≤ inst.parameters.cutThickness) (hi : PosItems inst)
    (hs : ∀ bt ∈ inst.binTypes, Sized bt) (htab : TablesOk inst)
    (hw : inst.parameters.minimumWasteLength ≤ 1) (hc : ∀ it ∈ inst.itemTypes, 0 ≤ it.copies)
    (hbin : ∀ b ∈ inst.binTypeIds, b < inst.numberOfBinTypes)
    (htrim : ∀ bt ∈ inst.binTypes, NoHardTrims bt) (h : scheme inst = .ok sc)
    (hg : Gapless inst.parameters.cutThickness sc.blocks) (hr : Reached sc n) :
    ∃ g sol ops, sc.greedy sc.greedyFuel n = .ok g ∧ Reached sc g ∧ n.placed <+: g.placed
      ∧ sc.toSolution n = .ok sol
      ∧ (SolutionBuilder.run inst ops).build inst = .ok sol
      ∧ (∃ o nodes, plates sol = [⟨sc.bin, 1, o, nodes⟩]
        ∧ (sc.first = .any ∨ g.placed = [] ∨ o = sc.first))
      ∧ (∀ i, itemCopies (plates sol) i = g.copies.getD i 0)
      ∧ (∀ i < inst.numberOfItemTypes, itemCopies (plates sol) i ≤ (inst.itemType i).copies)
      ∧ (ResourceIdsOk inst → CapacitiesNonneg inst → ConsumptionsNonneg inst →
        sol.profit = g.profit - penalties inst sc.bin ((plates sol).flatMap Plate.items)) := by
  obtain ⟨rfl, hok⟩ := scheme_ok ht hi h
  obtain ⟨hhead, hm, -⟩ := scheme_made ht hi h
  obtain ⟨g, hgr, hrg, hpre, -⟩ := space_greedy_ok ht hi hc h hr
  have hb : sc.bin < sc.inst.numberOfBinTypes := hbin _ (List.mem_of_mem_head? hhead)
  have hbm : sc.bt ∈ sc.inst.binTypes := by
    unfold Scheme.bt Instance.binType
    rw [List.getD_eq_getElem _ _ hb]
    exact List.getElem_mem hb
  have hinv := reached_inv hok hrg
  obtain ⟨hco, hany, -⟩ := reached_co hrg
  obtain ⟨r, hfold, hri⟩ := reached_replay (bt := sc.bt) (b := sc.bin) hok hi hm hg hany hrg hco
  have hfill := hri.fill (fun _ => []) (fun _ => 0) (fun _ _ _ => rfl)
    (fun _ _ => fillsO_nothing)
  rw [← stepsOps_eq] at hfill
  obtain ⟨hreg, hd0⟩ := initialNodes_base (hs _ hbm) sc.bin
  obtain ⟨hch, hit⟩ := initial_base sc.bt sc.bin
  have hlast : (initialNodes sc.bt sc.bin).length - 1 = base sc.bt sc.bin := rfl
  obtain ⟨nodes, hrun, hdone⟩ := hfill (initialNodes sc.bt sc.bin) ⟨tree_initial, le_refl _,
    by rw [hlast]; exact hd0, by
      rw [hlast, hreg, usable_whole (htrim _ hbm)]
      show _ = (⟨0, 0 + sc.bt.w, 0, 0 + sc.bt.h⟩ : Region)
      rw [zero_add, zero_add], hch, hit⟩
  obtain ⟨L, hL, hcount, hsum⟩ := hdone.items
  rw [itemsOf_initial, List.nil_append] at hL
  have hz : (r.urs.map fun _ => (0 : Weight)).sum = 0 := by simp
  rw [hz, add_zero] at hcount hsum
  obtain ⟨sb, sol, nodes', hthrow, hsb, hsol, hplates, hitems⟩ :=
    single_bin_solution hb rfl hs htab hw hrun
  rw [hL] at hitems
  have hcop : ∀ i, itemCopies (plates sol) i = g.copies.getD i 0 := by
    intro i
    rw [hplates]
    refine Eq.trans ?_ (hcount i)
    rw [← hitems]
    unfold itemCopies Plate.items
    simp
  have hle : ∀ i < sc.inst.numberOfItemTypes,
      itemCopies (plates sol) i ≤ (sc.inst.itemType i).copies := by
    intro i hi'
    rw [hcop]
    by_cases h0 : 0 < g.copies.getD i 0
    · exact hinv.le i h0
    · have : 0 ≤ (sc.inst.itemType i).copies := by
        refine hc _ ?_
        unfold Instance.itemType
        rw [List.getD_eq_getElem _ _ hi']
        exact List.getElem_mem hi'
      omega
  obtain ⟨gi, -⟩ := build_indic (hsb ▸ hsol)
  have hfeas : sol.itemCopiesFeasible = true := by
    refine (gi.copiesFeasible ?_ ?_).mpr hle
    · intro b hb
      have hm : (⟨b.binTypeId, b.copies, b.firstCutOrientation, b.nodes⟩ : Plate) ∈ plates sol :=
        List.mem_map.mpr ⟨b, hb, rfl⟩
      rw [hplates, List.mem_singleton] at hm
      rw [show b.copies = 1 from congrArg Plate.copies hm]
      decide
    · intro i hi'
      refine hc _ ?_
      unfold Instance.itemType
      rw [List.getD_eq_getElem _ _ hi']
      exact List.getElem_mem hi'
  refine ⟨g, sol, _, hgr, hrg, hpre, ?_, hsb ▸ hsol, ⟨_, _, hplates, ?_⟩, hcop, hle, ?_⟩
  · unfold Scheme.toSolution
    rw [hgr]
    show sc.convert g = _
    unfold Scheme.convert
    dsimp only
    rw [hfold]
    show ((SolutionBuilder.new sc.inst).runOrThrow sc.inst _ >>= _) = _
    rw [hthrow]
    show (sb.build sc.inst >>= _) = _
    rw [hsol]
    show (if !sol.itemCopiesFeasible then Except.error Err.logicError else .ok sol) = _
    rw [hfeas]
    rfl
  · by_cases hf : sc.first = .any
    · exact .inl hf
    · cases hp : g.placed with
      | nil => exact .inr (.inl rfl)
      | cons p l =>
        refine .inr (.inr ?_)
        unfold Scheme.orientation
        rw [hp]
        exact (reached_first hf hrg).2 p (by rw [hp]; exact List.mem_cons_self)
  · intro hR hcap hnn
    rw [profit_total (hsb ▸ hsol) hR hcap hnn, hplates]
    unfold reportedProfit
    have hsum' : (L.map fun i => (sc.inst.itemType i).profit).sum = g.profit := hsum
    simp [hsum', Plate.items, hitems]

end

namespace SpaceSolutionEx

/-- Two item types for a bin of 22 × 10, with cuts of thickness 2. -/
def inst : Instance :=
  { objective := .knapsack
    parameters := { cutThickness := 2 }
    itemTypes := [{ w := 10, h := 10, profit := 100, copies := 1, copiesMin := 0, oriented := true, stackId := 0, resourceIds := [[]] }, { w := 10, h := 4, profit := 40, copies := 2, copiesMin := 0, oriented := true, stackId := 1, resourceIds := [[]] }]
    binTypes := [{ w := 22, h := 10 }]
    stackOffsets := [0, 1, 2]
    itemTypeIds := [0, 1]
    binTypeIds := [0]
    previousBinsArea := [0]
    numberOfItems := 3 }

/-- Its scheme. -/
def sc : Scheme := OneDim.Examples.okD ⟨inst, 0, [], .any⟩ (scheme inst)

theorem sc_eq : scheme inst = .ok sc := Rect.eq_ok_okD (by decide +kernel)

theorem resourceIdsOk : ResourceIdsOk inst := by
  have h : ∀ i < inst.numberOfItemTypes, ∀ b < inst.numberOfBinTypes,
      (inst.itemType i).resourceIds.getD b [] = [] ∧ (inst.binType b).resources.length = 0 := by
    decide
  intro i hi b hb
  obtain ⟨h1, h2⟩ := h i hi b hb
  rw [h1, h2]
  exact ⟨List.nodup_nil, fun r => ⟨fun h => (List.not_mem_nil h).elim, fun h => (Nat.not_lt_zero r h.1).elim⟩⟩

/-- The hypotheses of `space_solution_partial` and of `space_blocks_gapless`. -/
example : 0 ≤ inst.parameters.cutThickness ∧ PosItems inst ∧ (∀ bt ∈ inst.binTypes, Sized bt)
    ∧ TablesOk inst ∧ inst.parameters.minimumWasteLength ≤ 1
    ∧ (∀ it ∈ inst.itemTypes, 0 ≤ it.copies)
    ∧ (∀ b ∈ inst.binTypeIds, b < inst.numberOfBinTypes)
    ∧ (∀ bt ∈ inst.binTypes, NoHardTrims bt) ∧ scheme inst = .ok sc
    ∧ Gapless inst.parameters.cutThickness sc.blocks ∧ Reached sc sc.root
    ∧ ResourceIdsOk inst ∧ CapacitiesNonneg inst ∧ ConsumptionsNonneg inst := by
  have hi : PosItems inst := by unfold PosItems; decide
  refine ⟨by decide, hi, ?_, ⟨by decide, by decide, by decide, by decide⟩, by decide, by decide,
    by decide, ?_, sc_eq, space_blocks_gapless (by decide) hi sc_eq (.inr (by decide)), .root,
    resourceIdsOk, by unfold CapacitiesNonneg; decide, by unfold ConsumptionsNonneg; decide⟩
  · intro bt h
    rw [List.mem_singleton.mp h]
    constructor <;> decide
  · intro bt h
    rw [List.mem_singleton.mp h]
    unfold NoHardTrims
    decide

/-- The solution of the root has the three items. -/
example : (sc.toSolution sc.root).toOption.map
    (fun s => (s.profit, (plates s).map fun p => (p.binTypeId, p.items)))
      = some (180, [(0, [0, 1, 1])]) := by decide +kernel

/-- An error that is a `std::logic_error`. -/
def throwsLogic {α : Type} : Except Err α → Bool
  | .error .logicError => true
  | _ => false

theorem eq_of_throwsLogic {α : Type} {r : Except Err α} (h : throwsLogic r = true) :
    r = .error .logicError := by
  cases r with
  | ok a => cases h
  | error e => cases e <;> first | rfl | cases h

/-- Cuts of thickness 2 and four item types; the first two can be cut side by side, one of them is
lower by 1, and the others do not fit in the bin. -/
def instG : Instance :=
  { objective := .knapsack
    parameters := { cutThickness := 2 }
    itemTypes := [{ w := 10, h := 10, profit := 100, copies := 1, copiesMin := 0, oriented := true, stackId := 0, resourceIds := [[]] }, { w := 10, h := 9, profit := 90, copies := 1, copiesMin := 0, oriented := true, stackId := 1, resourceIds := [[]] }, { w := 30, h := 1, profit := 1, copies := 1, copiesMin := 0, oriented := true, stackId := 2, resourceIds := [[]] }, { w := 30, h := 2, profit := 1, copies := 1, copiesMin := 0, oriented := true, stackId := 3, resourceIds := [[]] }]
    binTypes := [{ w := 22, h := 10 }]
    stackOffsets := [0, 1, 2, 3, 4]
    itemTypeIds := [0, 1, 2, 3]
    binTypeIds := [0]
    previousBinsArea := [0]
    numberOfItems := 4 }

/-- Its scheme. -/
def scG : Scheme := OneDim.Examples.okD ⟨instG, 0, [], .any⟩ (scheme instG)

theorem scG_eq : scheme instG = .ok scG := Rect.eq_ok_okD (by decide +kernel)

/-- **C116, negative**: a part of a block that is lower than the block by no more than the thickness
of a cut is given the whole height, and the solution builder refuses the item; the root itself
cannot be turned into a solution. -/
theorem gap_throws : ¬ Gapless instG.parameters.cutThickness scG.blocks ∧ Reached scG scG.root
    ∧ scG.toSolution scG.root = .error .logicError := by
  refine ⟨fun h => ?_, .root, eq_of_throwsLogic (by decide +kernel)⟩
  have hc : (scG.block 2).child1.isSome = true ∧ (scG.block 2).child2.isSome = true
      ∧ (scG.block 2).cutIsVertical = true ∧ (scG.block 2).h = 10
      ∧ scG.blocks.length = 3 ∧ (scG.block 0).h = 9 ∧ (scG.block 1).h = 10
      ∧ ((scG.block 2).child1 = some 0 ∨ (scG.block 2).child2 = some 0)
      ∧ ((scG.block 2).child1 = some 1 ∨ (scG.block 2).child2 = some 1) := by decide +kernel
  obtain ⟨-, -, hv, hh, hlen, h0, h1, ha, hb⟩ := hc
  have h : Gapless 2 scG.blocks := h
  obtain ⟨e2, m2⟩ := block_some (sc := scG) (id := 2) (by omega)
  obtain ⟨e0, -⟩ := block_some (sc := scG) (id := 0) (by omega)
  obtain ⟨e1, -⟩ := block_some (sc := scG) (id := 1) (by omega)
  generalize scG.block 0 = B0 at *
  generalize scG.block 1 = B1 at *
  generalize scG.block 2 = B2 at *
  generalize scG.blocks = l at *
  rcases ha with ha | ha
  · have hb := hb.resolve_left (by rw [ha]; simp)
    have := h B2 m2 0 1 B0 B1 ha hb e0 e1
    rw [if_pos hv, hh, h0, h1] at this
    omega
  · have hb := hb.resolve_right (by rw [ha]; simp)
    have := h B2 m2 1 0 B1 B0 hb ha e1 e0
    rw [if_pos hv, hh, h0, h1] at this
    omega

/-- A bin of 10 × 10 with a hard trim of 1 on the left, and an item of 10 × 10. -/
def instT : Instance :=
  { objective := .knapsack
    itemTypes := [{ w := 10, h := 10, profit := 100, copies := 1, copiesMin := 0, oriented := true, stackId := 0, resourceIds := [[]] }]
    binTypes := [{ w := 10, h := 10, leftTrim := 1, leftTrimType := .hard }]
    stackOffsets := [0, 1]
    itemTypeIds := [0]
    binTypeIds := [0]
    previousBinsArea := [0]
    numberOfItems := 1 }

/-- Its scheme. -/
def scT : Scheme := OneDim.Examples.okD ⟨instT, 0, [], .any⟩ (scheme instT)

theorem scT_eq : scheme instT = .ok scT := Rect.eq_ok_okD (by decide +kernel)

/-- **C116, negative**: the search does not take the trims into account, so an item that fits the
bin but not what the trims leave of it makes the conversion throw. -/
theorem trim_throws : Reached scT scT.root ∧ scT.toSolution scT.root = .error .logicError :=
  ⟨.root, eq_of_throwsLogic (by decide +kernel)⟩

end SpaceSolutionEx

end PackingSolver.Guil
