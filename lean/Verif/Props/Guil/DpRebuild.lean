import Verif.Props.Guil.Rebuild
import Verif.Lemmas.Guil.DpRebuild

/-!
# The solution of the dynamic program with unlimited copies

Property C83.
-/

namespace PackingSolver.Guil

open Spec
open Guil.Spec

section
variable {inst : Instance} {bt : BinType}

theorem dpOk_of (hp : HasPlate inst bt) : ∃ tbl, computeDp inst = .ok tbl
    ∧ DpOk inst (effWidth bt) (effHeight bt) tbl := by
  obtain ⟨tbl, e, h1, h2⟩ := computeDp_ok hp
  exact ⟨tbl, e, h1, h2⟩

/-- **C83**: the dynamic program with unlimited copies returns a solution, without exception: one
bin of the first type whose items are those of a pattern of the largest profit, when every cut
leaves material on both sides; with cuts without thickness, of the largest profit of all patterns.
The solution has this profit but for the penalties of exceeded resources, and comes from calls of
the solution builder, so what is proved of built solutions (C67 to C71) holds of it.  Partial: the
first cut is vertical or free, and the trims at the bottom and at the top are hard; see
`dp_horizontal_rebuild_throws` and `DpRebuildEx.dp_soft_rebuild_throws`.  This is the solution before `minimize_number_of_stages`. -/
theorem dp_rebuild_partial (hp : HasPlate inst bt) (hs : ∀ bt ∈ inst.binTypes, Sized bt)
    (ht : TablesOk inst) (hw : inst.parameters.minimumWasteLength ≤ 1)
    (ho : inst.parameters.firstStageOrientation ≠ .horizontal)
    (hbot : bt.bottomTrimType = .hard ∨ bt.bottomTrim = 0)
    (htop : bt.topTrimType = .hard ∨ bt.topTrim = 0) :
    ∃ steps sol ops v, (∀ fuel, steps ≤ fuel → treeSearchHypergraphInfiniteCopies inst fuel = .ok sol)
      ∧ (SolutionBuilder.run inst ops).build inst = .ok sol
      ∧ (∃ nodes, plates sol = [⟨0, 1, .vertical, nodes⟩])
      ∧ (∃ p : Pattern,
        p.Fits inst.itemTypes inst.parameters.cutThickness (bt.w - bt.leftTrim - bt.rightTrim)
          (bt.h - bt.bottomTrim - bt.topTrim)
        ∧ p.profit inst.itemTypes = v ∧ ∀ i, itemCopies (plates sol) i = p.count i)
      ∧ IsBestProfit inst.itemTypes
        (fun p => p.Fits inst.itemTypes inst.parameters.cutThickness
            (bt.w - bt.leftTrim - bt.rightTrim) (bt.h - bt.bottomTrim - bt.topTrim)
          ∧ p.TwoSided inst.parameters.cutThickness (bt.w - bt.leftTrim - bt.rightTrim)
            (bt.h - bt.bottomTrim - bt.topTrim)) v
      ∧ (inst.parameters.cutThickness = 0 → IsBestProfit inst.itemTypes
        (fun p => p.Fits inst.itemTypes 0 (bt.w - bt.leftTrim - bt.rightTrim)
          (bt.h - bt.bottomTrim - bt.topTrim)) v)
      ∧ (ResourceIdsOk inst → CapacitiesNonneg inst → ConsumptionsNonneg inst →
        sol.profit = v - penalties inst 0 ((plates sol).flatMap Plate.items)) := by
  obtain ⟨tbl, e, hd⟩ := dpOk_of hp
  have hW : 0 < effWidth bt := hp.width
  have hH : 0 < effHeight bt := hp.height
  obtain ⟨hb0, hb1, hb2⟩ := binType_zero hp
  have hor : rebuiltOrientation inst.parameters = .vertical := by
    unfold rebuiltOrientation
    cases hh : inst.parameters.firstStageOrientation with
    | any => rfl
    | vertical => rfl
    | horizontal => exact absurd hh ho
  have hread : tableRead tbl (effWidth bt) (effWidth bt) (effHeight bt)
      = .ok (entry 0 (effWidth bt) tbl (effWidth bt) (effHeight bt)) :=
    read_ok 0 hd.table ⟨hW.le, le_refl _, hH.le, le_refl _⟩
  have hbest := hd.best _ _ hW (le_refl _) hH (le_refl _)
  -- the calls
  have calls : ∃ ops N nodes L p, (∀ fuel, N ≤ fuel → dpSolutionOps inst tbl fuel
        = .ok (.addBin 0 1 .vertical :: ops))
      ∧ nodesRun inst .vertical (initialNodes bt 0) ops = some nodes ∧ itemsOf nodes = L
      ∧ Pattern.Fits inst.itemTypes inst.parameters.cutThickness p (effWidth bt) (effHeight bt)
      ∧ Pattern.profit inst.itemTypes p
        = entry 0 (effWidth bt) tbl (effWidth bt) (effHeight bt)
      ∧ (∀ i, (L.count i : Int) = p.count i)
      ∧ (L.map fun i => (inst.itemType i).profit).sum
        = entry 0 (effWidth bt) tbl (effWidth bt) (effHeight bt) := by
    have hsol : ∀ fuel, dpSolutionOps inst tbl fuel
        = if entry 0 (effWidth bt) tbl (effWidth bt) (effHeight bt) > 0 then do
            let l ← dpOps inst.itemTypes tbl (effWidth bt) inst.parameters.cutThickness .vertical
              fuel (effWidth bt) (effHeight bt) 2 (offsetX bt) (offsetY bt)
            .ok (.addBin 0 1 .vertical :: .addNode 1 (offsetX bt + effWidth bt) :: l)
          else .ok [.addBin 0 1 .vertical] := by
      intro fuel
      unfold dpSolutionOps
      have hfirst := hp.first
      cases hbt : inst.binTypes with
      | nil => rw [hbt] at hfirst; cases hfirst
      | cons x rest =>
        rw [hbt] at hfirst
        cases hfirst
        dsimp only
        rw [hread, hor]
        rfl
    by_cases hpos : entry 0 (effWidth bt) tbl (effWidth bt) (effHeight bt) > 0
    · obtain ⟨ops, N, copies, p, e1, f1, s1, n1, r1⟩ := dpRebuilds (inst := inst) (bt := bt) (b := 0)
        (o := .vertical) (by simp) hd hp.thickness (effWidth bt + effHeight bt).toNat
        (w := effWidth bt) (h := effHeight bt) (by omega) hW (le_refl _) hH (le_refl _) 2
        (offsetX bt) (offsetY bt) (by omega)
      obtain ⟨nodes, L, g1, g2, g3, g4⟩ := plate_filled hp (hs bt hb2) rfl hbot htop r1
      refine ⟨_, N, nodes, L, p, ?_, g1, g2, f1, s1, fun i => by rw [g3, n1], g4⟩
      intro fuel hf
      rw [hsol, if_pos hpos, e1 fuel hf]
      rfl
    · have h0 : entry 0 (effWidth bt) tbl (effWidth bt) (effHeight bt) = 0 :=
        le_antisymm (not_lt.mp hpos) hbest.nonneg
      refine ⟨[], 0, _, [], .waste, ?_, rfl, itemsOf_initial bt 0, trivial, h0.symm, by simp [Pattern.count],
        by rw [h0]; rfl⟩
      intro fuel _
      rw [hsol, if_neg hpos]
  obtain ⟨ops, N, nodes, L, p, hops, hrun, hL, pf, pp, hcount, hsum⟩ := calls
  obtain ⟨sb, sol, nodes', hthrow, hsb, hsol, hplates, hitems⟩ := rebuilt_solution hp hs ht hw hrun
  rw [hL] at hitems
  have hv : EntryIs tbl (bt.w - bt.leftTrim - bt.rightTrim) (bt.w - bt.leftTrim - bt.rightTrim)
      (bt.h - bt.bottomTrim - bt.topTrim)
      (entry 0 (effWidth bt) tbl (effWidth bt) (effHeight bt)) :=
    entryIs_entry 0 hd.table ⟨hW.le, le_refl _, hH.le, le_refl _⟩
  refine ⟨N, sol, _, _, ?_, hsb ▸ hsol, ⟨_, hplates⟩, ⟨p, pf, pp, ?_⟩,
    dp_best_partial hp e hp.width (le_refl _) hp.height (le_refl _) hv,
    fun h0 => dp_best hp h0 e hp.width (le_refl _) hp.height (le_refl _) hv, ?_⟩
  · intro fuel hf
    unfold treeSearchHypergraphInfiniteCopies
    rw [e]
    show dpReconstruct inst tbl fuel = _
    unfold dpReconstruct
    rw [hops fuel hf]
    show (do
      let sb ← (SolutionBuilder.new inst).runOrThrow inst (.addBin 0 1 .vertical :: ops)
      sb.build inst) = _
    rw [hthrow]
    exact hsol
  · intro i
    rw [hplates, ← hcount i, ← hitems]
    unfold itemCopies Plate.items
    simp
  · intro hR hcap hnn
    rw [profit_total (hsb ▸ hsol) hR hcap hnn, hplates]
    unfold reportedProfit
    simp [hsum, Plate.items, hitems]

/-- **C83, negative**: when the first cut must be horizontal, the plate is wider than high and some
pattern has a profit, the search throws. -/
theorem dp_horizontal_rebuild_throws (hp : HasPlate inst bt) (hs : Sized bt)
    (ho : inst.parameters.firstStageOrientation = .horizontal)
    (hwide : (usable bt).t < (usable bt).l + (bt.w - bt.leftTrim - bt.rightTrim))
    (hpos : ∃ p : Pattern, p.Fits inst.itemTypes inst.parameters.cutThickness
        (bt.w - bt.leftTrim - bt.rightTrim) (bt.h - bt.bottomTrim - bt.topTrim)
      ∧ p.TwoSided inst.parameters.cutThickness (bt.w - bt.leftTrim - bt.rightTrim)
        (bt.h - bt.bottomTrim - bt.topTrim)
      ∧ 0 < p.profit inst.itemTypes) :
    ∃ steps, ∀ fuel, steps ≤ fuel →
      treeSearchHypergraphInfiniteCopies inst fuel = .error .logicError := by
  obtain ⟨tbl, e, hd⟩ := dpOk_of hp
  have hW : 0 < effWidth bt := hp.width
  have hH : 0 < effHeight bt := hp.height
  have hor : rebuiltOrientation inst.parameters = .horizontal := by
    unfold rebuiltOrientation; rw [ho]; rfl
  have hread : tableRead tbl (effWidth bt) (effWidth bt) (effHeight bt)
      = .ok (entry 0 (effWidth bt) tbl (effWidth bt) (effHeight bt)) :=
    read_ok 0 hd.table ⟨hW.le, le_refl _, hH.le, le_refl _⟩
  have hbest := hd.best _ _ hW (le_refl _) hH (le_refl _)
  obtain ⟨p, p1, p2, p3⟩ := hpos
  have hv : entry 0 (effWidth bt) tbl (effWidth bt) (effHeight bt) > 0 :=
    lt_of_lt_of_le p3 (hbest.2 p ⟨p1, p2⟩)
  obtain ⟨ops, N, -, -, e1, -⟩ := dpRebuilds (inst := inst) (bt := bt) (b := 0)
    (o := .horizontal) (by simp) hd hp.thickness (effWidth bt + effHeight bt).toNat
    (w := effWidth bt) (h := effHeight bt) (by omega) hW (le_refl _) hH (le_refl _) 2
    (offsetX bt) (offsetY bt) (by omega)
  refine ⟨N, fun fuel hf => ?_⟩
  unfold treeSearchHypergraphInfiniteCopies
  rw [e]
  show dpReconstruct inst tbl fuel = _
  unfold dpReconstruct dpSolutionOps
  have hfirst := hp.first
  cases hbt : inst.binTypes with
  | nil => rw [hbt] at hfirst; cases hfirst
  | cons x rest =>
    rw [hbt] at hfirst
    cases hfirst
    dsimp only
    rw [hread, hor]
    dsimp only [bind, Except.bind]
    rw [if_pos hv, e1 fuel hf]
    dsimp only
    rw [horizontal_first_cut_throws hp hs hwide]

end

namespace DpRebuildEx

open RebuildEx

/-- The hypotheses of `dp_rebuild_partial` are met. -/
example : HasPlate inst { w := 5, h := 3 } ∧ (∀ bt ∈ inst.binTypes, Sized bt)
    ∧ TablesOk inst ∧ inst.parameters.minimumWasteLength ≤ 1
    ∧ inst.parameters.firstStageOrientation ≠ .horizontal
    ∧ ResourceIdsOk inst ∧ CapacitiesNonneg inst ∧ ConsumptionsNonneg inst :=
  ⟨hasPlate, sized, tablesOk, by decide, by decide,
    resourceIdsOk, by unfold CapacitiesNonneg; decide, by unfold ConsumptionsNonneg; decide⟩

/-- **C83, negative**: the copies of the item types are ignored, here five items where two copies
exist. -/
theorem dp_ignores_copies :
    ((treeSearchHypergraphInfiniteCopies inst 20).toOption.map fun sol =>
      (sol.profit, (plates sol).map (fun p => p.items), sol.itemCopiesFeasible))
      = some (20, [[1, 1, 1, 1, 1]], false) := by
  decide +kernel

/-- The hypotheses of `dp_horizontal_rebuild_throws` are met. -/
example : HasPlate instH { w := 5, h := 3 } ∧ Sized { w := 5, h := 3 }
    ∧ instH.parameters.firstStageOrientation = .horizontal
    ∧ (usable { w := 5, h := 3 }).t < (usable { w := 5, h := 3 }).l + (5 - 0 - 0)
    ∧ (Pattern.vertical 2 (.item 0 false) .waste).Fits instH.itemTypes 0 5 3
    ∧ 0 < (Pattern.vertical 2 (.item 0 false) .waste).profit instH.itemTypes :=
  ⟨⟨rfl, by decide, by decide, by decide⟩, sized _ (by simp [inst]), rfl, by decide,
    ⟨by decide, by decide, ⟨_, rfl, by decide⟩, .inl ⟨by decide, trivial⟩⟩, by decide +kernel⟩

/-- **C83, negative**: a soft trim at the top makes the search throw, for an item that fits the
plate. -/
theorem dp_soft_rebuild_throws :
    (match treeSearchHypergraphInfiniteCopies instS 20 with
      | .error .logicError => true
      | _ => false) = true := by
  decide +kernel

end DpRebuildEx

end PackingSolver.Guil
