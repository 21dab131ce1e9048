import Verif.Props.Guil.BlockSearch
import Verif.Props.Guil.Solution
import Verif.Lemmas.Guil.Rebuild
import Verif.Lemmas.Guil.Wide

/-!
# The solutions that the block search reports

Property C82, and two more facts on built solutions (C67, C70).
-/

namespace PackingSolver.Guil

open Spec
open Guil.Spec

section
variable {inst : Instance} {ops : List Op} {s : Solution}

/-- **C70**: when pieces of waste may be one unit wide, `build` always returns a solution, whatever
the calls before. -/
theorem build_returns (ht : TablesOk inst) (hs : ∀ bt ∈ inst.binTypes, Sized bt)
    (hw : inst.parameters.minimumWasteLength ≤ 1) (ops : List Op) :
    ∃ s, (SolutionBuilder.run inst ops).build inst = .ok s := by
  rcases build_defined ht ops with ⟨h, -⟩ | ⟨-, b, hb, hn⟩
  · exact h
  · exfalso
    apply hn
    intro n hn hd _
    have h2 : n.l < n.r ∧ n.b < n.t := wide_finish hs ops b hb n hn (.inl (by omega))
    constructor <;> omega

/-- **C67**: every piece of a built solution has positive sides. -/
theorem pieces_positive (h : (SolutionBuilder.run inst ops).build inst = .ok s)
    (hs : ∀ bt ∈ inst.binTypes, Sized bt) :
    ∀ p ∈ plates s, ∀ n ∈ p.nodes, 0 ≤ n.d → n.l < n.r ∧ n.b < n.t := by
  intro p hp n hn hd
  obtain ⟨bin, hbin, rfl⟩ := List.mem_map.mp hp
  obtain ⟨h1, h2⟩ := build_bins h
  obtain ⟨i, hi, he⟩ := List.getElem_of_mem hbin
  have hst := h2 i hi
  rw [List.getD_eq_getElem _ _ hi, he] at hst
  have hlen : (finishBins inst.parameters.cutThickness (SolutionBuilder.run inst ops).sol.bins).length
      = (SolutionBuilder.run inst ops).sol.bins.length := by
    unfold finishBins
    dsimp only
    rw [List.length_modify, List.length_map]
  rw [List.getD_eq_getElem _ _ (by omega)] at hst
  have hwide := wide_finish hs ops _ (List.getElem_mem (by omega : i < _))
  rw [← (staged_frame hst).2.2.2.1] at hwide
  exact hwide n hn (.inl hd)

end

/-! ## C82: rebuilding -/

section
variable {inst : Instance} {bt : BinType} {bk : ℚ → Bucketing} {timer : Nat → Bool} {s : Search}

theorem itemsOf_initial (bt : BinType) (b : Nat) : itemsOf (initialNodes bt b) = [] := by
  obtain ⟨root, tail, e, h1, _, _, h4⟩ := initialNodes_cons bt b
  unfold itemsOf
  rw [List.map_eq_nil_iff, List.filter_eq_nil_iff]
  intro n hn
  rw [e] at hn
  rcases List.mem_cons.mp hn with rfl | hn
  · simp [h1]
  · simp [(h4 n hn).2.2]

theorem initial_base (bt : BinType) (b : Nat) :
    (nd (initialNodes bt b) (base bt b)).children = []
    ∧ ((nd (initialNodes bt b) (base bt b)).f.isSome = true →
      (nd (initialNodes bt b) (base bt b)).itemTypeId < 0) := by
  have hl := initialNodes_length bt b
  obtain ⟨root, tail, e, h1, h2, _, h4⟩ := initialNodes_cons bt b
  have hm : nd (initialNodes bt b) (base bt b) ∈ initialNodes bt b := nd_mem hl
  generalize nd (initialNodes bt b) (base bt b) = n at hm
  rw [e] at hm
  rcases List.mem_cons.mp hm with rfl | hm
  · exact ⟨h2, by rw [h1]; intro h; cases h⟩
  · exact ⟨(h4 n hm).2.1, fun _ => by rw [(h4 n hm).2.2]; decide⟩

theorem binType_zero (hp : HasPlate inst bt) :
    inst.binType 0 = bt ∧ 0 < inst.numberOfBinTypes ∧ bt ∈ inst.binTypes := by
  have h := hp.first
  unfold Instance.binType Instance.numberOfBinTypes
  cases hb : inst.binTypes with
  | nil => rw [hb] at h; cases h
  | cons x rest =>
    rw [hb] at h
    cases h
    exact ⟨rfl, by simp, by simp⟩

/-- The nodes of the bin after one cut of the whole plate and calls that fill it. -/
theorem plate_filled (hp : HasPlate inst bt) (hs : Sized bt)
    {o : CutOrientation} (ho : o = .vertical)
    (hbot : bt.bottomTrimType = .hard ∨ bt.bottomTrim = 0)
    (htop : bt.topTrimType = .hard ∨ bt.topTrim = 0) {ops : List Op} {copies : SparseCopies}
    {profit : ℚ}
    (run : Fills inst bt 0 o ops 2 ⟨offsetX bt, offsetX bt + effWidth bt, offsetY bt,
      offsetY bt + effHeight bt⟩ copies profit) :
    ∃ nodes L, nodesRun inst o (initialNodes bt 0)
        (.addNode 1 (offsetX bt + effWidth bt) :: ops) = some nodes
      ∧ itemsOf nodes = L ∧ (∀ i, (L.count i : Int) = sparseCount copies i)
      ∧ (L.map fun i => (inst.itemType i).profit).sum = profit := by
  have hW : 0 < effWidth bt := hp.width
  have hl := initialNodes_length bt 0
  obtain ⟨hreg, hd0⟩ := initialNodes_base hs 0
  obtain ⟨hch, hit⟩ := initial_base bt 0
  have hv : vert o (nd (initialNodes bt 0) (base bt 0)).d = true := by
    rw [hd0, ho]; rfl
  have hst : start inst.parameters.cutThickness o (initialNodes bt 0) (base bt 0) = offsetX bt := by
    unfold start
    rw [hch, hv, hreg]
    rfl
  have hx : offsetX bt + effWidth bt ≤ (usable bt).r := by
    have := hs.left
    have := hs.right
    unfold offsetX effWidth usable
    dsimp only
    split <;> split <;> omega
  have hy : (usable bt).t = offsetY bt + effHeight bt := by
    unfold offsetY effHeight usable
    dsimp only
    rcases hbot with h | h <;> rcases htop with h' | h' <;> (simp [h, h']; try omega)
  have key := cut_then_fill (inst := inst) (o := o) (ops := ops) (copies := copies)
    (profit := profit) (depth := 1) (pos := offsetX bt + effWidth bt)
    (tree_initial (inst := inst) (bt := bt) (b := 0)) (k := base bt 0) (le_refl _) (le_refl _) hl
    (open_last _) (by rw [hd0]; rfl) hit (by rw [hst]; omega) (by rw [hv, hreg]; exact hx) ?_
  · obtain ⟨n, en, -, -, -, -, -, -, -, L, e1, e2, e3⟩ := key
    rw [itemsOf_initial, List.nil_append] at e1
    exact ⟨n, L, en, e1, e2, e3⟩
  · intro nodes1 h1
    rw [hv, hst, hreg] at h1
    apply run
    have : strip true (usable bt) (offsetX bt) (offsetX bt + effWidth bt)
        = ⟨offsetX bt, offsetX bt + effWidth bt, offsetY bt, offsetY bt + effHeight bt⟩ := by
      show (⟨offsetX bt, offsetX bt + effWidth bt, (usable bt).b, (usable bt).t⟩ : Region) = _
      rw [hy]; rfl
    rw [this] at h1
    exact h1

/-- The nodes of the bin after the calls that rebuild a block. -/
theorem rebuilt_nodes (hp : HasPlate inst bt) (hi : PosItems inst) (hs : Sized bt)
    {o : CutOrientation} (ho : o = .vertical)
    (hbot : bt.bottomTrimType = .hard ∨ bt.bottomTrim = 0)
    (htop : bt.topTrimType = .hard ∨ bt.topTrim = 0) {ret : List Block} {blk : Block}
    (hb : BuiltBlock inst inst.parameters.cutThickness ret blk) (hw : blk.w ≤ effWidth bt)
    (hh : blk.h ≤ effHeight bt) :
    ∃ ops N, (∀ fuel, N ≤ fuel → blockOps ret o inst.parameters.cutThickness fuel blk 2 (offsetX bt)
        (offsetY bt) (effWidth bt) (effHeight bt) = .ok ops)
      ∧ ∃ nodes L, nodesRun inst o (initialNodes bt 0)
          (.addNode 1 (offsetX bt + effWidth bt) :: ops) = some nodes
        ∧ itemsOf nodes = L ∧ (∀ i, (L.count i : Int) = sparseCount blk.itemCopies i)
        ∧ (L.map fun i => (inst.itemType i).profit).sum = blk.profit := by
  obtain ⟨ops, N, e, run⟩ := hb.rebuilds (bt := bt) (b := 0) (o := o) hi hp.thickness
    (by rw [ho]; simp) (depth := 2) (x := offsetX bt) (y := offsetY bt) (by omega) hw hh
  exact ⟨ops, N, e, plate_filled hp hs ho hbot htop run⟩

/-- The solution that comes from calls on a single bin. -/
theorem single_bin_solution {b : Nat} {o : CutOrientation} (hb : b < inst.numberOfBinTypes)
    (hbt : inst.binType b = bt) (hs : ∀ bt ∈ inst.binTypes, Sized bt) (ht : TablesOk inst)
    (hw : inst.parameters.minimumWasteLength ≤ 1) {ops : List Op} {nodes : List Node}
    (hrun : nodesRun inst o (initialNodes bt b) ops = some nodes) :
    ∃ sb sol nodes', (SolutionBuilder.new inst).runOrThrow inst (.addBin b 1 o :: ops) = .ok sb
      ∧ sb = SolutionBuilder.run inst (.addBin b 1 o :: ops)
      ∧ sb.build inst = .ok sol ∧ plates sol = [⟨b, 1, o, nodes'⟩]
      ∧ itemsOf nodes' = itemsOf nodes := by
  obtain ⟨bin, hbin⟩ : ∃ bin : SolutionBin, bin = { binTypeId := b, copies := 1, firstCutOrientation := o, nodes := initialNodes bt b } :=
    ⟨_, rfl⟩
  have hadd : (SolutionBuilder.new inst).step inst (.addBin b 1 o)
      = (⟨{ (SolutionBuilder.new inst).sol with bins := [bin] }⟩, none) := by
    show (SolutionBuilder.new inst).addBin inst b 1 o = _
    unfold SolutionBuilder.addBin
    rw [if_neg (by omega), hbt, hbin]
    rfl
  have hthrow : (SolutionBuilder.new inst).runOrThrow inst (.addBin b 1 o :: ops)
      = .ok ⟨{ (SolutionBuilder.new inst).sol with bins := [{ bin with nodes := nodes }] }⟩ := by
    unfold SolutionBuilder.runOrThrow
    rw [hadd]
    exact runOrThrow_nodes (bins := []) (bin := bin) rfl (by rw [hbin]; exact hrun)
  have hfold := runOrThrow_foldl hthrow
  have hfold' : SolutionBuilder.run inst (.addBin b 1 o :: ops)
      = ⟨{ (SolutionBuilder.new inst).sol with bins := [{ bin with nodes := nodes }] }⟩ := hfold
  obtain ⟨sol, hsol⟩ := build_returns ht hs hw (.addBin b 1 o :: ops)
  obtain ⟨b1, b2⟩ := build_bins hsol
  rw [hfold'] at b1 b2
  have hlen : sol.bins.length = 1 := b1
  obtain ⟨bin', hbins⟩ := List.length_eq_one_iff.mp hlen
  have hst := b2 0 (by omega)
  rw [hbins] at hst
  obtain ⟨f1, f2, f3, f4, -⟩ := staged_frame hst
  have f4' : bin'.nodes
      = setResidual (finishNodes inst.parameters.cutThickness nodes) := f4
  have f1' : bin'.binTypeId = b := by rw [show bin'.binTypeId = bin.binTypeId from f1, hbin]
  have f2' : bin'.copies = 1 := by rw [show bin'.copies = bin.copies from f2, hbin]
  have f3' : bin'.firstCutOrientation = o := by
    rw [show bin'.firstCutOrientation = bin.firstCutOrientation from f3, hbin]
  have hplates : plates sol = [⟨b, 1, o, bin'.nodes⟩] := by
    unfold plates
    rw [hbins, List.map_singleton, f1', f2', f3']
  have hitems : itemsOf bin'.nodes = itemsOf nodes := by
    rw [f4', itemsOf_residual, itemsOf_finish]
  exact ⟨_, sol, _, hthrow, hfold'.symm, by rw [← hfold']; exact hsol, hplates, hitems⟩

/-- The solution that comes from calls on the only bin. -/
theorem rebuilt_solution (hp : HasPlate inst bt) (hs : ∀ bt ∈ inst.binTypes, Sized bt)
    (ht : TablesOk inst) (hw : inst.parameters.minimumWasteLength ≤ 1) {ops : List Op}
    {nodes : List Node} (hrun : nodesRun inst .vertical (initialNodes bt 0) ops = some nodes) :
    ∃ sb sol nodes', (SolutionBuilder.new inst).runOrThrow inst (.addBin 0 1 .vertical :: ops) = .ok sb
      ∧ sb = SolutionBuilder.run inst (.addBin 0 1 .vertical :: ops)
      ∧ sb.build inst = .ok sol ∧ plates sol = [⟨0, 1, .vertical, nodes'⟩]
      ∧ itemsOf nodes' = itemsOf nodes := by
  obtain ⟨hb0, hb1, hb2⟩ := binType_zero hp
  exact single_bin_solution hb1 hb0 hs ht hw hrun

/-- **C82**: every block the search reports is turned into a solution, without exception: one bin of
the first type with exactly the items of a pattern that fits and respects the copies, and the
profit of the block but for the penalties of exceeded resources.  The solution comes from calls of
the solution builder, so what is proved of built solutions (C67 to C71) holds of it.  Partial: the
first cut is vertical or free, and the trims at the bottom and at the top are hard; see
`horizontal_rebuild_throws` and `RebuildEx.soft_rebuild_throws`. -/
theorem rebuild_partial (hp : HasPlate inst bt) (hi : PosItems inst)
    (hs : ∀ bt ∈ inst.binTypes, Sized bt) (ht : TablesOk inst)
    (hw : inst.parameters.minimumWasteLength ≤ 1)
    (hc : ∀ i < inst.numberOfItemTypes, 0 ≤ (inst.itemType i).copies)
    (ho : inst.parameters.firstStageOrientation ≠ .horizontal)
    (hbot : bt.bottomTrimType = .hard ∨ bt.bottomTrim = 0)
    (htop : bt.topTrimType = .hard ∨ bt.topTrim = 0) {fuel : Nat}
    (he : treeSearchHypergraph inst bk timer fuel = .ok (some s)) :
    ∀ blk ∈ s.reported, ∃ steps sol ops, (∀ fuel, steps ≤ fuel →
        reconstructSolution inst s.returned blk fuel = .ok sol)
      ∧ (SolutionBuilder.run inst ops).build inst = .ok sol
      ∧ (∃ nodes, plates sol = [⟨0, 1, .vertical, nodes⟩])
      ∧ (∃ p : Pattern,
        p.Fits inst.itemTypes inst.parameters.cutThickness (bt.w - bt.leftTrim - bt.rightTrim)
          (bt.h - bt.bottomTrim - bt.topTrim)
        ∧ p.Respects inst.itemTypes ∧ p.profit inst.itemTypes = blk.profit
        ∧ ∀ i, itemCopies (plates sol) i = p.count i)
      ∧ (ResourceIdsOk inst → CapacitiesNonneg inst → ConsumptionsNonneg inst →
        sol.profit = blk.profit - penalties inst 0 ((plates sol).flatMap Plate.items)) := by
  intro blk hblk
  obtain ⟨dp, rdp, init, -, -, -, hctx, e⟩ := search_context hp hi bk timer
  obtain ⟨r, e1, h1⟩ := sinv_runSearch hctx fuel
  rw [e, e1] at he
  cases he
  have hinv := h1 s rfl
  have hok := hinv.reported blk hblk
  have hprofit := (hinv.le_best blk hblk).1
  obtain ⟨p, pf, pr, pp, pc⟩ := blockOk_pattern hctx hok
  obtain ⟨hb, hbw, hbh⟩ := hok
  obtain ⟨hb0, hb1, hb2⟩ := binType_zero hp
  have hor : rebuiltOrientation inst.parameters = .vertical := by
    unfold rebuiltOrientation
    cases hh : inst.parameters.firstStageOrientation with
    | any => rfl
    | vertical => rfl
    | horizontal => exact absurd hh ho
  obtain ⟨ops, N, hops, nodes, L, hrun, hL, hcount, hsum⟩ := rebuilt_nodes hp hi (hs bt hb2) hor
    hbot htop hb hbw hbh
  rw [hor] at hrun hops
  obtain ⟨sb, sol, nodes', hthrow, hsb, hsol, hplates, hitems⟩ := rebuilt_solution hp hs ht hw hrun
  rw [hL] at hitems
  have hcop : ∀ i, itemCopies (plates sol) i = sparseCount blk.itemCopies i := by
    intro i
    rw [hplates, ← hcount i, ← hitems]
    unfold itemCopies Plate.items
    simp
  obtain ⟨g, -⟩ := build_indic (hsb ▸ hsol)
  have hfeas : sol.itemCopiesFeasible = true := by
    refine (g.copiesFeasible ?_ hc).mpr ?_
    · intro b hb
      have hm : (⟨b.binTypeId, b.copies, b.firstCutOrientation, b.nodes⟩ : Plate) ∈ plates sol :=
        List.mem_map.mpr ⟨b, hb, rfl⟩
      rw [hplates, List.mem_singleton] at hm
      rw [show b.copies = 1 from congrArg Plate.copies hm]
      decide
    · intro i hi'
      show itemCopies (plates sol) i ≤ _
      rw [hcop]
      have cp := hb.copies
      by_cases h0 : 0 < sparseCount blk.itemCopies i
      · exact (all_copiesOk_iff _ cp.1).mp cp.2.2 i h0
      · have := hc i hi'
        omega
  refine ⟨N, sol, _, ?_, hsb ▸ hsol, ⟨_, hplates⟩, ⟨p, pf, pr, pp, fun i => by rw [hcop, pc]⟩, ?_⟩
  · intro fuel hf
    unfold reconstructSolution solutionOps
    have hfirst := hp.first
    cases hbt : inst.binTypes with
    | nil => rw [hbt] at hfirst; cases hfirst
    | cons x rest =>
      rw [hbt] at hfirst
      cases hfirst
      dsimp only
      rw [if_pos hprofit, hor, hops fuel hf]
      show (do
        let sb ← (SolutionBuilder.new inst).runOrThrow inst
          (.addBin 0 1 .vertical :: .addNode 1 (offsetX bt + effWidth bt) :: ops)
        let s ← sb.build inst
        if s.itemCopiesFeasible then .ok s else .error .logicError) = _
      rw [hthrow]
      show (do
        let s ← sb.build inst
        if s.itemCopiesFeasible then .ok s else .error .logicError) = _
      rw [hsol]
      show (if sol.itemCopiesFeasible then Except.ok sol else .error Err.logicError) = _
      rw [if_pos hfeas]
  · intro hR hcap hnn
    rw [profit_total (hsb ▸ hsol) hR hcap hnn, hplates]
    unfold reportedProfit
    simp [hsum, Plate.items, hitems]

/-- A first cut at the width of the plate throws when it is horizontal and the plate is wider than
high. -/
theorem horizontal_first_cut_throws (hp : HasPlate inst bt) (hs : Sized bt)
    (hwide : (usable bt).t < (usable bt).l + (bt.w - bt.leftTrim - bt.rightTrim)) (ops : List Op) :
    (SolutionBuilder.new inst).runOrThrow inst
      (.addBin 0 1 .horizontal :: .addNode 1 (offsetX bt + effWidth bt) :: ops)
      = .error .logicError := by
  obtain ⟨hb0, hb1, hb2⟩ := binType_zero hp
  have hadd : (SolutionBuilder.new inst).step inst (.addBin 0 1 .horizontal)
      = (⟨{ (SolutionBuilder.new inst).sol with bins := [{ binTypeId := 0, copies := 1, firstCutOrientation := .horizontal, nodes := initialNodes bt 0 }] }⟩, none) := by
    show (SolutionBuilder.new inst).addBin inst 0 1 .horizontal = _
    unfold SolutionBuilder.addBin
    rw [if_neg (by omega), hb0]
    rfl
  obtain ⟨hreg, hd0⟩ := initialNodes_base hs 0
  have hl := initialNodes_length bt 0
  have hnode : (addNodeTo inst.parameters.cutThickness .horizontal (initialNodes bt 0) 1
      (offsetX bt + effWidth bt)).2 = some .logicError := by
    rcases addNodeTo_spec (ct := inst.parameters.cutThickness) (o := .horizontal)
      (pos := offsetX bt + effWidth bt) (tree_initial (inst := inst) (bt := bt) (b := 0))
      (depth := 1) (le_refl _) with ⟨_, he⟩ | ⟨_, id, e1, _, _, _, n1, _, _, _, _, _, _, _, he⟩
    · rw [he]
    · rw [lastAt_eq hl (open_last _) (show _ = (1 : Int) - 1 by rw [hd0]; rfl)] at e1
      cases e1
      rw [he]
      split
      · rfl
      · dsimp only
        split
        · rfl
        · rename_i h
          exact absurd (.inr (by rw [hreg, hd0]; exact hwide)) h
  unfold SolutionBuilder.runOrThrow
  rw [hadd]
  dsimp only
  unfold SolutionBuilder.runOrThrow
  have : SolutionBuilder.step inst (⟨{ (SolutionBuilder.new inst).sol with bins := [{ binTypeId := 0, copies := 1, firstCutOrientation := .horizontal, nodes := initialNodes bt 0 }] }⟩ : SolutionBuilder)
      (.addNode 1 (offsetX bt + effWidth bt))
      = (SolutionBuilder.setNodes ⟨{ (SolutionBuilder.new inst).sol with bins := [{ binTypeId := 0, copies := 1, firstCutOrientation := .horizontal, nodes := initialNodes bt 0 }] }⟩ (addNodeTo inst.parameters.cutThickness .horizontal (initialNodes bt 0) 1
    (offsetX bt + effWidth bt)).1, (addNodeTo inst.parameters.cutThickness .horizontal (initialNodes bt 0) 1
    (offsetX bt + effWidth bt)).2) := rfl
  rw [this, hnode]

/-- **C82, negative**: when the first cut must be horizontal and the plate is wider than high, every
block with a profit makes the rebuilding throw: the position of the first cut is computed as if it
were vertical. -/
theorem horizontal_rebuild_throws (hp : HasPlate inst bt) (hi : PosItems inst)
    (hs : Sized bt) (ho : inst.parameters.firstStageOrientation = .horizontal)
    (hwide : (usable bt).t < (usable bt).l + (bt.w - bt.leftTrim - bt.rightTrim)) {fuel : Nat}
    (he : treeSearchHypergraph inst bk timer fuel = .ok (some s)) :
    ∀ blk ∈ s.reported, ∃ steps, ∀ fuel, steps ≤ fuel →
      reconstructSolution inst s.returned blk fuel = .error .logicError := by
  intro blk hblk
  obtain ⟨dp, rdp, init, -, -, -, hctx, e⟩ := search_context hp hi bk timer
  obtain ⟨r, e1, h1⟩ := sinv_runSearch hctx fuel
  rw [e, e1] at he
  cases he
  have hinv := h1 s rfl
  have hprofit := (hinv.le_best blk hblk).1
  obtain ⟨hb, hbw, hbh⟩ := hinv.reported blk hblk
  have hor : rebuiltOrientation inst.parameters = .horizontal := by
    unfold rebuiltOrientation; rw [ho]; rfl
  obtain ⟨ops, N, hops, -⟩ := hb.rebuilds (bt := bt) (b := 0) (o := .horizontal) hi hp.thickness
    (by simp) (depth := 2) (x := offsetX bt) (y := offsetY bt) (by omega) hbw hbh
  refine ⟨N, fun fuel hf => ?_⟩
  unfold reconstructSolution solutionOps
  have hfirst := hp.first
  cases hbt : inst.binTypes with
  | nil => rw [hbt] at hfirst; cases hfirst
  | cons x rest =>
    rw [hbt] at hfirst
    cases hfirst
    dsimp only
    rw [if_pos hprofit, hor, hops fuel hf]
    show (do
      let sb ← (SolutionBuilder.new inst).runOrThrow inst
        (.addBin 0 1 .horizontal :: .addNode 1 (offsetX bt + effWidth bt) :: ops)
      let s ← sb.build inst
      if s.itemCopiesFeasible then .ok s else .error .logicError) = _
    rw [horizontal_first_cut_throws hp hs hwide]
    rfl

end

namespace RebuildEx

/-- The instance of `BlockSearchEx` with the tables that the builder of instances fills. -/
def inst : Instance :=
  { objective := .knapsack
    itemTypes := [{ w := 2, h := 3, profit := 6, copies := 1, copiesMin := 0, oriented := true, stackId := 0, resourceIds := [[]] }, { w := 3, h := 1, profit := 4, copies := 2, copiesMin := 0, stackId := 1, resourceIds := [[]] }]
    binTypes := [{ w := 5, h := 3 }]
    stackOffsets := [0, 1, 2]
    itemTypeIds := [0, 1]
    binTypeIds := [0]
    previousBinsArea := [0]
    numberOfItems := 3 }

theorem hasPlate : HasPlate inst { w := 5, h := 3 } := ⟨rfl, by decide, by decide, by decide⟩

theorem posItems : PosItems inst := by
  intro it hit
  simp only [inst, List.mem_cons, List.not_mem_nil, or_false] at hit
  rcases hit with rfl | rfl <;> decide

theorem sized : ∀ bt ∈ inst.binTypes, Sized bt := by
  intro bt h
  rw [List.mem_singleton.mp h]
  constructor <;> decide

theorem tablesOk : TablesOk inst := ⟨by decide, by decide, by decide, by decide⟩

theorem resourceIdsOk : ResourceIdsOk inst := by
  have h : ∀ i < inst.numberOfItemTypes, ∀ b < inst.numberOfBinTypes,
      (inst.itemType i).resourceIds.getD b [] = [] ∧ (inst.binType b).resources.length = 0 := by
    decide
  intro i hi b hb
  obtain ⟨h1, h2⟩ := h i hi b hb
  rw [h1, h2]
  exact ⟨List.nodup_nil, fun r => ⟨fun h => (List.not_mem_nil h).elim, fun h => (Nat.not_lt_zero r h.1).elim⟩⟩

/-- The hypotheses of `rebuild_partial` are met by a search that reports four blocks. -/
example : HasPlate inst { w := 5, h := 3 } ∧ PosItems inst ∧ (∀ bt ∈ inst.binTypes, Sized bt)
    ∧ TablesOk inst ∧ inst.parameters.minimumWasteLength ≤ 1
    ∧ (∀ i < inst.numberOfItemTypes, 0 ≤ (inst.itemType i).copies)
    ∧ inst.parameters.firstStageOrientation ≠ .horizontal
    ∧ ((treeSearchHypergraph inst BlockSearchEx.oneBucket (fun _ => false) 60).toOption.bind id).map
      (fun s => s.reported.map (·.profit)) = some [6, 8, 10, 14]
    ∧ ResourceIdsOk inst ∧ CapacitiesNonneg inst ∧ ConsumptionsNonneg inst :=
  ⟨hasPlate, posItems, sized, tablesOk, by decide, by decide, by decide, by decide +kernel,
    resourceIdsOk, by unfold CapacitiesNonneg; decide, by unfold ConsumptionsNonneg; decide⟩

/-- The hypotheses of `build_returns` and `pieces_positive` are met, with calls that place an
item. -/
example : TablesOk inst ∧ (∀ bt ∈ inst.binTypes, Sized bt)
    ∧ inst.parameters.minimumWasteLength ≤ 1
    ∧ ((SolutionBuilder.run inst [.addBin 0 1 .vertical, .addNode 1 2,
        .setItem 0]).build inst).toOption.map (fun s => s.profit) = some 6 :=
  ⟨tablesOk, sized, by decide, by decide +kernel⟩

/-- The last of them gives a solution with the three items. -/
example : ((treeSearchHypergraph inst BlockSearchEx.oneBucket (fun _ => false) 60).toOption.bind
    id).map (fun s => s.reported.map fun b => ((reconstructSolution inst s.returned b 9).toOption.map
      fun sol => (sol.profit, (plates sol).map fun p => p.items)))
    = some [some (6, [[0]]), some (8, [[1, 1]]), some (10, [[0, 1]]), some (14, [[0, 1, 1]])] := by
  decide +kernel

/-- The same with a horizontal first cut. -/
def instH : Instance :=
  { inst with parameters := { inst.parameters with firstStageOrientation := .horizontal } }

theorem horizontal_search :
    ((treeSearchHypergraph instH BlockSearchEx.oneBucket (fun _ => false) 60).toOption.bind id).map
      (fun s => s.reported.map (·.profit)) = some [6, 8, 10, 14] := by
  decide +kernel

/-- The hypotheses of `horizontal_rebuild_throws` are met. -/
example : HasPlate instH { w := 5, h := 3 } ∧ PosItems instH ∧ Sized { w := 5, h := 3 }
    ∧ (usable { w := 5, h := 3 }).t < (usable { w := 5, h := 3 }).l + (5 - 0 - 0) :=
  ⟨⟨rfl, by decide, by decide, by decide⟩, posItems, sized _ (by simp [inst]), by decide⟩

/-- A plate of 2 × 4 with a soft trim of 1 at the top, and an item of 2 × 3. -/
def instS : Instance :=
  { objective := .knapsack
    itemTypes := [{ w := 2, h := 3, profit := 6, copies := 1, copiesMin := 0, stackId := 0, oriented := true, resourceIds := [[]] }]
    binTypes := [{ w := 2, h := 4, topTrim := 1, topTrimType := .soft }]
    stackOffsets := [0, 1]
    itemTypeIds := [0]
    binTypeIds := [0]
    previousBinsArea := [0]
    numberOfItems := 1 }

/-- **C82, negative**: a soft trim at the top or at the bottom makes the rebuilding throw, for an
item that fits the plate. -/
theorem soft_rebuild_throws :
    ((treeSearchHypergraph instS BlockSearchEx.oneBucket (fun _ => false) 60).toOption.bind
      id).map (fun s => s.reported.map fun b => (b.profit, match reconstructSolution instS s.returned b 9 with
        | .error .logicError => true
        | _ => false))
      = some [(6, true)] := by
  decide +kernel

end RebuildEx

end PackingSolver.Guil
