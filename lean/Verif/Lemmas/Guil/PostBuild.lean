import Verif.Lemmas.Guil.PostSound
import Verif.Props.Guil.Rebuild

/-!
# Lemmas: solutions built by calls on one bin
-/

namespace PackingSolver.Guil.PostProcess

open Guil.Spec
open Spaces (OpenLeaf)

/-- No call adds a bin. -/
def NodeOps (ops : List Op) : Prop := ∀ op ∈ ops, ∀ b c o, op ≠ .addBin b c o

section
variable {inst : Instance} {bt : BinType} {b : Nat} {o : CutOrientation}

/-- Calls that succeed, seen on the nodes of the last bin. -/
theorem nodes_of_runOrThrow {ops : List Op} : ∀ {sb sb' : SolutionBuilder}
    {bins : List SolutionBin} {bin : SolutionBin}, NodeOps ops → sb.sol.bins = bins ++ [bin] →
    sb.runOrThrow inst ops = .ok sb' →
    ∃ nodes, nodesRun inst bin.firstCutOrientation bin.nodes ops = some nodes := by
  induction ops with
  | nil => intro sb sb' bins bin _ _ _; exact ⟨_, rfl⟩
  | cons op ops ih =>
    intro sb sb' bins bin hn hb hr
    have hn' : NodeOps ops := fun op hop => hn op (List.mem_cons_of_mem _ hop)
    have hlast : sb.sol.bins.getLast? = some bin := by rw [hb]; simp
    unfold SolutionBuilder.runOrThrow at hr
    cases op with
    | addBin a b c => exact absurd rfl (hn _ (List.mem_cons_self ..) a b c)
    | addNode d p =>
      rw [nodesRun_addNode]
      have hstep : sb.step inst (.addNode d p) = sb.addNode inst d p := rfl
      rw [hstep] at hr
      unfold SolutionBuilder.addNode at hr
      rw [hlast] at hr
      dsimp only at hr
      by_cases h : d < 1
      · rw [if_pos h] at hr; cases hr
      · rw [if_neg h] at hr ⊢
        generalize addNodeTo inst.parameters.cutThickness bin.firstCutOrientation bin.nodes d p
          = res at hr ⊢
        obtain ⟨n, _ | e⟩ := res
        · dsimp only at hr ⊢
          rw [setNodes_bins hb] at hr
          exact ih (bin := { bin with nodes := n }) hn' rfl hr
        · cases hr
    | setItem i =>
      rw [nodesRun_setItem]
      have hstep : sb.step inst (.setItem i) = sb.setLastNodeItem inst i := rfl
      rw [hstep] at hr
      unfold SolutionBuilder.setLastNodeItem at hr
      rw [hlast] at hr
      dsimp only at hr
      by_cases h1 : i ≥ inst.numberOfItemTypes
      · rw [if_pos h1] at hr; cases hr
      · rw [if_neg h1] at hr
        by_cases h2 : bin.nodes = []
        · rw [h2] at hr; cases hr
        · rw [getLast_nd h2] at hr
          dsimp only at hr
          cases h3 : dimensionsOk (inst.itemType i) (nd bin.nodes (bin.nodes.length - 1)) with
          | false => rw [h3] at hr; simp at hr
          | true =>
            rw [h3, if_neg (by simp), set_last_eq_modify] at hr
            dsimp only at hr
            rw [if_pos ⟨by omega, h2, rfl⟩]
            rw [setNodes_bins hb] at hr
            exact ih (bin := { bin with nodes := (bin.nodes.modify (bin.nodes.length - 1) fun n => { n with itemTypeId := (i : Int) }) }) hn' rfl hr

/-- A solution built from calls on one bin. -/
theorem single_bin_built {ops : List Op} {nodes : List Node} {sol : Solution}
    {sb : SolutionBuilder} (hb : b < inst.numberOfBinTypes)
    (hrun : nodesRun inst o (initialNodes (inst.binType b) b) ops = some nodes)
    (hsb : (SolutionBuilder.new inst).runOrThrow inst (.addBin b 1 o :: ops) = .ok sb)
    (hsol : sb.build inst = .ok sol) :
    (SolutionBuilder.run inst (.addBin b 1 o :: ops)).build inst = .ok sol
      ∧ ∃ bin, sol.bins = [bin] ∧ bin.binTypeId = b ∧ bin.copies = 1
        ∧ bin.firstCutOrientation = o
        ∧ bin.nodes = setResidual (finishNodes inst.parameters.cutThickness nodes)
        ∧ bin.numberOfStagesReal = stagesReal bin.nodes 0 := by
  obtain ⟨bin, hbin⟩ : ∃ bin : SolutionBin, bin = { binTypeId := b, copies := 1, firstCutOrientation := o, nodes := initialNodes (inst.binType b) b } :=
    ⟨_, rfl⟩
  have hadd : (SolutionBuilder.new inst).step inst (.addBin b 1 o)
      = (⟨{ (SolutionBuilder.new inst).sol with bins := [bin] }⟩, none) := by
    show (SolutionBuilder.new inst).addBin inst b 1 o = _
    unfold SolutionBuilder.addBin
    rw [if_neg (by omega), hbin]
    rfl
  have hthrow : (SolutionBuilder.new inst).runOrThrow inst (.addBin b 1 o :: ops)
      = .ok ⟨{ (SolutionBuilder.new inst).sol with bins := [{ bin with nodes := nodes }] }⟩ := by
    unfold SolutionBuilder.runOrThrow
    rw [hadd]
    exact runOrThrow_nodes (bins := []) (bin := bin) rfl (by rw [hbin]; exact hrun)
  have hfold := runOrThrow_foldl hsb
  have hfold' : SolutionBuilder.run inst (.addBin b 1 o :: ops) = sb := hfold
  rw [hthrow] at hsb
  cases hsb
  refine ⟨by rw [hfold']; exact hsol, ?_⟩
  obtain ⟨b1, b2⟩ := build_bins hsol
  have hlen : sol.bins.length = 1 := b1
  obtain ⟨bin', hbins⟩ := List.length_eq_one_iff.mp hlen
  have hst := b2 0 (by omega)
  rw [hbins] at hst
  obtain ⟨f1, f2, f3, f4, f5⟩ := staged_frame hst
  have f4' : bin'.nodes = setResidual (finishNodes inst.parameters.cutThickness nodes) := f4
  refine ⟨bin', hbins, by rw [show bin'.binTypeId = bin.binTypeId from f1, hbin],
    by rw [show bin'.copies = bin.copies from f2, hbin],
    by rw [show bin'.firstCutOrientation = bin.firstCutOrientation from f3, hbin], f4', ?_⟩
  have f5' : bin'.numberOfStagesReal = stagesReal (setResidual (finishNodes inst.parameters.cutThickness nodes)) bin.numberOfStagesReal := f5
  rw [f5', f4', hbin]

/-- The last node of a new bin. -/
theorem openLeaf_initial (hs : Sized bt) : OpenLeaf inst bt b (initialNodes bt b) 0 (usable bt) := by
  obtain ⟨hreg, hd0⟩ := initialNodes_base hs b
  obtain ⟨hch, hit⟩ := initial_base bt b
  exact ⟨tree_initial, le_refl _, hd0, hreg, hch, hit⟩

theorem places_initial (bt : BinType) (b : Nat) : places (initialNodes bt b) = [] := by
  obtain ⟨root, tail, e, h1, _, _, h4⟩ := initialNodes_cons bt b
  unfold places
  rw [List.map_eq_nil_iff, List.filter_eq_nil_iff]
  intro n hn
  rw [e] at hn
  rcases List.mem_cons.mp hn with rfl | hn
  · simp [h1]
  · simp [(h4 n hn).2.2]

/-! ### The calls add no bins -/

theorem groupsOps_nodeOps {rec : Int → Int → Int → Int → List ItemPlacement → Calls}
    (hrec : ∀ l r b t items, NodeOps (rec l r b t items).ops) {v : Bool} {ct l r b t depth : Int} :
    ∀ (gs : List CutGroup) (prev : Int),
    NodeOps (groupsOps rec v ct l r b t depth gs prev).ops := by
  intro gs
  induction gs with
  | nil =>
    intro prev
    unfold groupsOps
    intro op hop
    cases hop
  | cons g gs ih =>
    intro prev
    unfold groupsOps
    dsimp only
    have hhead : ∀ (c : Bool) (x y : Int),
        NodeOps ((if c = true then [Op.addNode depth x] else []) ++ [Op.addNode depth y]) := by
      intro c x y op hop b' c' o' he
      subst he
      cases c <;> simp at hop
    have happ : ∀ {l m : List Op}, NodeOps l → NodeOps m → NodeOps (l ++ m) := by
      intro l m h1 h2 op hop
      rcases List.mem_append.mp hop with h | h
      · exact h1 op h
      · exact h2 op h
    have hsub := hrec (if v = true then if decide (groupStart v g - ct > prev) = true then groupStart v g else prev else l)
      (if v = true then g.cutPosition else r)
      (if v = true then b else if decide (groupStart v g - ct > prev) = true then groupStart v g else prev)
      (if v = true then t else g.cutPosition) g.items
    generalize rec _ _ _ _ g.items = sub at hsub ⊢
    by_cases he : (!sub.ended) = true
    · rw [if_pos he]
      exact happ (hhead _ _ _) hsub
    · rw [if_neg he]
      exact happ (happ (hhead _ _ _) hsub) (ih _)

theorem regionOps_nodeOps {σ : Bool → List ItemPlacement → List ItemPlacement} {ct : Int} :
    ∀ (fuel : Nat) (l r b t : Int) (items : List ItemPlacement) (depth : Int),
    NodeOps (regionOps σ ct o fuel l r b t items depth).ops := by
  intro fuel
  induction fuel with
  | zero =>
    intro l r b t items depth op hop
    cases hop
  | succ fuel ih =>
    intro l r b t items depth
    unfold regionOps
    split
    · intro op hop; cases hop
    · split
      · intro op hop b' c' o' he
        subst he
        simp at hop
      · exact groupsOps_nodeOps (fun l r b t items => ih l r b t items _) _ _

/-- What a rebuilt bin contains. -/
theorem tryBuild_sound {σ : Bool → List ItemPlacement → List ItemPlacement}
    (hσ : ∀ v l, (σ v l).Perm l) (hs : ∀ bt ∈ inst.binTypes, Sized bt) (ho : o ≠ .any) {fuel : Nat}
    {items : List ItemPlacement} {s : Solution} (h : tryBuild inst σ fuel b items o = .ok s) :
    b < inst.numberOfBinTypes ∧ ∃ ops nodes, (SolutionBuilder.run inst ops).build inst = .ok s
      ∧ plates s = [⟨b, 1, o, nodes⟩] ∧ (places nodes).Perm (items.map placeOf) := by
  unfold tryBuild at h
  by_cases hb : b ≥ inst.numberOfBinTypes
  · rw [if_pos hb] at h; cases h
  · rw [if_neg hb] at h
    have hb' : b < inst.numberOfBinTypes := by omega
    have hbm : inst.binType b ∈ inst.binTypes := by
      unfold Instance.binType
      rw [List.getD_eq_getElem _ _ hb']
      exact List.getElem_mem hb'
    refine ⟨hb', ?_⟩
    dsimp only at h
    generalize hcalls : (if items.isEmpty = true then (⟨[], true⟩ : Calls) else _) = calls at h
    obtain ⟨ops, ended⟩ := calls
    dsimp only at h
    have hn : NodeOps ops := by
      by_cases hi : items.isEmpty = true
      · rw [if_pos hi] at hcalls
        cases hcalls
        intro op hop
        cases hop
      · rw [if_neg hi] at hcalls
        have h1 := congrArg Calls.ops hcalls
        dsimp only at h1
        rw [← h1]
        exact regionOps_nodeOps _ _ _ _ _ _ _
    cases hrun : (SolutionBuilder.new inst).runOrThrow inst (.addBin b 1 o :: ops) with
    | error e => rw [hrun] at h; cases h
    | ok sb =>
      rw [hrun] at h
      dsimp only at h
      cases ended with
      | false => simp at h
      | true =>
        rw [if_neg (by simp)] at h
        have hrun' := hrun
        unfold SolutionBuilder.runOrThrow at hrun'
        have hadd : (SolutionBuilder.new inst).step inst (.addBin b 1 o)
            = (⟨{ (SolutionBuilder.new inst).sol with bins := [] ++ [{ binTypeId := b, copies := 1, firstCutOrientation := o, nodes := initialNodes (inst.binType b) b }] }⟩, none) := by
          show (SolutionBuilder.new inst).addBin inst b 1 o = _
          unfold SolutionBuilder.addBin
          rw [if_neg (by omega)]
          rfl
        rw [hadd] at hrun'
        dsimp only at hrun'
        obtain ⟨nodes, hnodes⟩ := nodes_of_runOrThrow hn rfl hrun'
        dsimp only at hnodes
        obtain ⟨hbuild, bin, e1, e2, e3, e4, e5, -⟩ := single_bin_built hb' hnodes hrun h
        refine ⟨_, bin.nodes, hbuild, ?_, ?_⟩
        · unfold plates
          rw [e1, List.map_singleton, e2, e3, e4]
        · rw [e5, places_residual, places_finish]
          by_cases hi : items.isEmpty = true
          · rw [if_pos hi] at hcalls
            cases hcalls
            unfold nodesRun at hnodes
            cases hnodes
            rw [List.isEmpty_iff.mp hi, places_initial]
            exact .nil
          · rw [if_neg hi] at hcalls
            have hop : OpenLeaf inst (inst.binType b) b (initialNodes (inst.binType b) b) 0
                (usable (inst.binType b)) := openLeaf_initial (hs _ hbm)
            have hu : usable (inst.binType b) = ⟨(if (inst.binType b).leftTrimType = .hard then (inst.binType b).leftTrim else 0),
                ((inst.binType b).w - (if (inst.binType b).rightTrimType = .hard then (inst.binType b).rightTrim else 0)),
                (if (inst.binType b).bottomTrimType = .hard then (inst.binType b).bottomTrim else 0),
                ((inst.binType b).h - (if (inst.binType b).topTrimType = .hard then (inst.binType b).topTrim else 0))⟩ := by
              unfold usable
              congr 1
              · split_ifs <;> simp
              · split_ifs <;> simp
            rw [hu] at hop
            have hadded := region_sound hσ ho fuel _ _ _ _ items 0 ops _ nodes (le_refl _)
              hcalls hop (fun h => absurd h (lt_irrefl _)) hnodes
            obtain ⟨L, eL, hp⟩ := hadded.items
            rw [eL, places_initial, List.nil_append]
            exact hp

end

end PackingSolver.Guil.PostProcess
