import Verif.Lemmas.Guil.PostComplete

/-!
# Lemmas: the depth of rebuilt bins
-/

namespace PackingSolver.Guil.PostProcess

open Guil.Spec
open PackingSolver.Spec (IsSortOf)

/-- All nodes are at depth `D` at most, and those with children strictly less deep. -/
def DepthOk (D : Int) (nodes : List Node) : Prop :=
  ∀ n ∈ nodes, n.d ≤ D ∧ (n.children ≠ [] → n.d + 1 ≤ D)

section
variable {D : Int} {nodes : List Node}

theorem depthOk_modify {f : Node → Node} (h : DepthOk D nodes)
    (hf : ∀ n, (f n).d = n.d ∧ (f n).children = n.children) (i : Nat) :
    DepthOk D (nodes.modify i f) := by
  intro n hn
  obtain ⟨j, hj, rfl⟩ := List.getElem_of_mem hn
  rw [List.length_modify] at hj
  rw [List.getElem_modify]
  split_ifs
  · rw [(hf _).1, (hf _).2]
    exact h _ (List.getElem_mem _)
  · exact h _ (List.getElem_mem _)

theorem depthOk_push {id : Nat} {w : Node} (h : DepthOk D nodes) (hw : w.d = (nd nodes id).d + 1)
    (hc : w.children = []) (hd : (nd nodes id).d + 1 ≤ D) : DepthOk D (pushChild nodes id w) := by
  intro n hn
  unfold pushChild at hn
  rcases List.mem_append.mp hn with hn | hn
  · obtain ⟨j, hj, rfl⟩ := List.getElem_of_mem hn
    rw [List.length_modify] at hj
    rw [List.getElem_modify]
    have hm := h _ (List.getElem_mem hj)
    split_ifs with he
    · subst he
      have : nd nodes id = nodes[id] := by
        unfold nd
        rw [List.getD_eq_getElem _ _ hj]
      rw [this] at hd
      exact ⟨hm.1, fun _ => hd⟩
    · exact hm
  · rw [List.mem_singleton] at hn
    subst hn
    exact ⟨by omega, fun h => absurd hc h⟩

theorem depthOk_close (ct : Int) (h : DepthOk D nodes) (id : Nat) :
    DepthOk D (closeNode ct nodes id) := by
  rcases closeNode_cases (ct := ct) nodes id with h' | ⟨w, h', _, hwd, hwc, _, hne⟩
  · rw [h']; exact h
  · rw [h']
    refine depthOk_push h hwd hwc ?_
    by_cases hid : id < nodes.length
    · exact (h _ (nd_mem hid)).2 hne
    · exfalso
      apply hne
      unfold nd
      rw [List.getD_eq_getElem?_getD, List.getElem?_eq_none (by omega)]
      rfl

theorem depthOk_climb (ct depth : Int) : ∀ (fuel : Nat) (nodes : List Node) (id : Option Nat),
    DepthOk D nodes → DepthOk D (climb ct depth fuel nodes id).1
      ∧ ∀ i, (climb ct depth fuel nodes id).2 = some i →
        (nd (climb ct depth fuel nodes id).1 i).d = depth - 1 := by
  intro fuel
  induction fuel with
  | zero =>
    intro nodes id h
    cases id
    · exact ⟨h, fun i hi => by cases hi⟩
    · exact ⟨h, fun i hi => by cases hi⟩
  | succ fuel ih =>
    intro nodes id h
    cases id with
    | none => exact ⟨h, fun i hi => by cases hi⟩
    | some id =>
      unfold climb
      split_ifs with hd
      · exact ⟨h, fun i hi => by cases hi; exact hd⟩
      · exact ih _ _ (depthOk_close ct h id)

theorem depthOk_closeUp (ct : Int) : ∀ (fuel : Nat) (nodes : List Node) (id : Option Nat),
    DepthOk D nodes → DepthOk D (closeUp ct fuel nodes id) := by
  intro fuel
  induction fuel with
  | zero => intro nodes id h; cases id <;> exact h
  | succ fuel ih =>
    intro nodes id h
    cases id with
    | none => exact h
    | some id => exact ih _ _ (depthOk_close ct h id)

theorem depthOk_finish (ct : Int) (h : DepthOk D nodes) : DepthOk D (finishNodes ct nodes) :=
  depthOk_closeUp _ _ _ _ h

theorem depthOk_residual (h : DepthOk D nodes) : DepthOk D (setResidual nodes) := by
  unfold setResidual
  cases hl : nodes.getLast? with
  | none => exact h
  | some node =>
    dsimp only
    split_ifs
    · intro n hn
      rcases List.mem_or_eq_of_mem_set hn with hn | hn
      · exact h n hn
      · rw [hn]
        exact h node (List.mem_of_getLast? hl)
    · exact h

theorem depthOk_addNode {ct depth pos : Int} {o : CutOrientation} (h : DepthOk D nodes)
    (hd : depth ≤ D) : DepthOk D (addNodeTo ct o nodes depth pos).1 := by
  unfold addNodeTo
  cases hl : nodes.getLast? with
  | none => exact h
  | some last =>
    dsimp only
    split_ifs
    · exact h
    · obtain ⟨h1, h2⟩ := depthOk_climb ct depth nodes.length nodes (some (nodes.length - 1)) h
      generalize climb ct depth nodes.length nodes (some (nodes.length - 1)) = res at h1 h2 ⊢
      obtain ⟨nodes1, _ | id⟩ := res
      · exact h1
      · dsimp only at h1 h2 ⊢
        have hid := h2 id rfl
        split_ifs with g1 g2
        · exact h1
        · have hm : DepthOk D (nodes1.modify id (fun p => { p with itemTypeId := -2 })) :=
            depthOk_modify (f := fun p => { p with itemTypeId := -2 }) h1 (fun n => ⟨rfl, rfl⟩) id
          have hdm : (nd (nodes1.modify id (fun p => { p with itemTypeId := -2 })) id).d
              = depth - 1 := by
            rw [← hid]
            exact ((alike_modify (nodes := nodes1) id (-2)).2 id).1.2.1
          generalize nodes1.modify id (fun p => { p with itemTypeId := -2 }) = nodes2 at hm hdm ⊢
          cases hc : newChild ct depth pos o nodes2 id with
          | error e => exact hm
          | ok child =>
            obtain ⟨c1, c2⟩ : child.d = (nd nodes2 id).d + 1 ∧ child.children = [] := by
              unfold newChild at hc
              dsimp only at hc
              split_ifs at hc <;> (cases hc; exact ⟨rfl, rfl⟩)
            exact depthOk_push hm c1 c2 (by omega)
        · cases hc : newChild ct depth pos o nodes1 id with
          | error e => exact h1
          | ok child =>
            obtain ⟨c1, c2⟩ : child.d = (nd nodes1 id).d + 1 ∧ child.children = [] := by
              unfold newChild at hc
              dsimp only at hc
              split_ifs at hc <;> (cases hc; exact ⟨rfl, rfl⟩)
            exact depthOk_push h1 c1 c2 (by omega)

theorem depthOk_run {inst : Instance} {o : CutOrientation} : ∀ (ops : List Op)
    (nodes nodes' : List Node), Shallow D ops → DepthOk D nodes →
    nodesRun inst o nodes ops = some nodes' → DepthOk D nodes' := by
  intro ops
  induction ops with
  | nil =>
    intro nodes nodes' _ h hr
    unfold nodesRun at hr
    cases hr
    exact h
  | cons op ops ih =>
    intro nodes nodes' hs h hr
    have hs' : Shallow D ops := fun d p hm => hs d p (List.mem_cons_of_mem _ hm)
    cases op with
    | addBin a b c => unfold nodesRun at hr; cases hr
    | addNode d p =>
      rw [nodesRun_addNode] at hr
      split_ifs at hr
      have hd := depthOk_addNode (ct := inst.parameters.cutThickness) (o := o) (pos := p) h
        (hs d p (List.mem_cons_self ..))
      generalize addNodeTo inst.parameters.cutThickness o nodes d p = res at hd hr
      obtain ⟨n, _ | e⟩ := res
      · exact ih _ _ hs' hd hr
      · cases hr
    | setItem i =>
      rw [nodesRun_setItem] at hr
      split_ifs at hr
      exact ih _ _ hs' (depthOk_modify (f := fun n => { n with itemTypeId := (i : Int) }) h
        (fun n => ⟨rfl, rfl⟩) _) hr

theorem depthOk_initial (bt : BinType) (b : Nat) (hD : 1 ≤ D) : DepthOk D (initialNodes bt b) := by
  intro n hn
  have h : n.d ≤ 0 := by
    unfold initialNodes at hn
    dsimp only at hn
    split_ifs at hn
    · have key : ∀ (c : Bool) (l r b t : Int), n ∈ (if c then [trimNode l r b t] else []) →
          n.d ≤ 0 := by
        intro c l r b t hm
        cases c with
        | false => rw [if_neg (by simp)] at hm; cases hm
        | true =>
          rw [if_pos rfl] at hm
          rw [List.mem_singleton.mp hm]
          show (-1 : Int) ≤ 0
          decide
      simp only [trimNodes, List.append_assoc, List.mem_append] at hn
      rcases hn with h | h | h | h | h | h | h | h | h | h
      · rw [List.mem_singleton.mp h]
      · exact key _ _ _ _ _ h
      · exact key _ _ _ _ _ h
      · exact key _ _ _ _ _ h
      · exact key _ _ _ _ _ h
      · exact key _ _ _ _ _ h
      · exact key _ _ _ _ _ h
      · exact key _ _ _ _ _ h
      · exact key _ _ _ _ _ h
      · rw [List.mem_singleton.mp h]; exact le_refl _
    · rw [List.mem_singleton.mp hn]
  exact ⟨by omega, fun _ => by omega⟩

theorem stagesReal_le (h : DepthOk D nodes) (hD : 0 ≤ D) : stagesReal nodes 0 ≤ D := by
  unfold stagesReal
  have key : ∀ (all l : List Node) (m : Int), (∀ n ∈ l, n.d ≤ D) → m ≤ D →
      l.foldl (fun m n => if sameAsParent all n then m else max m n.d) m ≤ D := by
    intro all l
    induction l with
    | nil => intro m _ hm; exact hm
    | cons n l ih =>
      intro m hl hm
      rw [List.foldl_cons]
      refine ih _ (fun x hx => hl x (List.mem_cons_of_mem _ hx)) ?_
      have := hl n (List.mem_cons_self ..)
      split_ifs <;> omega
  exact key nodes nodes 0 (fun n hn => (h n hn).1) hD

end

/-- The bounds of the region that `try_build` starts from. -/
theorem usable_eq (bt : BinType) : usable bt
    = ⟨(if bt.leftTrimType = .hard then bt.leftTrim else 0),
      (bt.w - (if bt.rightTrimType = .hard then bt.rightTrim else 0)),
      (if bt.bottomTrimType = .hard then bt.bottomTrim else 0),
      (bt.h - (if bt.topTrimType = .hard then bt.topTrim else 0))⟩ := by
  unfold usable
  congr 1
  · split_ifs <;> simp
  · split_ifs <;> simp

/-- `try_build` succeeds on the items of a pattern. -/
theorem tryBuild_complete {inst : Instance} {b : Nat} {o : CutOrientation}
    {σ : Bool → List ItemPlacement → List ItemPlacement}
    (hct : inst.parameters.cutThickness = 0)
    (hσ : ∀ v l, IsSortOf (startsBefore v) l (σ v l)) (hs : ∀ bt ∈ inst.binTypes, Sized bt)
    (ht : TablesOk inst) (hw : inst.parameters.minimumWasteLength ≤ 1) (ho : o ≠ .any)
    (hb : b < inst.numberOfBinTypes) {fuel k : Nat} (hk : 0 < k) (hfuel : k + 1 ≤ fuel)
    {L : List Region} {items : List ItemPlacement}
    (hc : Cuts 0 k (decide (o = .vertical)) (usable (inst.binType b)) L)
    (hsub : (items.map reg).Subperm L) (hfit : ∀ p ∈ items, Fits inst p) :
    ∃ s bin, tryBuild inst σ fuel b items o = .ok s ∧ s.bins = [bin]
      ∧ bin.firstCutOrientation = o ∧ bin.numberOfStagesReal ≤ k := by
  have hbm : inst.binType b ∈ inst.binTypes := by
    unfold Instance.binType
    rw [List.getD_eq_getElem _ _ hb]
    exact List.getElem_mem hb
  have hsz := hs _ hbm
  have hop : Spaces.OpenLeaf inst (inst.binType b) b (initialNodes (inst.binType b) b) 0
      (usable (inst.binType b)) := openLeaf_initial hsz
  have hv : vert o 0 = decide (o = .vertical) := by
    cases o <;> rfl
  have h0 : 0 ≤ (usable (inst.binType b)).l ∧ 0 ≤ (usable (inst.binType b)).b := by
    have h1 := hsz.left
    have h2 := hsz.bottom
    unfold usable
    dsimp only
    constructor <;> split_ifs <;> omega
  obtain ⟨ops, nodes, e1, e2, e3⟩ := region_complete (inst := inst) (b := b) (σ := σ) (o := o) hct hσ
    ho fuel k _ _ L items 0 _ hfuel (le_refl _) (fun _ => hk) h0.1 h0.2 (by rw [hv]; exact hc) hsub
    ⟨le_refl _, le_refl _, le_refl _, le_refl _⟩
    (fun p hp => (cuts_inside (le_refl _) hc _ (hsub.subset (List.mem_map_of_mem hp))).1) hfit hop
    (fun h => absurd h (lt_irrefl _))
  obtain ⟨calls, hcalls⟩ : ∃ ops', (if items.isEmpty = true then (⟨[], true⟩ : Calls)
      else regionOps σ inst.parameters.cutThickness o fuel (usable (inst.binType b)).l
        (usable (inst.binType b)).r (usable (inst.binType b)).b (usable (inst.binType b)).t items 1)
      = ⟨ops', true⟩ ∧ (∃ n, nodesRun inst o (initialNodes (inst.binType b) b) ops' = some n)
        ∧ Shallow k ops' := by
    by_cases hi : items.isEmpty = true
    · rw [if_pos hi]
      exact ⟨[], rfl, ⟨_, rfl⟩, by intro d p h; cases h⟩
    · rw [if_neg hi]
      exact ⟨ops, e1, ⟨nodes, e2⟩, by rw [zero_add] at e3; exact e3⟩
  obtain ⟨c1, ⟨n, c2⟩, c3⟩ := hcalls
  obtain ⟨sb, sol, nodes', hthrow, hsb, hsol, -, -⟩ := single_bin_solution hb rfl hs ht hw c2
  obtain ⟨-, bin, g1, g2, g3, g4, g5, g6⟩ := single_bin_built hb c2 hthrow hsol
  refine ⟨sol, bin, ?_, g1, g4, ?_⟩
  · unfold tryBuild
    rw [if_neg (by omega)]
    dsimp only
    rw [usable_eq] at c1
    dsimp only at c1
    rw [c1]
    dsimp only
    rw [hthrow]
    dsimp only
    rw [if_neg (by simp)]
    exact hsol
  · rw [g6, g5]
    have hk1 : (1 : Int) ≤ k := by omega
    exact stagesReal_le (depthOk_residual (depthOk_finish _ (depthOk_run _ _ _ c3
      (depthOk_initial _ _ hk1) c2))) (by omega)

end PackingSolver.Guil.PostProcess
