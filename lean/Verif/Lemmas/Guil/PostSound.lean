import Verif.Lemmas.Guil.Places
import Verif.Model.Guil.PostProcess

/-!
# Lemmas: the calls that rebuild a bin from the places of its items
-/

namespace PackingSolver.Guil.PostProcess

open Guil.Spec
open Spaces (OpenLeaf)

section
variable {inst : Instance} {bt : BinType} {b : Nat} {o : CutOrientation} {nodes nodes' : List Node}
  {ops : List Op} {d a pos : Int} {R : Region} {k : Nat} {P : List (Nat × Region)}

/-- The node `k` is open, and its next strip starts at `a`. -/
structure At (inst : Instance) (bt : BinType) (b : Nat) (o : CutOrientation) (nodes : List Node)
    (k : Nat) (d : Int) (R : Region) (a : Int) : Prop where
  tree : Tree inst bt b nodes
  base : base bt b ≤ k
  lt : k < nodes.length
  opened : Open nodes k
  depth : (nd nodes k).d = d
  place : region (nd nodes k) = R
  item : (nd nodes k).f.isSome = true → (nd nodes k).itemTypeId < 0
  start : start inst.parameters.cutThickness o nodes k = a

/-- Items with the places `P` have been added below the node `k`. -/
structure Added (inst : Instance) (bt : BinType) (b : Nat) (nodes nodes' : List Node) (k : Nat)
    (P : List (Nat × Region)) : Prop where
  tree : Tree inst bt b nodes'
  length : nodes.length ≤ nodes'.length
  old : ∀ i < k, nd nodes' i = nd nodes i
  same : Same (nd nodes' k) (nd nodes k)
  opened : Open nodes' k
  items : ∃ L, places nodes' = places nodes ++ L ∧ L.Perm P

theorem At.nothing (h : At inst bt b o nodes k d R a) : Added inst bt b nodes nodes k [] :=
  ⟨h.tree, le_refl _, fun _ _ => rfl, .refl _, h.opened, [], by simp, .nil⟩

/-- What a cut of the open node leads to. -/
structure CutAt (inst : Instance) (bt : BinType) (b : Nat) (o : CutOrientation)
    (nodes nodes1 : List Node) (k : Nat) (d : Int) (R : Region) (a pos : Int) : Prop where
  after : At inst bt b o nodes1 k d R (pos + inst.parameters.cutThickness)
  leaf : FreeLeaf inst bt b nodes1 (d + 1 + 1) (strip (vert o d) R a pos)
  child : (nd nodes1 k).children.getLast? = some (nodes1.length - 1)
  length : nodes.length < nodes1.length
  old : ∀ i < k, nd nodes1 i = nd nodes i
  same : Same (nd nodes1 k) (nd nodes k)
  places : places nodes1 = places nodes

theorem At.cut (h : At inst bt b o nodes k d R a) (hd : 0 ≤ d) (h1 : a < pos)
    (h2 : pos ≤ R.high (vert o d)) :
    ∃ nodes1, addNodeTo inst.parameters.cutThickness o nodes (d + 1) pos = (nodes1, none)
      ∧ CutAt inst bt b o nodes nodes1 k d R a pos := by
  obtain ⟨n1, e, t1, l1, o1, s1, i1, c1, op1, it1, w⟩ :=
    addNode_open (ct := inst.parameters.cutThickness) (o := o) (depth := d + 1) (pos := pos) h.tree
      (by omega) h.base h.lt h.opened (by rw [h.depth]; omega) h.item (by rw [h.start]; exact h1)
      (by rw [h.place, h.depth]; exact h2)
  obtain ⟨w1, w2, w3, w4, w5⟩ := childAt_spec (ct := inst.parameters.cutThickness) (o := o)
    (nodes := nodes) (depth := d + 1) (pos := pos) (id := k)
  rw [h.place, h.depth, h.start] at w5
  have hk := h.lt
  have hb := h.base
  refine ⟨n1, e, ⟨t1, h.base, by omega, op1, by rw [s1.2.1, h.depth], by rw [s1.2.2, h.place], i1,
    ?_⟩, ⟨t1, by omega, by rw [w, w2]; omega, by rw [w, w5], by rw [w, w3],
    by rw [w, w4]; decide⟩, by rw [c1, List.getLast?_concat], l1, o1, s1, places_addNode e⟩
  unfold Guil.start
  rw [c1, List.getLast?_concat]
  dsimp only
  rw [w, w5, s1.2.1, h.depth, strip_high]

/-- A cut that succeeded. -/
theorem At.cut_of_run (h : At inst bt b o nodes k d R a) (hd : 0 ≤ d)
    (hr : nodesRun inst o nodes (.addNode (d + 1) pos :: ops) = some nodes') :
    a < pos ∧ pos ≤ R.high (vert o d) ∧ ∃ nodes1, nodesRun inst o nodes1 ops = some nodes'
      ∧ CutAt inst bt b o nodes nodes1 k d R a pos := by
  rw [nodesRun_addNode, if_neg (by omega)] at hr
  have hpos : a < pos ∧ pos ≤ R.high (vert o d) := by
    by_contra hc
    rcases addNodeTo_spec (ct := inst.parameters.cutThickness) (o := o) (depth := d + 1)
      (pos := pos) h.tree (by omega) with ⟨_, e⟩ | ⟨hd2, id, e1, c2, hid, hd5, nodes1, n1, n2, ht,
        hop, hext, hnd, hst, he⟩
    · rw [e] at hr; cases hr
    · rw [lastAt_eq h.lt h.opened (by rw [h.depth]; omega)] at e1
      cases e1
      have hbad : pos ≤ Guil.start inst.parameters.cutThickness o nodes k
          ∨ pos > (region (nd nodes k)).high (vert o (nd nodes k).d) := by
        rw [h.start, h.place, h.depth]
        by_cases h1 : a < pos
        · right; by_contra h2; exact hc ⟨h1, by omega⟩
        · left; omega
      dsimp only at he
      rw [if_pos hbad] at he
      by_cases g1 : (nd nodes k).f.isSome = true ∧ 0 ≤ (nd nodes k).itemTypeId
      · rw [if_pos g1] at he; rw [he] at hr; cases hr
      · rw [if_neg g1] at he; rw [he] at hr; cases hr
  obtain ⟨n1, e, hc⟩ := h.cut hd hpos.1 hpos.2
  rw [e] at hr
  exact ⟨hpos.1, hpos.2, n1, hr, hc⟩

/-- Filling the new strip keeps the node open. -/
theorem CutAt.filled {nodes1 nodes2 : List Node} (h : CutAt inst bt b o nodes nodes1 k d R a pos)
    (f : Added inst bt b nodes1 nodes2 (nodes1.length - 1) P) :
    At inst bt b o nodes2 k d R (pos + inst.parameters.cutThickness)
      ∧ Added inst bt b nodes nodes2 k P := by
  have hlen := h.length
  have hk := h.after.lt
  have hkk : k < nodes1.length - 1 := by
    have := h.child
    have hk' : (nodes1.length - 1) ∈ (nd nodes1 k).children := List.mem_of_getLast? this
    rw [h.after.tree.kids k h.after.base h.after.lt] at hk'
    obtain ⟨h1, h2⟩ := List.mem_filter.mp hk'
    have hf : (nd nodes1 (nodes1.length - 1)).f = some k := by simpa using h2
    obtain ⟨c, hc, _, hlt, _⟩ := h.after.tree.later (nodes1.length - 1) h.leaf.below (by omega)
    rw [hf] at hc
    cases hc
    exact hlt
  have hold : nd nodes2 k = nd nodes1 k := f.old k hkk
  have hl2 := f.length
  have hopen : Open nodes2 k := by
    intro j j1 j2
    rw [hold]
    by_cases hj : j < nodes1.length - 1
    · rw [f.old j hj]; exact h.after.opened j j1 (by omega)
    · have hlast := h.after.opened (nodes1.length - 1) (by omega) (by omega)
      rw [← f.same.2.1] at hlast
      by_cases hj2 : j = nodes1.length - 1
      · rw [hj2]; exact hlast
      · exact lt_trans hlast (f.opened j (by omega) j2)
  have hst := h.after.start
  unfold Guil.start at hst
  rw [h.child] at hst
  dsimp only at hst
  refine ⟨⟨f.tree, h.after.base, by omega, hopen, by rw [hold]; exact h.after.depth,
    by rw [hold]; exact h.after.place, by rw [hold]; exact h.after.item, ?_⟩, f.tree, by omega, ?_,
    by rw [hold]; exact h.same, hopen, ?_⟩
  · unfold Guil.start
    rw [hold, h.child]
    dsimp only
    rw [f.same.2.2]
    exact hst
  · intro i hi
    rw [f.old i (by omega), h.old i hi]
  · obtain ⟨L, e, hp⟩ := f.items
    exact ⟨L, by rw [e, h.places], hp⟩

theorem CutAt.added {nodes1 : List Node} (h : CutAt inst bt b o nodes nodes1 k d R a pos) :
    Added inst bt b nodes nodes1 k [] :=
  ⟨h.after.tree, h.length.le, h.old, h.same, h.after.opened, [], by rw [h.places]; simp, .nil⟩

theorem Added.trans {nodes1 nodes2 : List Node} {Q : List (Nat × Region)}
    (h1 : Added inst bt b nodes nodes1 k P) (h2 : Added inst bt b nodes1 nodes2 k Q) :
    Added inst bt b nodes nodes2 k (P ++ Q) := by
  obtain ⟨L1, e1, p1⟩ := h1.items
  obtain ⟨L2, e2, p2⟩ := h2.items
  exact ⟨h2.tree, le_trans h1.length h2.length, fun i hi => by rw [h2.old i hi, h1.old i hi],
    h2.same.trans h1.same, h2.opened, L1 ++ L2, by rw [e2, e1, List.append_assoc], p1.append p2⟩

/-- The last node, free of cuts, is open. -/
theorem OpenLeaf.at (h : OpenLeaf inst bt b nodes d R) :
    At inst bt b o nodes (nodes.length - 1) d R (R.low (vert o d)) := by
  have hne : 0 < nodes.length := by have := h.tree.base_lt; omega
  refine ⟨h.tree, h.base, by omega, open_last nodes, h.depth, h.place, h.item, ?_⟩
  unfold Guil.start
  rw [h.children, h.place, h.depth]
  rfl

/-! ### Items on leaves -/

theorem leaf_item {i : Nat} (hl : FreeLeaf inst bt b nodes d R)
    (hr : nodesRun inst o nodes [.setItem i] = some nodes') :
    Added inst bt b nodes nodes' (nodes.length - 1) [(i, R)] := by
  rw [nodesRun_setItem] at hr
  by_cases h : i < inst.numberOfItemTypes ∧ nodes ≠ []
      ∧ dimensionsOk (inst.itemType i) (nd nodes (nodes.length - 1)) = true
  · rw [if_pos h] at hr
    unfold nodesRun at hr
    cases hr
    have hlt := hl.below
    have hal := alike_modify (nodes := nodes) (nodes.length - 1) (i : Int)
    refine ⟨hl.tree.setItem hlt.le ?_, ?_, ?_, (hal.2 _).1, ?_, ?_⟩
    · intro _ _
      exact ⟨hl.children, i, h.1, rfl, h.2.2⟩
    · rw [hal.1]
    · intro j hj
      rw [nd_modify, if_neg (by omega)]
    · intro j j1 j2
      rw [hal.1] at j2
      omega
    · exact ⟨_, places_setLast h.2.1 hl.father hl.item, by rw [hl.place]⟩
  · rw [if_neg h] at hr; cases hr

theorem leaf_item_run {i : Nat} (hl : FreeLeaf inst bt b nodes d R)
    (hi : i < inst.numberOfItemTypes)
    (hdim : (R.r - R.l = (inst.itemType i).w ∧ R.t - R.b = (inst.itemType i).h)
      ∨ (R.r - R.l = (inst.itemType i).h ∧ R.t - R.b = (inst.itemType i).w)) :
    ∃ nodes', nodesRun inst o nodes [.setItem i] = some nodes' := by
  have hlt := hl.below
  have hne : nodes ≠ [] := by intro h0; rw [h0] at hlt; simp at hlt
  refine ⟨_, by rw [nodesRun_setItem, if_pos ⟨hi, hne, ?_⟩]; rfl⟩
  have hp := hl.place
  unfold region at hp
  rw [← hp] at hdim
  unfold dimensionsOk
  simpa using hdim

end

/-! ### Groups -/

section
variable {σ : Bool → List ItemPlacement → List ItemPlacement} {v : Bool} {ct : Int}
  {items : List ItemPlacement}

theorem groupStep_flat (st : List CutGroup × CutGroup) (item : ItemPlacement) :
    (groupStep v ct st item).1.flatMap (·.items) ++ (groupStep v ct st item).2.items
      = st.1.flatMap (·.items) ++ st.2.items ++ [item] := by
  unfold groupStep
  split_ifs <;> simp

theorem foldl_groupStep_flat (l : List ItemPlacement) : ∀ st : List CutGroup × CutGroup,
    (l.foldl (groupStep v ct) st).1.flatMap (·.items) ++ (l.foldl (groupStep v ct) st).2.items
      = st.1.flatMap (·.items) ++ st.2.items ++ l := by
  induction l with
  | nil => intro st; simp
  | cons x l ih =>
    intro st
    rw [List.foldl_cons, ih, groupStep_flat]
    simp

/-- The groups contain the sorted items. -/
theorem findGroups_flat : (findGroups σ items v ct).flatMap (·.items) = σ v items := by
  unfold findGroups
  dsimp only
  have h := foldl_groupStep_flat (v := v) (ct := ct) (σ v items) ([], ⟨-1, []⟩)
  dsimp only [List.flatMap_nil, List.nil_append] at h
  rw [List.flatMap_nil, List.nil_append] at h
  split_ifs with he
  · rw [List.isEmpty_iff.mp he] at h
    simpa using h
  · rw [List.flatMap_append]
    simpa using h

end

theorem isVerticalCut_eq {o : CutOrientation} (ho : o ≠ .any) {depth : Int} :
    isVerticalCut o depth = vert o (depth - 1) := by
  unfold isVerticalCut vert isVerticalAt
  rw [show depth - 1 + 1 = depth by omega]
  cases o with
  | any => exact absurd rfl ho
  | vertical => simp
  | horizontal => simp

section
variable {inst : Instance} {bt : BinType} {b : Nat} {o : CutOrientation}
  {σ : Bool → List ItemPlacement → List ItemPlacement}

theorem strip_eq (v : Bool) (l r b' t x y : Int) :
    (⟨if v then x else l, if v then y else r, if v then b' else x, if v then t else y⟩ : Region)
      = strip v ⟨l, r, b', t⟩ x y := by
  cases v <;> rfl

/-- The loop over the groups puts the items where they are to be. -/
theorem groups_sound {rec : Int → Int → Int → Int → List ItemPlacement → Calls} {d : Int}
    (hd : 0 ≤ d) {l r b' t : Int}
    (hrec : ∀ l r b' t items ops nodes nodes', rec l r b' t items = ⟨ops, true⟩ →
      FreeLeaf inst bt b nodes (d + 1 + 1) ⟨l, r, b', t⟩ → nodesRun inst o nodes ops = some nodes' →
      Added inst bt b nodes nodes' (nodes.length - 1) (items.map placeOf)) :
    ∀ (gs : List CutGroup) (prev : Int) (ops : List Op) (nodes nodes' : List Node) (k : Nat),
    groupsOps rec (vert o d) inst.parameters.cutThickness l r b' t (d + 1) gs prev = ⟨ops, true⟩ →
    At inst bt b o nodes k d ⟨l, r, b', t⟩ prev → nodesRun inst o nodes ops = some nodes' →
    Added inst bt b nodes nodes' k ((gs.flatMap (·.items)).map placeOf) := by
  intro gs
  induction gs with
  | nil =>
    intro prev ops nodes nodes' k h ha hr
    unfold groupsOps at h
    cases h
    unfold nodesRun at hr
    cases hr
    exact ha.nothing
  | cons g gs ih =>
    intro prev ops nodes nodes' k h ha hr
    unfold groupsOps at h
    dsimp only at h
    generalize groupStart (vert o d) g = start at h
    rw [List.flatMap_cons, List.map_append]
    -- after the leading waste
    have hlead : ∀ rest : List Op, nodesRun inst o nodes ((if decide (start - inst.parameters.cutThickness > prev) = true then [Op.addNode (d + 1) (start - inst.parameters.cutThickness)] else []) ++ rest) = some nodes' →
        ∃ nodes0, nodesRun inst o nodes0 rest = some nodes' ∧ Added inst bt b nodes nodes0 k []
          ∧ At inst bt b o nodes0 k d ⟨l, r, b', t⟩
            (if decide (start - inst.parameters.cutThickness > prev) = true then start else prev) := by
      intro rest hrest
      by_cases hg : decide (start - inst.parameters.cutThickness > prev) = true
      · rw [if_pos hg] at hrest ⊢
        obtain ⟨_, _, n1, e, hc⟩ := ha.cut_of_run hd hrest
        refine ⟨n1, e, hc.added, ?_⟩
        have := hc.after
        rwa [show start - inst.parameters.cutThickness + inst.parameters.cutThickness = start by ring]
          at this
      · rw [if_neg hg] at hrest ⊢
        exact ⟨nodes, hrest, ha.nothing, ha⟩
    generalize (if decide (start - inst.parameters.cutThickness > prev) = true then start else prev)
      = prev' at h hlead
    generalize hsub : rec _ _ _ _ g.items = sub at h
    cases hend : sub.ended with
    | false => rw [hend] at h; simp at h
    | true =>
      rw [hend] at h
      simp only [Bool.not_true, Bool.false_eq_true, if_false] at h
      generalize hrest : groupsOps rec (vert o d) inst.parameters.cutThickness l r b' t (d + 1) gs
        (g.cutPosition + inst.parameters.cutThickness) = rest at h
      obtain ⟨ro, re⟩ := rest
      obtain ⟨so, se⟩ := sub
      dsimp only at h hend
      subst hend
      cases h
      rw [List.append_assoc, List.append_assoc] at hr
      obtain ⟨n0, e0, a0, at0⟩ := hlead _ hr
      obtain ⟨_, _, n1, e1, hc⟩ := at0.cut_of_run hd e0
      rw [show ([] : List Op).append (so ++ ro) = so ++ ro from rfl, nodesRun_append] at e1
      cases hn2 : nodesRun inst o n1 so with
      | none => rw [hn2] at e1; cases e1
      | some n2 =>
        rw [hn2] at e1
        have hleaf := hc.leaf
        rw [← strip_eq] at hleaf
        have f := hrec _ _ _ _ _ _ _ _ hsub hleaf hn2
        obtain ⟨at2, a2⟩ := hc.filled f
        have a3 := ih _ _ _ _ _ hrest at2 e1
        exact (a0.trans a2).trans a3

/-- The calls put the items where they are to be. -/
theorem region_sound (hσ : ∀ v l, (σ v l).Perm l) (ho : o ≠ .any) : ∀ (fuel : Nat)
    (l r b' t : Int) (items : List ItemPlacement) (d : Int) (ops : List Op)
    (nodes nodes' : List Node), 0 ≤ d →
    regionOps σ inst.parameters.cutThickness o fuel l r b' t items (d + 1) = ⟨ops, true⟩ →
    OpenLeaf inst bt b nodes d ⟨l, r, b', t⟩ →
    (0 < d → FreeLeaf inst bt b nodes (d + 1) ⟨l, r, b', t⟩) →
    nodesRun inst o nodes ops = some nodes' →
    Added inst bt b nodes nodes' (nodes.length - 1) (items.map placeOf) := by
  intro fuel
  induction fuel with
  | zero =>
    intro l r b' t items d ops nodes nodes' hd h
    unfold regionOps at h
    cases h
  | succ fuel ih =>
    intro l r b' t items d ops nodes nodes' hd h hl hf hr
    unfold regionOps at h
    by_cases hne : items.isEmpty = true
    · rw [if_pos hne] at h
      cases h
      unfold nodesRun at hr
      cases hr
      rw [List.isEmpty_iff.mp hne]
      exact (OpenLeaf.at (o := o) hl).nothing
    · rw [if_neg hne] at h
      generalize hfr : (if d + 1 > 1 then fillsRegion l r b' t items else none) = fr at h
      cases fr with
      | some i =>
        dsimp only at h
        cases h
        have hd1 : d + 1 > 1 := by
          by_contra hc
          rw [if_neg hc] at hfr; cases hfr
        rw [if_pos hd1] at hfr
        have hitems : ∃ p, items = [p] ∧ placeOf p = (i, ⟨l, r, b', t⟩) := by
          unfold fillsRegion at hfr
          split at hfr
          · rename_i p
            split_ifs at hfr with hp
            cases hfr
            refine ⟨p, rfl, ?_⟩
            obtain ⟨h1, h2, h3, h4⟩ := hp
            unfold placeOf reg
            rw [h1, h2, h3, h4]
          · cases hfr
        obtain ⟨p, rfl, hp⟩ := hitems
        rw [List.map_singleton, hp]
        exact leaf_item (hf (by omega)) hr
      | none =>
        dsimp only at h
        rw [isVerticalCut_eq ho, show d + 1 - 1 = d by omega] at h
        have key := groups_sound (inst := inst) (bt := bt) (b := b) (o := o)
          (rec := fun l r b t items => regionOps σ inst.parameters.cutThickness o fuel l r b t items
            (d + 1 + 1)) hd (l := l) (r := r) (b' := b') (t := t) ?_ _ _ _ nodes nodes'
          (nodes.length - 1) h ?_ hr
        · rw [findGroups_flat] at key
          obtain ⟨L, e, hp⟩ := key.items
          exact ⟨key.tree, key.length, key.old, key.same, key.opened, L, e,
            hp.trans ((hσ _ _).map _)⟩
        · intro l r b' t items ops n n' he hfl hrn
          exact ih l r b' t items (d + 1) ops n n' (by omega) he hfl.openLeaf (fun _ => hfl) hrn
        · exact OpenLeaf.at hl

end

end PackingSolver.Guil.PostProcess
