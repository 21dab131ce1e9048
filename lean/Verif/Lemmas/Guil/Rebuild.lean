import Verif.Lemmas.Guil.Build
import Verif.Lemmas.Guil.BlockSound
import Verif.Model.Guil.BlockRebuild

/-!
# Lemmas: the calls that rebuild a block
-/

namespace PackingSolver.Guil

open Spec
open Guil.Spec

/-! ### Items of a list of nodes -/

section
variable {nodes : List Node}

theorem itemsOf_append (l m : List Node) : itemsOf (l ++ m) = itemsOf l ++ itemsOf m := by
  unfold itemsOf
  rw [List.filter_append, List.map_append]

theorem itemsOf_cons (n : Node) (l : List Node) :
    itemsOf (n :: l) = itemsOf [n] ++ itemsOf l := itemsOf_append [n] l

theorem itemsOf_single_neg {n : Node} (h : n.itemTypeId < 0) : itemsOf [n] = [] := by
  unfold itemsOf
  have : ¬ 0 ≤ n.itemTypeId := by omega
  simp [this]

theorem itemsOf_single_pos {n : Node} {i : Nat} (hf : n.f.isSome = true)
    (h : n.itemTypeId = (i : Int)) : itemsOf [n] = [i] := by
  unfold itemsOf
  simp [hf, h]

theorem itemsOf_single_congr {n m : Node} (hf : n.f = m.f) (h : n.itemTypeId = m.itemTypeId) :
    itemsOf [n] = itemsOf [m] := by
  unfold itemsOf
  rw [List.filter_cons, List.filter_cons, hf, h]
  split_ifs
  · simp [h]
  · simp

theorem itemsOf_modify {f : Node → Node} : ∀ {l : List Node} {i : Nat},
    (∀ n, l[i]? = some n → itemsOf [f n] = itemsOf [n]) → itemsOf (l.modify i f) = itemsOf l := by
  intro l
  induction l with
  | nil => intro i _; cases i <;> rfl
  | cons a l ih =>
    intro i h
    cases i with
    | zero =>
      rw [List.modify_zero_cons, itemsOf_cons (f a) l, itemsOf_cons a l, h a rfl]
    | succ i =>
      rw [List.modify_succ_cons, itemsOf_cons a (l.modify i f), itemsOf_cons a l, ih]
      intro n hn
      exact h n (by simpa using hn)

theorem itemsOf_push {id : Nat} {w : Node} (hw : w.itemTypeId < 0) :
    itemsOf (pushChild nodes id w) = itemsOf nodes := by
  unfold pushChild
  rw [itemsOf_append, itemsOf_single_neg hw, List.append_nil]
  exact itemsOf_modify fun n _ => itemsOf_single_congr rfl rfl

theorem itemsOf_close (ct : Int) (nodes : List Node) (id : Nat) :
    itemsOf (closeNode ct nodes id) = itemsOf nodes := by
  rcases closeNode_cases (ct := ct) nodes id with h | ⟨w, h, _, _, _, hw, _⟩
  · rw [h]
  · rw [h, itemsOf_push (by omega)]

theorem itemsOf_climb (ct depth : Int) : ∀ (fuel : Nat) (nodes : List Node) (id : Option Nat),
    itemsOf (climb ct depth fuel nodes id).1 = itemsOf nodes := by
  intro fuel
  induction fuel with
  | zero => intro nodes id; cases id <;> rfl
  | succ fuel ih =>
    intro nodes id
    cases id with
    | none => rfl
    | some id =>
      unfold climb
      by_cases h : (nodes.getD id default).d = depth - 1
      · rw [if_pos h]
      · rw [if_neg h]
        dsimp only
        rw [ih, itemsOf_close]

theorem itemsOf_closeUp (ct : Int) : ∀ (fuel : Nat) (nodes : List Node) (id : Option Nat),
    itemsOf (closeUp ct fuel nodes id) = itemsOf nodes := by
  intro fuel
  induction fuel with
  | zero => intro nodes id; cases id <;> rfl
  | succ fuel ih =>
    intro nodes id
    cases id with
    | none => rfl
    | some id =>
      unfold closeUp
      dsimp only
      rw [ih, itemsOf_close]

theorem itemsOf_finish (ct : Int) (nodes : List Node) :
    itemsOf (finishNodes ct nodes) = itemsOf nodes := itemsOf_closeUp _ _ _ _

theorem itemsOf_residual (nodes : List Node) : itemsOf (setResidual nodes) = itemsOf nodes := by
  unfold setResidual
  by_cases h : nodes = []
  · subst h; rfl
  · rw [getLast_nd h]
    dsimp only
    by_cases hc : (nd nodes (nodes.length - 1)).itemTypeId = -1
        ∧ (nd nodes (nodes.length - 1)).d = 1
    · rw [if_pos hc, set_last_eq_modify]
      refine itemsOf_modify fun n hn => ?_
      have : nd nodes (nodes.length - 1) = n := by
        unfold nd; rw [List.getD_eq_getElem?_getD, hn]; rfl
      rw [this] at hc
      rw [itemsOf_single_neg (n := n) (by omega), itemsOf_single_neg (by simp)]
    · rw [if_neg hc]

theorem modify_snoc (f : Node → Node) (l : List Node) (a : Node) :
    (l ++ [a]).modify l.length f = l ++ [f a] := by
  induction l with
  | nil => rfl
  | cons x l ih =>
    rw [List.cons_append, List.length_cons, List.modify_succ_cons, ih]
    rfl

/-- An item is put on the last node. -/
theorem itemsOf_setLast {i : Nat} (hne : nodes ≠ [])
    (hf : (nd nodes (nodes.length - 1)).f.isSome = true)
    (hi : (nd nodes (nodes.length - 1)).itemTypeId < 0) :
    itemsOf (nodes.modify (nodes.length - 1) fun n => { n with itemTypeId := (i : Int) })
      = itemsOf nodes ++ [i] := by
  obtain ⟨l, a, rfl⟩ : ∃ l a, nodes = l ++ [a] :=
    ⟨nodes.dropLast, nodes.getLast hne, (List.dropLast_append_getLast hne).symm⟩
  have hlen : (l ++ [a]).length - 1 = l.length := by simp
  have hnd : nd (l ++ [a]) l.length = a := by unfold nd; simp
  rw [hlen, hnd] at hf hi
  rw [hlen]
  have : (l ++ [a]).modify l.length (fun n => { n with itemTypeId := (i : Int) })
      = l ++ [{ a with itemTypeId := (i : Int) }] := modify_snoc _ l a
  rw [this, itemsOf_append, itemsOf_append, itemsOf_single_neg hi, List.append_nil]
  congr 1
  exact itemsOf_single_pos hf rfl

end

/-! ### A new node under an open one -/

section
variable {inst : Instance} {bt : BinType} {b : Nat} {nodes : List Node} {ct : Int}
  {o : CutOrientation}

/-- What `add_node` does when the parent is the open node `k`. -/
theorem addNode_open (h : Tree inst bt b nodes) {k : Nat} {depth pos : Int} (hd1 : 1 ≤ depth)
    (hb : base bt b ≤ k) (hk : k < nodes.length) (ho : Open nodes k)
    (hd : (nd nodes k).d = depth - 1)
    (hi : (nd nodes k).f.isSome = true → (nd nodes k).itemTypeId < 0)
    (hp1 : start ct o nodes k < pos)
    (hp2 : pos ≤ (region (nd nodes k)).high (vert o (nd nodes k).d)) :
    ∃ nodes', addNodeTo ct o nodes depth pos = (nodes', none) ∧ Tree inst bt b nodes'
      ∧ nodes.length < nodes'.length ∧ (∀ i < k, nd nodes' i = nd nodes i)
      ∧ Same (nd nodes' k) (nd nodes k)
      ∧ ((nd nodes' k).f.isSome = true → (nd nodes' k).itemTypeId < 0)
      ∧ (nd nodes' k).children = (nd nodes k).children ++ [nodes'.length - 1]
      ∧ Open nodes' k ∧ itemsOf nodes' = itemsOf nodes
      ∧ nd nodes' (nodes'.length - 1) = childAt ct o nodes k depth pos := by
  rcases addNodeTo_spec (ct := ct) (o := o) (pos := pos) h hd1 with
    ⟨hd2, _⟩ | ⟨hd2, id, e1, c2, hid, hd5, nodes1, n1, n2, ht, hop, hext, hnd, hst, he⟩
  · exfalso
    have hbl := h.base_lt
    by_cases hkl : k = nodes.length - 1
    · subst hkl; omega
    · have := ho (nodes.length - 1) (by omega) (by omega)
      omega
  · rw [lastAt_eq hk ho hd] at e1
    cases e1
    obtain ⟨-, id', c1, -, c3, -, c5, c6⟩ := Tree.climb (ct := ct) hd1 nodes.length nodes
      (nodes.length - 1) h (by omega) (by omega) (by omega) (open_last nodes) (by omega)
    rw [n2] at c1
    cases c1
    rw [← n1] at c6
    have hit := itemsOf_climb ct depth nodes.length nodes (some (nodes.length - 1))
    rw [← n1] at hit
    have hk1 : k < nodes1.length := lt_of_lt_of_le hk hext.1
    rw [if_neg (by rintro ⟨a, a'⟩; have := hi a; omega)] at he
    dsimp only at he
    rw [if_neg (by rintro (a | a) <;> omega)] at he
    have halike : Alike nodes1 (if (nd nodes k).f.isSome
        then nodes1.modify k (fun p => { p with itemTypeId := -2 }) else nodes1) := by
      by_cases hf : (nd nodes k).f.isSome = true
      · rw [if_pos hf]; exact alike_modify k (-2)
      · rw [if_neg hf]; exact ⟨rfl, fun i => ⟨.refl _, rfl⟩⟩
    have htree2 : Tree inst bt b (if (nd nodes k).f.isSome
        then nodes1.modify k (fun p => { p with itemTypeId := -2 }) else nodes1) := by
      by_cases hf : (nd nodes k).f.isSome = true
      · rw [if_pos hf]
        refine ht.setItem c2 ?_
        intro _ hh
        dsimp only at hh
        omega
      · rw [if_neg hf]; exact ht
    have hitem2 : (nd (if (nd nodes k).f.isSome
        then nodes1.modify k (fun p => { p with itemTypeId := -2 }) else nodes1) k).f.isSome = true →
        (nd (if (nd nodes k).f.isSome
        then nodes1.modify k (fun p => { p with itemTypeId := -2 }) else nodes1) k).itemTypeId
          < 0 := by
      by_cases hf : (nd nodes k).f.isSome = true
      · rw [if_pos hf, nd_modify, if_pos ⟨rfl, hk1⟩]
        intro _
        exact (by decide : (-2 : Int) < 0)
      · rw [if_neg hf, hnd]
        intro hh; exact absurd hh hf
    have hold2 : ∀ i < k, nd (if (nd nodes k).f.isSome
        then nodes1.modify k (fun p => { p with itemTypeId := -2 }) else nodes1) i = nd nodes i := by
      intro i hik
      by_cases hf : (nd nodes k).f.isSome = true
      · rw [if_pos hf, nd_modify, if_neg (by omega)]; exact c6 i hik.le
      · rw [if_neg hf]; exact c6 i hik.le
    have hitems2 : itemsOf (if (nd nodes k).f.isSome
        then nodes1.modify k (fun p => { p with itemTypeId := -2 }) else nodes1)
        = itemsOf nodes := by
      by_cases hf : (nd nodes k).f.isSome = true
      · rw [if_pos hf, ← hit]
        refine itemsOf_modify fun n hn => ?_
        have : nd nodes1 k = n := by
          unfold nd; rw [List.getD_eq_getElem?_getD, hn]; rfl
        rw [hnd] at this
        rw [this] at hi hf
        rw [itemsOf_single_neg (n := n) (hi hf), itemsOf_single_neg (by simp)]
      · rw [if_neg hf]; exact hit
    generalize hn2 : (if (nd nodes k).f.isSome
        then nodes1.modify k (fun p => { p with itemTypeId := -2 }) else nodes1) = nodes2 at *
    have hopen2 : Open nodes2 k := by
      intro j j1 j2
      rw [(halike.2 k).1.2.1, (halike.2 j).1.2.1]
      exact hop j j1 (by rw [← halike.1]; exact j2)
    obtain ⟨w1, w2, w3, w4, w5⟩ := childAt_spec (ct := ct) (o := o) (nodes := nodes)
      (depth := depth) (pos := pos) (id := k)
    obtain ⟨⟨s1, s2, s3⟩, s4⟩ := halike.2 k
    rw [hnd] at s1 s2 s3 s4
    have hw2 : (childAt ct o nodes k depth pos).d = (nd nodes2 k).d + 1 := by
      rw [w2, s2]; omega
    have hk2 : k < nodes2.length := by rw [halike.1]; exact hk1
    have hl2 : nodes.length ≤ nodes2.length := by rw [halike.1]; exact hext.1
    have hkk : nd (pushChild nodes2 k (childAt ct o nodes k depth pos)) k
        = { nd nodes2 k with children := (nd nodes2 k).children ++ [nodes2.length] } := by
      rw [nd_push_old hk2, if_pos rfl]
    refine ⟨_, he, htree2.push c2 hk2 hopen2 hitem2 w1 hw2 w3 (by omega), ?_, ?_, ?_, ?_, ?_, ?_,
      ?_, ?_⟩
    · rw [length_push]; omega
    · intro i hik
      rw [nd_push_old (by omega), if_neg (by omega)]
      exact hold2 i hik
    · rw [hkk]; exact ⟨s1, s2, s3⟩
    · rw [hkk]; exact hitem2
    · rw [hkk, length_push]; dsimp only; rw [s4]; rfl
    · intro j j1 j2
      rw [length_push] at j2
      rw [hkk]
      show (nd nodes2 k).d < _
      by_cases hj : j < nodes2.length
      · rw [nd_push_old hj, if_neg (by omega)]; exact hopen2 j j1 hj
      · have : j = nodes2.length := by omega
        rw [this, nd_push_new, hw2]; omega
    · rw [itemsOf_push (by omega), hitems2]
    · rw [length_push]; exact nd_push_new

end

/-! ### The calls on the nodes of one bin -/

/-- The calls of a bin, seen on its nodes; `none` when one of them throws. -/
def nodesRun (inst : Instance) (o : CutOrientation) : List Node → List Op → Option (List Node)
  | nodes, [] => some nodes
  | _, .addBin _ _ _ :: _ => none
  | nodes, .addNode d p :: ops =>
    if d < 1 then none
    else match addNodeTo inst.parameters.cutThickness o nodes d p with
      | (_, some _) => none
      | (nodes, none) => nodesRun inst o nodes ops
  | nodes, .setItem i :: ops =>
    if i < inst.numberOfItemTypes ∧ nodes ≠ []
        ∧ dimensionsOk (inst.itemType i) (nd nodes (nodes.length - 1)) = true then
      nodesRun inst o (nodes.modify (nodes.length - 1) fun n => { n with itemTypeId := (i : Int) })
        ops
    else none

theorem nodesRun_addNode (inst : Instance) (o : CutOrientation) (nodes : List Node) (d p : Int)
    (ops : List Op) : nodesRun inst o nodes (.addNode d p :: ops)
      = if d < 1 then none
        else match addNodeTo inst.parameters.cutThickness o nodes d p with
          | (_, some _) => none
          | (nodes, none) => nodesRun inst o nodes ops := rfl

theorem nodesRun_setItem (inst : Instance) (o : CutOrientation) (nodes : List Node) (i : Nat)
    (ops : List Op) : nodesRun inst o nodes (.setItem i :: ops)
      = if i < inst.numberOfItemTypes ∧ nodes ≠ []
        ∧ dimensionsOk (inst.itemType i) (nd nodes (nodes.length - 1)) = true then
          nodesRun inst o
            (nodes.modify (nodes.length - 1) fun n => { n with itemTypeId := (i : Int) }) ops
        else none := rfl

theorem nodesRun_append {inst : Instance} {o : CutOrientation} {l m : List Op} :
    ∀ {nodes : List Node}, nodesRun inst o nodes (l ++ m)
      = (nodesRun inst o nodes l).bind fun nodes => nodesRun inst o nodes m := by
  induction l with
  | nil => intro nodes; rfl
  | cons op l ih =>
    intro nodes
    cases op with
    | addBin a b c => rfl
    | addNode d p =>
      rw [List.cons_append, nodesRun_addNode, nodesRun_addNode]
      by_cases h : d < 1
      · rw [if_pos h, if_pos h]; rfl
      · rw [if_neg h, if_neg h]
        rcases addNodeTo inst.parameters.cutThickness o nodes d p with ⟨n, _ | e⟩
        · exact ih
        · rfl
    | setItem i =>
      rw [List.cons_append, nodesRun_setItem, nodesRun_setItem]
      by_cases h : i < inst.numberOfItemTypes ∧ nodes ≠ []
        ∧ dimensionsOk (inst.itemType i) (nd nodes (nodes.length - 1)) = true
      · rw [if_pos h, if_pos h]; exact ih
      · rw [if_neg h, if_neg h]; rfl

theorem setNodes_bins {sb : SolutionBuilder} {bins : List SolutionBin} {bin : SolutionBin}
    {nodes : List Node} (hb : sb.sol.bins = bins ++ [bin]) :
    sb.setNodes nodes = ⟨{ sb.sol with bins := bins ++ [{ bin with nodes := nodes }] }⟩ := by
  unfold SolutionBuilder.setNodes
  rw [hb, modify_last_bin]

/-- The calls on the nodes of the last bin are calls of the builder. -/
theorem runOrThrow_nodes {inst : Instance} {ops : List Op} : ∀ {sb : SolutionBuilder}
    {bins : List SolutionBin} {bin : SolutionBin} {nodes : List Node},
    sb.sol.bins = bins ++ [bin] →
    nodesRun inst bin.firstCutOrientation bin.nodes ops = some nodes →
    sb.runOrThrow inst ops
      = .ok ⟨{ sb.sol with bins := bins ++ [{ bin with nodes := nodes }] }⟩ := by
  induction ops with
  | nil =>
    intro sb bins bin nodes hb hr
    unfold nodesRun at hr
    cases hr
    unfold SolutionBuilder.runOrThrow
    obtain ⟨sol⟩ := sb
    dsimp only at hb
    rw [← hb]
  | cons op ops ih =>
    intro sb bins bin nodes hb hr
    have hlast : sb.sol.bins.getLast? = some bin := by rw [hb]; simp
    cases op with
    | addBin a b c => unfold nodesRun at hr; cases hr
    | addNode d p =>
      rw [nodesRun_addNode] at hr
      by_cases h : d < 1
      · rw [if_pos h] at hr; cases hr
      · rw [if_neg h] at hr
        unfold SolutionBuilder.runOrThrow
        have hstep : sb.step inst (.addNode d p)
            = (sb.setNodes (addNodeTo inst.parameters.cutThickness bin.firstCutOrientation bin.nodes
                d p).1, (addNodeTo inst.parameters.cutThickness bin.firstCutOrientation bin.nodes
                d p).2) := by
          show sb.addNode inst d p = _
          unfold SolutionBuilder.addNode
          rw [hlast]
          dsimp only
          rw [if_neg h]
        rw [hstep]
        generalize addNodeTo inst.parameters.cutThickness bin.firstCutOrientation bin.nodes d p
          = res at hr ⊢
        obtain ⟨n, _ | e⟩ := res
        · dsimp only at hr ⊢
          rw [setNodes_bins hb]
          exact ih (bin := { bin with nodes := n }) rfl hr
        · cases hr
    | setItem i =>
      rw [nodesRun_setItem] at hr
      by_cases h : i < inst.numberOfItemTypes ∧ bin.nodes ≠ []
        ∧ dimensionsOk (inst.itemType i) (nd bin.nodes (bin.nodes.length - 1)) = true
      · rw [if_pos h] at hr
        unfold SolutionBuilder.runOrThrow
        have hstep : sb.step inst (.setItem i)
            = (sb.setNodes (bin.nodes.modify (bin.nodes.length - 1)
                fun n => { n with itemTypeId := (i : Int) }), none) := by
          show sb.setLastNodeItem inst i = _
          unfold SolutionBuilder.setLastNodeItem
          rw [hlast]
          dsimp only
          rw [if_neg (by omega), getLast_nd h.2.1]
          dsimp only
          rw [h.2.2, if_neg (by simp), set_last_eq_modify]
        rw [hstep]
        dsimp only
        rw [setNodes_bins hb]
        exact ih (bin := { bin with nodes := (bin.nodes.modify (bin.nodes.length - 1) fun n => { n with itemTypeId := (i : Int) }) }) rfl hr
      · rw [if_neg h] at hr; cases hr

/-- When no call throws, the builder is that of a caller who ignores exceptions. -/
theorem runOrThrow_foldl {inst : Instance} {ops : List Op} : ∀ {sb sb' : SolutionBuilder},
    sb.runOrThrow inst ops = .ok sb' → ops.foldl (fun sb op => (sb.step inst op).1) sb = sb' := by
  induction ops with
  | nil =>
    intro sb sb' h
    unfold SolutionBuilder.runOrThrow at h
    cases h
    rfl
  | cons op ops ih =>
    intro sb sb' h
    unfold SolutionBuilder.runOrThrow at h
    rw [List.foldl_cons]
    rcases hs : sb.step inst op with ⟨s, _ | e⟩
    · rw [hs] at h
      exact ih h
    · rw [hs] at h
      cases h

/-! ### The recursion on the block -/

section
variable {inst : Instance} {bt : BinType} {b : Nat} {o : CutOrientation} {ret : List Block}
  {nodes nodes' : List Node} {blk : Block}

/-- The last node is a leaf, free, and covers `R`. -/
structure FreeLeaf (inst : Instance) (bt : BinType) (b : Nat) (nodes : List Node) (depth : Int)
    (R : Region) : Prop where
  tree : Tree inst bt b nodes
  below : base bt b < nodes.length - 1
  depth : (nd nodes (nodes.length - 1)).d = depth - 1
  place : region (nd nodes (nodes.length - 1)) = R
  children : (nd nodes (nodes.length - 1)).children = []
  item : (nd nodes (nodes.length - 1)).itemTypeId < 0

/-- The last node of `nodes` has been filled with the given copies of items. -/
structure Filled (inst : Instance) (bt : BinType) (b : Nat) (nodes nodes' : List Node)
    (copies : SparseCopies) (profit : ℚ) : Prop where
  tree : Tree inst bt b nodes'
  length : nodes.length ≤ nodes'.length
  old : ∀ i < nodes.length - 1, nd nodes' i = nd nodes i
  same : Same (nd nodes' (nodes.length - 1)) (nd nodes (nodes.length - 1))
  opened : Open nodes' (nodes.length - 1)
  items : ∃ L, itemsOf nodes' = itemsOf nodes ++ L
    ∧ (∀ i, (L.count i : Int) = sparseCount copies i)
    ∧ (L.map fun i => (inst.itemType i).profit).sum = profit

/-- A cut, then calls that fill the new node. -/
theorem cut_then_fill (h : Tree inst bt b nodes) {k : Nat} {depth pos : Int} {ops : List Op}
    {copies : SparseCopies} {profit : ℚ} (hd1 : 1 ≤ depth)
    (hb : base bt b ≤ k) (hk : k < nodes.length) (ho : Open nodes k)
    (hd : (nd nodes k).d = depth - 1)
    (hi : (nd nodes k).f.isSome = true → (nd nodes k).itemTypeId < 0)
    (hp1 : start inst.parameters.cutThickness o nodes k < pos)
    (hp2 : pos ≤ (region (nd nodes k)).high (vert o (nd nodes k).d))
    (hfill : ∀ nodes1, FreeLeaf inst bt b nodes1 (depth + 1)
        (strip (vert o (nd nodes k).d) (region (nd nodes k))
          (start inst.parameters.cutThickness o nodes k) pos) →
      ∃ nodes', nodesRun inst o nodes1 ops = some nodes'
        ∧ Filled inst bt b nodes1 nodes' copies profit) :
    ∃ nodes', nodesRun inst o nodes (.addNode depth pos :: ops) = some nodes'
      ∧ Tree inst bt b nodes' ∧ nodes.length < nodes'.length
      ∧ (∀ i < k, nd nodes' i = nd nodes i) ∧ Same (nd nodes' k) (nd nodes k)
      ∧ ((nd nodes' k).f.isSome = true → (nd nodes' k).itemTypeId < 0)
      ∧ (∃ c, (nd nodes' k).children = (nd nodes k).children ++ [c]
        ∧ region (nd nodes' c) = strip (vert o (nd nodes k).d) (region (nd nodes k))
          (start inst.parameters.cutThickness o nodes k) pos)
      ∧ Open nodes' k
      ∧ ∃ L, itemsOf nodes' = itemsOf nodes ++ L
        ∧ (∀ i, (L.count i : Int) = sparseCount copies i)
        ∧ (L.map fun i => (inst.itemType i).profit).sum = profit := by
  obtain ⟨n1, e, t1, l1, o1, s1, i1, c1, op1, it1, w⟩ :=
    addNode_open h hd1 hb hk ho hd hi hp1 hp2
  obtain ⟨w1, w2, w3, w4, w5⟩ := childAt_spec (ct := inst.parameters.cutThickness) (o := o)
    (nodes := nodes) (depth := depth) (pos := pos) (id := k)
  have hleaf : FreeLeaf inst bt b n1 (depth + 1)
      (strip (vert o (nd nodes k).d) (region (nd nodes k))
        (start inst.parameters.cutThickness o nodes k) pos) :=
    ⟨t1, by omega, by rw [w, w2]; omega, by rw [w, w5], by rw [w, w3], by rw [w, w4]; decide⟩
  obtain ⟨n2, e2, f⟩ := hfill n1 hleaf
  have hkk : k < n1.length - 1 := by omega
  have hold : nd n2 k = nd n1 k := f.old k hkk
  refine ⟨n2, ?_, f.tree, by have := f.length; omega, ?_, ?_, ?_, ?_, ?_, ?_⟩
  · rw [nodesRun_addNode, if_neg (by omega), e]
    exact e2
  · intro i hik
    rw [f.old i (by omega), o1 i hik]
  · rw [hold]; exact s1
  · rw [hold]; exact i1
  · refine ⟨n1.length - 1, by rw [hold, c1], ?_⟩
    rw [f.same.2.2, w, w5]
  · intro j j1 j2
    rw [hold]
    by_cases hj : j < n1.length - 1
    · rw [f.old j hj]; exact op1 j j1 (by omega)
    · have hlast := op1 (n1.length - 1) (by omega) (by omega)
      rw [← f.same.2.1] at hlast
      by_cases hj2 : j = n1.length - 1
      · rw [hj2]; exact hlast
      · exact lt_trans hlast (f.opened j (by omega) j2)
  · obtain ⟨L, hL, h2⟩ := f.items
    exact ⟨L, by rw [hL, it1], h2⟩

/-- The calls `ops` fill every leaf of the given place with the given copies of items. -/
def Fills (inst : Instance) (bt : BinType) (b : Nat) (o : CutOrientation) (ops : List Op)
    (depth : Int) (R : Region) (copies : SparseCopies) (profit : ℚ) : Prop :=
  ∀ nodes, FreeLeaf inst bt b nodes depth R →
    ∃ nodes', nodesRun inst o nodes ops = some nodes'
      ∧ Filled inst bt b nodes nodes' copies profit

/-- The calls that rebuild `blk` fill a leaf of the given dimensions. -/
def Rebuilds (inst : Instance) (bt : BinType) (b : Nat) (o : CutOrientation) (ret : List Block)
    (blk : Block) (depth x y aw ah : Int) : Prop :=
  ∃ ops N, (∀ fuel, N ≤ fuel →
      blockOps ret o inst.parameters.cutThickness fuel blk depth x y aw ah = .ok ops)
    ∧ Fills inst bt b o ops depth ⟨x, x + aw, y, y + ah⟩ blk.itemCopies blk.profit

theorem cutIsVertical_eq (ho : o ≠ .any) {depth : Int} (hd : 1 ≤ depth) :
    cutIsVertical o depth = vert o (depth - 1) := by
  unfold cutIsVertical vert isVerticalAt
  rw [show depth - 1 + 1 = depth by omega]
  have h2 : depth.tmod 2 = 0 ∨ depth.tmod 2 = 1 := by
    rw [Int.tmod_eq_emod_of_nonneg (by omega)]; omega
  cases o with
  | any => exact absurd rfl ho
  | vertical => rcases h2 with h | h <;> simp [h]
  | horizontal => rcases h2 with h | h <;> simp [h]

theorem cutIsVertical_succ (ho : o ≠ .any) {depth : Int} (hd : 1 ≤ depth) :
    cutIsVertical o (depth + 1) = !cutIsVertical o depth := by
  rw [cutIsVertical_eq ho (by omega), cutIsVertical_eq ho hd,
    show depth + 1 - 1 = (depth - 1) + 1 by omega, vert_succ ho (by omega)]

theorem FreeLeaf.father {depth : Int} {R : Region} (h : FreeLeaf inst bt b nodes depth R) :
    (nd nodes (nodes.length - 1)).f.isSome = true := by
  obtain ⟨a, ha, _⟩ := h.tree.later (nodes.length - 1) h.below (by have := h.below; omega)
  rw [ha]; rfl

theorem FreeLeaf.start {depth ct : Int} {R : Region} (h : FreeLeaf inst bt b nodes depth R) :
    start ct o nodes (nodes.length - 1) = R.low (vert o (depth - 1)) := by
  unfold Guil.start
  rw [h.children, h.place, h.depth]
  rfl

/-- One cut that only shortens the leaf, or does not even do that. -/
theorem fills_step (ho : o ≠ .any) {depth x y aw ah aw' ah' pos : Int} {ops : List Op}
    {copies : SparseCopies} {profit : ℚ} (hd : 1 ≤ depth)
    (hrun : Fills inst bt b o ops (depth + 1) ⟨x, x + aw', y, y + ah'⟩ copies profit)
    (geo : (cutIsVertical o depth = true ∧ pos = x + aw' ∧ 0 < aw' ∧ aw' ≤ aw ∧ ah' = ah)
      ∨ (cutIsVertical o depth = false ∧ pos = y + ah' ∧ 0 < ah' ∧ ah' ≤ ah ∧ aw' = aw)) :
    Fills inst bt b o (.addNode depth pos :: ops) depth ⟨x, x + aw, y, y + ah⟩ copies profit := by
  intro nodes hl
  rw [cutIsVertical_eq ho hd] at geo
  have hlt := hl.below
  have hst := hl.start (o := o) (ct := inst.parameters.cutThickness)
  have hch : strip (vert o (depth - 1)) ⟨x, x + aw, y, y + ah⟩
      (Region.low (vert o (depth - 1)) ⟨x, x + aw, y, y + ah⟩) pos
      = ⟨x, x + aw', y, y + ah'⟩ := by
    rcases geo with ⟨v, rfl, h1, h2, rfl⟩ | ⟨v, rfl, h1, h2, rfl⟩ <;> rw [v] <;> rfl
  have key := cut_then_fill (o := o) (ops := ops) (copies := copies)
    (profit := profit) (depth := depth) (pos := pos) hl.tree
    (k := nodes.length - 1) hd hlt.le (by omega) (open_last nodes) hl.depth (fun _ => hl.item)
    ?_ ?_ ?_
  · obtain ⟨n, e, t, l1, o1, s1, i1, -, op, it⟩ := key
    exact ⟨n, e, t, l1.le, o1, s1, op, it⟩
  · rw [hst]
    rcases geo with ⟨v, rfl, h1, h2, rfl⟩ | ⟨v, rfl, h1, h2, rfl⟩ <;> rw [v]
    · show x < _; omega
    · show y < _; omega
  · rw [hl.place, hl.depth]
    rcases geo with ⟨v, rfl, h1, h2, rfl⟩ | ⟨v, rfl, h1, h2, rfl⟩ <;> rw [v]
    · show _ ≤ x + aw; omega
    · show _ ≤ y + ah; omega
  · intro nodes1 h1
    rw [hst, hl.place, hl.depth, hch] at h1
    exact hrun nodes1 h1

theorem rebuilds_step (ho : o ≠ .any) {depth x y aw ah aw' ah' pos : Int} (hd : 1 ≤ depth)
    (next : Rebuilds inst bt b o ret blk (depth + 1) x y aw' ah')
    (he : ∀ fuel, blockOps ret o inst.parameters.cutThickness (fuel + 1) blk depth x y aw ah
      = (do
        let l ← blockOps ret o inst.parameters.cutThickness fuel blk (depth + 1) x y aw' ah'
        .ok (.addNode depth pos :: l)))
    (geo : (cutIsVertical o depth = true ∧ pos = x + aw' ∧ 0 < aw' ∧ aw' ≤ aw ∧ ah' = ah)
      ∨ (cutIsVertical o depth = false ∧ pos = y + ah' ∧ 0 < ah' ∧ ah' ≤ ah ∧ aw' = aw)) :
    Rebuilds inst bt b o ret blk depth x y aw ah := by
  obtain ⟨ops, N, hops, hrun⟩ := next
  refine ⟨.addNode depth pos :: ops, N + 1, ?_, fills_step ho hd hrun geo⟩
  intro fuel hf
  obtain ⟨m, rfl⟩ : ∃ m, fuel = m + 1 := ⟨fuel - 1, by omega⟩
  rw [he, hops m (by omega)]
  rfl

/-- An item that fills the leaf. -/
theorem fills_item {id : Nat} {rot : Bool} {it : ItemType} {depth x y w h : Int}
    (hit : inst.itemTypes[id]? = some it)
    (hw : w = if rot then it.h else it.w) (hh : h = if rot then it.w else it.h) :
    Fills inst bt b o [.setItem id] depth ⟨x, x + w, y, y + h⟩ [(id, 1)] it.profit := by
  have hid : id < inst.numberOfItemTypes := by
    unfold Instance.numberOfItemTypes
    exact (List.getElem?_eq_some_iff.mp hit).1
  intro nodes hl
  have hlt := hl.below
  have hne : nodes ≠ [] := by intro h0; rw [h0] at hlt; simp at hlt
  have hdim : dimensionsOk (inst.itemType id) (nd nodes (nodes.length - 1)) = true := by
    have e1 := congrArg Region.l hl.place
    have e2 := congrArg Region.r hl.place
    have e3 := congrArg Region.b hl.place
    have e4 := congrArg Region.t hl.place
    unfold region at e1 e2 e3 e4
    dsimp only at e1 e2 e3 e4
    unfold dimensionsOk
    rw [e1, e2, e3, e4, itemType_of_some hit, hw, hh]
    cases rot <;> simp
  have hal := alike_modify (nodes := nodes) (nodes.length - 1) (id : Int)
  refine ⟨nodes.modify (nodes.length - 1) fun n => { n with itemTypeId := (id : Int) }, ?_, ?_⟩
  · rw [nodesRun_setItem, if_pos ⟨hid, hne, hdim⟩]
    rfl
  · refine ⟨hl.tree.setItem hlt.le ?_, ?_, ?_, (hal.2 _).1, ?_, ?_⟩
    · intro _ _
      exact ⟨hl.children, id, hid, rfl, hdim⟩
    · rw [hal.1]
    · intro i hi
      rw [nd_modify, if_neg (by omega)]
    · intro j j1 j2
      rw [hal.1] at j2
      omega
    · refine ⟨[id], itemsOf_setLast hne hl.father hl.item, ?_, ?_⟩
      · intro i
        rw [sparseCount_cons, List.count_singleton]
        by_cases hii : id = i
        · simp [hii, sparseCount]
        · have : ¬ (id == i) = true := by simpa using hii
          simp [hii, sparseCount]
      · rw [← itemType_of_some hit]
        simp

/-- Nothing to do on a leaf that stays waste. -/
theorem fills_nothing {depth : Int} {R : Region} : Fills inst bt b o [] depth R [] 0 := by
  intro nodes hl
  refine ⟨nodes, rfl, hl.tree, le_refl _, fun _ _ => rfl, .refl _, open_last nodes, [], by simp,
    fun i => by simp [sparseCount], by simp⟩

/-- A simple block that fills the leaf. -/
theorem rebuilds_item {id : Nat} {rot : Bool} {it : ItemType} {depth x y : Int}
    (hc : blk.content = .simple id rot) (hit : inst.itemTypes[id]? = some it)
    (hw : blk.w = if rot then it.h else it.w) (hh : blk.h = if rot then it.w else it.h)
    (hp : blk.profit = it.profit) (hcp : blk.itemCopies = [(id, 1)]) :
    Rebuilds inst bt b o ret blk depth x y blk.w blk.h := by
  refine ⟨[.setItem id], 1, ?_, ?_⟩
  · intro fuel hf
    obtain ⟨m, rfl⟩ : ∃ m, fuel = m + 1 := ⟨fuel - 1, by omega⟩
    unfold blockOps
    rw [if_neg (by omega), if_neg (by omega), hc]
  · rw [hcp, hp]
    exact fills_item hit hw hh

/-- Two cuts, each followed by calls that fill the new node. -/
theorem fills_pair (ho : o ≠ .any) {depth x y w h x2 y2 aw1 ah1 aw2 ah2 q1 q2 : Int}
    {ops1 ops2 : List Op} {copies1 copies2 : SparseCopies} {profit1 profit2 : ℚ} (hd : 1 ≤ depth)
    (ht : 0 ≤ inst.parameters.cutThickness)
    (geo : (cutIsVertical o depth = true ∧ q1 = x + aw1 ∧ 0 < aw1 ∧ ah1 = h
          ∧ x2 = q1 + inst.parameters.cutThickness ∧ y2 = y ∧ x2 < q2 ∧ q2 = x2 + aw2
          ∧ q2 = x + w ∧ ah2 = h)
        ∨ (cutIsVertical o depth = false ∧ q1 = y + ah1 ∧ 0 < ah1 ∧ aw1 = w
          ∧ y2 = q1 + inst.parameters.cutThickness ∧ x2 = x ∧ y2 < q2 ∧ q2 = y2 + ah2
          ∧ q2 = y + h ∧ aw2 = w))
    (run1 : Fills inst bt b o ops1 (depth + 1) ⟨x, x + aw1, y, y + ah1⟩ copies1 profit1)
    (run2 : Fills inst bt b o ops2 (depth + 1) ⟨x2, x2 + aw2, y2, y2 + ah2⟩ copies2 profit2) :
    Fills inst bt b o (.addNode depth q1 :: ops1 ++ .addNode depth q2 :: ops2) depth
      ⟨x, x + w, y, y + h⟩ (mergeCopies copies1 copies2) (profit1 + profit2) := by
  intro nodes hl
  rw [cutIsVertical_eq ho hd] at geo
  have hlt := hl.below
  have hst := hl.start (o := o) (ct := inst.parameters.cutThickness)
  have key := cut_then_fill (o := o) (ops := ops1) (copies := copies1)
    (profit := profit1) (depth := depth) (pos := q1) hl.tree
    (k := nodes.length - 1) hd hlt.le (by omega) (open_last nodes) hl.depth (fun _ => hl.item)
    ?_ ?_ ?_
  · obtain ⟨n, e, t, l1, o1, s1, i1, ⟨c, ch, cr⟩, op, L1, it1, cnt1, sum1⟩ := key
    rw [hl.children, List.nil_append] at ch
    rw [hst, hl.place, hl.depth] at cr
    have hdn : (nd n (nodes.length - 1)).d = depth - 1 := by rw [s1.2.1, hl.depth]
    have hrn : region (nd n (nodes.length - 1)) = ⟨x, x + w, y, y + h⟩ := by
      rw [s1.2.2, hl.place]
    have hst2 : start inst.parameters.cutThickness o n (nodes.length - 1)
        = q1 + inst.parameters.cutThickness := by
      unfold Guil.start
      rw [ch]
      show (region (nd n c)).high (vert o (nd n (nodes.length - 1)).d) + _ = _
      rw [hdn, cr, strip_high]
    have key2 := cut_then_fill (o := o) (ops := ops2) (copies := copies2)
      (profit := profit2) (depth := depth) (pos := q2) t
      (k := nodes.length - 1) hd hlt.le (by omega) op hdn i1 ?_ ?_ ?_
    · obtain ⟨n', e', t', l1', o1', s1', i1', -, op', L2, it2, cnt2, sum2⟩ := key2
      refine ⟨n', ?_, t', by omega, ?_, s1'.trans s1, op', L1 ++ L2, ?_, ?_, ?_⟩
      · rw [nodesRun_append, e]; exact e'
      · intro i hi; rw [o1' i hi, o1 i hi]
      · rw [it2, it1, List.append_assoc]
      · intro i
        rw [sparseCount_merge, ← cnt1, ← cnt2, List.count_append]
        push_cast; rfl
      · rw [List.map_append, List.sum_append, sum1, sum2]
    · rw [hst2]
      rcases geo with ⟨v, -, -, -, g1, -, g2, -⟩ | ⟨v, -, -, -, g1, -, g2, -⟩ <;> omega
    · rw [hrn, hdn]
      rcases geo with ⟨v, -, -, -, g1, -, g2, g3, g4, g5⟩ | ⟨v, -, -, -, g1, -, g2, g3, g4, g5⟩
        <;> rw [v]
      · show _ ≤ x + w; omega
      · show _ ≤ y + h; omega
    · intro nodes1 hf1
      rw [hst2, hrn, hdn] at hf1
      apply run2
      have hch : strip (vert o (depth - 1)) ⟨x, x + w, y, y + h⟩
          (q1 + inst.parameters.cutThickness) q2 = ⟨x2, x2 + aw2, y2, y2 + ah2⟩ := by
        rcases geo with ⟨v, -, -, -, g1, g0, g2, g3, g4, g5⟩
          | ⟨v, -, -, -, g1, g0, g2, g3, g4, g5⟩ <;> rw [v]
        · show (⟨q1 + inst.parameters.cutThickness, q2, y, y + h⟩ : Region) = _
          rw [g0, g5, ← g3, ← g1]
        · show (⟨x, x + w, q1 + inst.parameters.cutThickness, q2⟩ : Region) = _
          rw [g0, g5, ← g3, ← g1]
      rw [hch] at hf1
      exact hf1
  · rw [hst]
    rcases geo with ⟨v, g1, g2, -⟩ | ⟨v, g1, g2, -⟩ <;> rw [v]
    · show x < _; omega
    · show y < _; omega
  · rw [hl.place, hl.depth]
    rcases geo with ⟨v, g1, g2, -, g3, -, g4, -, g5, -⟩ | ⟨v, g1, g2, -, g3, -, g4, -, g5, -⟩
      <;> rw [v]
    · show _ ≤ x + w; omega
    · show _ ≤ y + h; omega
  · intro nodes1 hf1
    rw [hst, hl.place, hl.depth] at hf1
    apply run1
    have hch : strip (vert o (depth - 1)) ⟨x, x + w, y, y + h⟩
        (Region.low (vert o (depth - 1)) ⟨x, x + w, y, y + h⟩) q1
        = ⟨x, x + aw1, y, y + ah1⟩ := by
      rcases geo with ⟨v, g1, -, g2, -⟩ | ⟨v, g1, -, g2, -⟩ <;> rw [v, g1, g2] <;> rfl
    rw [hch] at hf1
    exact hf1

/-- A combined block that fills the leaf, when the next cut has its orientation. -/
theorem rebuilds_pair (ho : o ≠ .any) {p1 p2 : Block} {i j : Nat} {depth x y : Int}
    (hd : 1 ≤ depth) (ht : 0 ≤ inst.parameters.cutThickness) (hc : blk.content = .pair i j)
    (h1 : ret[i]? = some p1) (h2 : ret[j]? = some p2)
    (pos1 : 0 < p1.w ∧ 0 < p1.h) (pos2 : 0 < p2.w ∧ 0 < p2.h)
    (hdim : (blk.firstCutOrientation = .vertical
        ∧ blk.w = p1.w + p2.w + inst.parameters.cutThickness ∧ blk.h = max p1.h p2.h)
      ∨ (blk.firstCutOrientation = .horizontal ∧ blk.w = max p1.w p2.w
        ∧ blk.h = p1.h + p2.h + inst.parameters.cutThickness))
    (hp : blk.profit = p1.profit + p2.profit)
    (hcp : blk.itemCopies = mergeCopies p1.itemCopies p2.itemCopies)
    (hv : cutIsVertical o depth = decide (blk.firstCutOrientation = .vertical))
    (r1 : ∀ x y aw ah, p1.w ≤ aw → p1.h ≤ ah → Rebuilds inst bt b o ret p1 (depth + 1) x y aw ah)
    (r2 : ∀ x y aw ah, p2.w ≤ aw → p2.h ≤ ah →
      Rebuilds inst bt b o ret p2 (depth + 1) x y aw ah) :
    Rebuilds inst bt b o ret blk depth x y blk.w blk.h := by
  -- the two halves and the two cuts
  obtain ⟨x2, y2, aw1, ah1, aw2, ah2, q1, q2, hsub1, hsub2, hops, geo⟩ :
      ∃ x2 y2 aw1 ah1 aw2 ah2 q1 q2, (p1.w ≤ aw1 ∧ p1.h ≤ ah1) ∧ (p2.w ≤ aw2 ∧ p2.h ≤ ah2)
      ∧ (∀ fuel, blockOps ret o inst.parameters.cutThickness (fuel + 1) blk depth x y blk.w blk.h
        = (do
          let l1 ← blockOps ret o inst.parameters.cutThickness fuel p1 (depth + 1) x y aw1 ah1
          let l2 ← blockOps ret o inst.parameters.cutThickness fuel p2 (depth + 1) x2 y2 aw2 ah2
          .ok (.addNode depth q1 :: l1 ++ .addNode depth q2 :: l2)))
      ∧ ((cutIsVertical o depth = true ∧ q1 = x + aw1 ∧ 0 < aw1 ∧ ah1 = blk.h
          ∧ x2 = q1 + inst.parameters.cutThickness ∧ y2 = y ∧ x2 < q2 ∧ q2 = x2 + aw2
          ∧ q2 = x + blk.w ∧ ah2 = blk.h)
        ∨ (cutIsVertical o depth = false ∧ q1 = y + ah1 ∧ 0 < ah1 ∧ aw1 = blk.w
          ∧ y2 = q1 + inst.parameters.cutThickness ∧ x2 = x ∧ y2 < q2 ∧ q2 = y2 + ah2
          ∧ q2 = y + blk.h ∧ aw2 = blk.w)) := by
    rw [hv]
    rcases hdim with ⟨hf, hw, hh⟩ | ⟨hf, hw, hh⟩
    · refine ⟨x + p1.w + inst.parameters.cutThickness, y, p1.w, blk.h, p2.w, blk.h, x + p1.w,
        x + blk.w, ⟨le_refl _, by omega⟩, ⟨le_refl _, by omega⟩, ?_, ?_⟩
      · intro fuel
        rw [blockOps, if_neg (by omega), if_neg (by omega), hc]
        dsimp only
        rw [if_neg (by rw [hv]; simp), h1, h2]
        dsimp only
        rw [if_pos hf]
      · exact .inl ⟨by simp [hf], rfl, pos1.1, rfl, rfl, rfl, by omega, by omega, rfl, rfl⟩
    · refine ⟨x, y + p1.h + inst.parameters.cutThickness, blk.w, p1.h, blk.w, p2.h, y + p1.h,
        y + blk.h, ⟨by omega, le_refl _⟩, ⟨by omega, le_refl _⟩, ?_, ?_⟩
      · intro fuel
        rw [blockOps, if_neg (by omega), if_neg (by omega), hc]
        dsimp only
        rw [if_neg (by rw [hv]; simp), h1, h2]
        dsimp only
        rw [if_neg (by rw [hf]; simp)]
      · exact .inr ⟨by simp [hf], rfl, pos1.2, rfl, rfl, rfl, by omega, by omega, rfl, rfl⟩
  obtain ⟨ops1, N1, e1, run1⟩ := r1 x y aw1 ah1 hsub1.1 hsub1.2
  obtain ⟨ops2, N2, e2, run2⟩ := r2 x2 y2 aw2 ah2 hsub2.1 hsub2.2
  refine ⟨.addNode depth q1 :: ops1 ++ .addNode depth q2 :: ops2, max N1 N2 + 1, ?_, ?_⟩
  · intro fuel hf
    obtain ⟨m, rfl⟩ : ∃ m, fuel = m + 1 := ⟨fuel - 1, by omega⟩
    rw [hops, e1 m (by omega), e2 m (by omega)]
    rfl
  · rw [hcp, hp]
    exact fills_pair ho hd ht geo run1 run2

/-- What fits exactly can be given more room. -/
theorem rebuilds_room (ho : o ≠ .any) (pos : 0 < blk.w ∧ 0 < blk.h)
    (exact : ∀ depth x y, 1 ≤ depth → Rebuilds inst bt b o ret blk depth x y blk.w blk.h)
    {depth x y aw ah : Int} (hd : 1 ≤ depth) (hw : blk.w ≤ aw) (hh : blk.h ≤ ah) :
    Rebuilds inst bt b o ret blk depth x y aw ah := by
  -- too much height only, the next cut being horizontal
  have tall : ∀ depth, 1 ≤ depth → cutIsVertical o depth = false → blk.h < ah →
      Rebuilds inst bt b o ret blk depth x y blk.w ah := by
    intro depth hd v hlt
    refine rebuilds_step ho hd (exact (depth + 1) x y (by omega)) (fun fuel => ?_)
      (.inr ⟨v, rfl, pos.2, hh, rfl⟩)
    rw [blockOps, if_neg (by omega), if_pos hlt, v]
    rfl
  -- too much height, whatever the next cut
  have tall' : ∀ depth, 1 ≤ depth → blk.h < ah →
      Rebuilds inst bt b o ret blk depth x y blk.w ah := by
    intro depth hd hlt
    cases v : cutIsVertical o depth with
    | false => exact tall depth hd v hlt
    | true =>
      refine rebuilds_step ho hd (tall (depth + 1) (by omega)
        (by rw [cutIsVertical_succ ho hd, v]; rfl) hlt) (fun fuel => ?_)
        (.inl ⟨v, rfl, pos.1, le_refl _, rfl⟩)
      rw [blockOps, if_neg (by omega), if_pos hlt, v]
      rfl
  -- the right width
  have narrow : ∀ depth, 1 ≤ depth → Rebuilds inst bt b o ret blk depth x y blk.w ah := by
    intro depth hd
    rcases lt_or_eq_of_le hh with hlt | heq
    · exact tall' depth hd hlt
    · rw [← heq]; exact exact depth x y hd
  rcases lt_or_eq_of_le hw with hlt | heq
  · have wide : ∀ depth, 1 ≤ depth → cutIsVertical o depth = true →
        Rebuilds inst bt b o ret blk depth x y aw ah := by
      intro depth hd v
      refine rebuilds_step ho hd (narrow (depth + 1) (by omega)) (fun fuel => ?_)
        (.inl ⟨v, rfl, pos.1, hw, rfl⟩)
      rw [blockOps, if_pos hlt, v]
      rfl
    cases v : cutIsVertical o depth with
    | true => exact wide depth hd v
    | false =>
      refine rebuilds_step ho hd (wide (depth + 1) (by omega)
        (by rw [cutIsVertical_succ ho hd, v]; rfl)) (fun fuel => ?_)
        (.inr ⟨v, rfl, by omega, le_refl _, rfl⟩)
      rw [blockOps, if_pos hlt, v]
      rfl
  · rw [← heq]; exact narrow depth hd

/-- Every block the search makes is rebuilt by the calls. -/
theorem BuiltBlock.rebuilds (hpos : PosItems inst) (ht : 0 ≤ inst.parameters.cutThickness)
    (ho : o ≠ .any) (h : BuiltBlock inst inst.parameters.cutThickness ret blk) :
    ∀ {depth x y aw ah : Int}, 1 ≤ depth → blk.w ≤ aw → blk.h ≤ ah →
      Rebuilds inst bt b o ret blk depth x y aw ah := by
  induction h with
  | @simple blk id rot it hc hit hrot hw hh hp hcp hco =>
    intro depth x y aw ah hd haw hah
    have hb : BuiltBlock inst inst.parameters.cutThickness ret blk :=
      .simple hc hit hrot hw hh hp hcp hco
    exact rebuilds_room ho (hb.pos hpos ht)
      (fun depth x y _ => rebuilds_item hc hit hw hh hp hcp) hd haw hah
  | @pair blk p1 p2 i j hc h1 h2 b1 b2 hdim hp hcp hv ih1 ih2 =>
    intro depth x y aw ah hd haw hah
    have hb : BuiltBlock inst inst.parameters.cutThickness ret blk :=
      .pair hc h1 h2 b1 b2 hdim hp hcp hv
    have hbp := hb.pos hpos ht
    have straight : ∀ depth x y, 1 ≤ depth →
        cutIsVertical o depth = decide (blk.firstCutOrientation = .vertical) →
        Rebuilds inst bt b o ret blk depth x y blk.w blk.h := by
      intro depth x y hd v
      exact rebuilds_pair ho hd ht hc h1 h2 (b1.pos hpos ht) (b2.pos hpos ht) hdim hp hcp v
        (fun x y aw ah a a' => ih1 (by omega) a a') (fun x y aw ah a a' => ih2 (by omega) a a')
    refine rebuilds_room ho hbp ?_ hd haw hah
    intro depth x y hd
    by_cases v : cutIsVertical o depth = decide (blk.firstCutOrientation = .vertical)
    · exact straight depth x y hd v
    · have v' : cutIsVertical o (depth + 1) = decide (blk.firstCutOrientation = .vertical) := by
        rw [cutIsVertical_succ ho hd]
        revert v
        cases cutIsVertical o depth <;> cases decide (blk.firstCutOrientation = .vertical) <;> simp
      cases vv : cutIsVertical o depth with
      | true =>
        refine rebuilds_step ho hd (straight (depth + 1) x y (by omega) v') (fun fuel => ?_)
          (.inl ⟨vv, rfl, hbp.1, le_refl _, rfl⟩)
        rw [blockOps, if_neg (by omega), if_neg (by omega), hc]
        dsimp only
        rw [if_pos v, vv]
        rfl
      | false =>
        refine rebuilds_step ho hd (straight (depth + 1) x y (by omega) v') (fun fuel => ?_)
          (.inr ⟨vv, rfl, hbp.2, le_refl _, rfl⟩)
        rw [blockOps, if_neg (by omega), if_neg (by omega), hc]
        dsimp only
        rw [if_pos v, vv]
        rfl

end

end PackingSolver.Guil
