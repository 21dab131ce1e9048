import Verif.Lemmas.Guil.Tree

/-!
# Lemmas: the state of the builder of guillotine solutions
-/

namespace PackingSolver.Guil

open Spec

section
variable {inst : Instance} {bt : BinType} {b : Nat} {nodes nodes' : List Node}
variable {ct : Int} {o : CutOrientation} {K base' : Nat}

/-! ### Lists that differ by items only -/

theorem Alike.leaves (h : Alike nodes nodes') : leaves base' nodes' = leaves base' nodes := by
  unfold Guil.leaves
  have hmap : nodes'.map leafOf = nodes.map leafOf := by
    apply List.ext_getElem
    · rw [List.length_map, List.length_map, h.1]
    · intro i h1 h2
      rw [List.length_map] at h1 h2
      rw [List.getElem_map, List.getElem_map]
      have e := h.2 i
      have e1 : nd nodes' i = nodes'[i] := by
        unfold nd; rw [List.getD_eq_getElem?_getD, List.getElem?_eq_getElem h1]; rfl
      have e2 : nd nodes i = nodes[i] := by
        unfold nd; rw [List.getD_eq_getElem?_getD, List.getElem?_eq_getElem h2]; rfl
      rw [e1, e2] at e
      unfold leafOf
      rw [e.2, e.1.2.2]
  rw [List.flatMap_def, List.flatMap_def, List.map_drop, List.map_drop, hmap]

theorem Alike.path {c : Nat} {pre : List Region} (h : Alike nodes nodes')
    (hp : Path ct o K base' nodes c pre) : Path ct o K base' nodes' c pre :=
  hp.mono (by rw [h.1]; exact hp.bounds.2.1) (fun i _ => (h.2 i).2) (fun i _ => (h.2 i).1)

theorem Alike.tip (h : Alike nodes nodes') (ht : Tip ct o K base' nodes) :
    Tip ct o K base' nodes' := by
  obtain ⟨pre, h1, h2, h3⟩ := ht
  refine ⟨pre, ?_, ?_, ?_⟩
  · rw [h.1]; exact h.path h1
  · rw [h.1, (h.2 _).2]; exact h2
  · rw [h.1, h.leaves, (h.2 _).1.2.2]; exact h3

theorem Alike.start (h : Alike nodes nodes') (id : Nat) :
    start ct o nodes' id = start ct o nodes id := by
  unfold Guil.start
  rw [(h.2 id).2, (h.2 id).1.2.1, (h.2 id).1.2.2]
  cases (nd nodes id).children.getLast? with
  | none => rfl
  | some c => dsimp only; rw [(h.2 c).1.2.2]

theorem Alike.ready {id : Nat} {pre P : List Region} (h : Alike nodes nodes')
    (hr : Ready ct o K base' nodes id pre P) : Ready ct o K base' nodes' id pre P := by
  obtain ⟨⟨s1, s2, s3⟩, s4⟩ := h.2 id
  have hleft : left K (nd nodes' id) = left K (nd nodes id) := by unfold left; rw [s2]
  refine ⟨h.path hr.path, ?_, ?_, ?_, ?_, ?_, ?_⟩
  · rw [s4, s3, s2, h.start]; exact hr.low_lt
  · intro c hc
    rw [s4] at hc
    obtain ⟨h1, h2⟩ := hr.brother c hc
    rw [h.1, s3, s2, (h.2 c).1.2.2]
    exact ⟨h1, h2⟩
  · rw [hleft, s4, s3, s2, h.start]; exact hr.ext
  · rw [hleft, s4, s3, s2, h.start]; exact hr.done
  · rw [h.1, s4, s3, h.leaves]; exact hr.nil
  · rw [s4, h.leaves]; exact hr.cons

theorem Alike.stagesOk (h : Alike nodes nodes') (hs : StagesOk K nodes') : StagesOk K nodes := by
  intro i hi
  rcases hs i (by rw [h.1]; exact hi) with hd | ⟨f, hf, hr⟩
  · left; rw [← (h.2 i).1.2.1]; exact hd
  · right
    refine ⟨f, by rw [← (h.2 i).1.1]; exact hf, ?_⟩
    rw [← (h.2 i).1.2.2, ← (h.2 f).1.2.2]; exact hr

/-! ### The new child -/

/-- What `newChild` computes. -/
theorem newChild_eq {depth pos : Int} {id : Nat} (hd : (nd nodes id).d = depth - 1) :
    newChild ct depth pos o nodes id
      = if pos ≤ start ct o nodes id then .error .logicError
        else if pos > (region (nd nodes id)).high (vert o (nd nodes id).d) then .error .logicError
        else .ok (if vert o (nd nodes id).d then
            childNode id depth (start ct o nodes id) pos (nd nodes id).b (nd nodes id).t
          else childNode id depth (nd nodes id).l (nd nodes id).r (start ct o nodes id) pos) := by
  have hdd : depth = (nd nodes id).d + 1 := by omega
  have hvd : isVerticalAt o depth = vert o (nd nodes id).d := by unfold vert; rw [hdd]
  unfold newChild
  dsimp only
  rw [hvd]
  have hnd : nodes.getD id default = nd nodes id := rfl
  rw [hnd, ← hdd]
  cases hv : vert o (nd nodes id).d with
  | true =>
    rw [if_pos rfl]
    cases hc : (nd nodes id).children.getLast? with
    | none =>
      have hst : start ct o nodes id = (nd nodes id).l := by unfold start; rw [hc, hv]; rfl
      rw [hst]; rfl
    | some c =>
      have hst : start ct o nodes id = (nodes.getD c default).r + ct := by
        unfold start; rw [hc, hv]; rfl
      rw [hst]; rfl
  | false =>
    rw [if_neg (by simp)]
    cases hc : (nd nodes id).children.getLast? with
    | none =>
      have hst : start ct o nodes id = (nd nodes id).b := by unfold start; rw [hc, hv]; rfl
      rw [hst]; rfl
    | some c =>
      have hst : start ct o nodes id = (nodes.getD c default).t + ct := by
        unfold start; rw [hc, hv]; rfl
      rw [hst]; rfl

/-- The node added by `add_node`. -/
def childAt (ct : Int) (o : CutOrientation) (nodes : List Node) (id : Nat) (depth pos : Int) :
    Node :=
  if vert o (nd nodes id).d then
    childNode id depth (start ct o nodes id) pos (nd nodes id).b (nd nodes id).t
  else childNode id depth (nd nodes id).l (nd nodes id).r (start ct o nodes id) pos

theorem childAt_spec {depth pos : Int} {id : Nat} :
    (childAt ct o nodes id depth pos).f = some id ∧ (childAt ct o nodes id depth pos).d = depth
    ∧ (childAt ct o nodes id depth pos).children = []
    ∧ (childAt ct o nodes id depth pos).itemTypeId = -1
    ∧ region (childAt ct o nodes id depth pos)
        = strip (vert o (nd nodes id).d) (region (nd nodes id)) (start ct o nodes id) pos := by
  unfold childAt
  cases vert o (nd nodes id).d with
  | true => exact ⟨rfl, rfl, rfl, rfl, rfl⟩
  | false => exact ⟨rfl, rfl, rfl, rfl, rfl⟩

/-! ### `add_node` -/

/-- Number of the last node of depth `d`. -/
def lastAt (nodes : List Node) (d : Int) : Option Nat :=
  (List.range nodes.length).reverse.find? fun i => (nd nodes i).d == d

theorem lastAt_eq {id : Nat} {d : Int} (hl : id < nodes.length) (ho : Open nodes id)
    (hd : (nd nodes id).d = d) : lastAt nodes d = some id := by
  unfold lastAt
  have hsplit : List.range nodes.length
      = List.range id ++ id :: (List.range' (id + 1) (nodes.length - id - 1)) := by
    rw [List.range_eq_range', List.range_eq_range']
    have h2 : id :: List.range' (id + 1) (nodes.length - id - 1)
        = List.range' id (nodes.length - id) := by
      obtain ⟨m, hm⟩ : ∃ m, nodes.length - id = m + 1 := ⟨nodes.length - id - 1, by omega⟩
      rw [hm, List.range'_succ]
      congr 2
    rw [h2]
    have h3 := List.range'_append_1 (s := 0) (m := id) (n := nodes.length - id)
    rw [Nat.zero_add] at h3
    rw [h3]
    congr 1; omega
  rw [hsplit, List.reverse_append, List.reverse_cons, List.append_assoc, List.find?_append]
  have hnone : (List.range' (id + 1) (nodes.length - id - 1)).reverse.find?
      (fun i => (nd nodes i).d == d) = none := by
    rw [List.find?_eq_none]
    intro i hi
    rw [List.mem_reverse, List.mem_range'_1] at hi
    have := ho i (by omega) (by omega)
    intro hcon
    have := eq_of_beq hcon
    omega
  rw [hnone]
  simp [hd]

/-- The effect of `add_node` on the nodes of a bin. -/
theorem addNodeTo_spec (h : Tree inst bt b nodes) {depth pos : Int} (hd1 : 1 ≤ depth) :
    (depth > (nd nodes (nodes.length - 1)).d + 1
      ∧ addNodeTo ct o nodes depth pos = (nodes, some .logicError))
    ∨ (depth ≤ (nd nodes (nodes.length - 1)).d + 1 ∧
      ∃ id, lastAt nodes (depth - 1) = some id ∧ base bt b ≤ id ∧ id < nodes.length
        ∧ (nd nodes id).d = depth - 1
        ∧ ∃ nodes1, nodes1 = (climb ct depth nodes.length nodes (some (nodes.length - 1))).1
          ∧ (climb ct depth nodes.length nodes (some (nodes.length - 1))).2 = some id
          ∧ Tree inst bt b nodes1 ∧ Open nodes1 id ∧ Extends nodes nodes1
          ∧ nd nodes1 id = nd nodes id ∧ start ct o nodes1 id = start ct o nodes id
          ∧ addNodeTo ct o nodes depth pos
            = if (nd nodes id).f.isSome = true ∧ 0 ≤ (nd nodes id).itemTypeId then
                (nodes1, some .logicError)
              else
                let nodes2 := if (nd nodes id).f.isSome
                  then nodes1.modify id (fun p => { p with itemTypeId := -2 }) else nodes1
                if pos ≤ start ct o nodes id
                    ∨ pos > (region (nd nodes id)).high (vert o (nd nodes id).d) then
                  (nodes2, some .logicError)
                else (pushChild nodes2 id (childAt ct o nodes id depth pos), none)) := by
  have hb := h.base_lt
  have hlast : nodes.getLast? = some (nd nodes (nodes.length - 1)) := by
    rw [List.getLast?_eq_getElem?, List.getElem?_eq_getElem (by omega)]
    unfold nd
    rw [List.getD_eq_getElem?_getD, List.getElem?_eq_getElem (by omega)]
    rfl
  by_cases hd2 : depth > (nd nodes (nodes.length - 1)).d + 1
  · left
    refine ⟨hd2, ?_⟩
    unfold addNodeTo
    rw [hlast]
    dsimp only
    rw [if_pos hd2]
  · right
    refine ⟨by omega, ?_⟩
    obtain ⟨ht, id, c1, c2, c3, c4, c5, c6⟩ := Tree.climb (ct := ct) hd1 nodes.length nodes
      (nodes.length - 1) h (by omega) (by omega) (by omega) (open_last nodes) (by omega)
    have hext := climb_extends (ct := ct) depth nodes.length nodes (some (nodes.length - 1))
    generalize hcl : climb ct depth nodes.length nodes (some (nodes.length - 1)) = res at *
    obtain ⟨nodes1, r⟩ := res
    dsimp only at *
    subst c1
    have hnd : nd nodes1 id = nd nodes id := c6 id (le_refl _)
    have hopen : Open nodes id := by
      intro j j1 j2
      have := c4 j j1 (by have := hext.1; omega)
      rw [hnd, (hext.2 j j2).2.1] at this
      exact this
    have hd5 : (nd nodes id).d = depth - 1 := by rw [← hnd]; exact c5
    have hid : id < nodes.length := by omega
    -- the last child of the parent keeps its region
    have hkid : ∀ c, (nd nodes id).children.getLast? = some c → c < nodes.length := by
      intro c hc
      have := List.mem_of_getLast? hc
      rw [h.kids id c2 hid] at this
      exact List.mem_range.mp (List.mem_of_mem_filter this)
    have hstart : start ct o nodes1 id = start ct o nodes id := by
      unfold start
      rw [hnd]
      cases hc : (nd nodes id).children.getLast? with
      | none => rfl
      | some c =>
        dsimp only
        rw [(hext.2 c (hkid c hc)).2.2]
    refine ⟨id, lastAt_eq hid hopen hd5, c2, hid, hd5, nodes1, rfl, rfl, ht, c4, hext, hnd,
      hstart, ?_⟩
    unfold addNodeTo
    rw [hlast]
    dsimp only
    rw [if_neg hd2, hcl]
    dsimp only
    have hgd : nodes1.getD id default = nd nodes id := hnd
    rw [hgd]
    by_cases hi : (nd nodes id).f.isSome = true ∧ 0 ≤ (nd nodes id).itemTypeId
    · rw [if_pos hi, if_pos (by simp [hi.1, hi.2])]
    · rw [if_neg hi, if_neg (by
        intro hcon
        rw [Bool.and_eq_true, decide_eq_true_eq] at hcon
        exact hi hcon)]
      have halike : Alike nodes1 (if (nd nodes id).f.isSome
          then nodes1.modify id (fun p => { p with itemTypeId := -2 }) else nodes1) := by
        by_cases hf : (nd nodes id).f.isSome = true
        · rw [if_pos hf]; exact alike_modify id (-2)
        · rw [if_neg hf]; exact ⟨rfl, fun i => ⟨.refl _, rfl⟩⟩
      generalize hn2 : (if (nd nodes id).f.isSome
          then nodes1.modify id (fun p => { p with itemTypeId := -2 }) else nodes1) = nodes2 at *
      obtain ⟨⟨s1, s2, s3⟩, s4⟩ := halike.2 id
      rw [hnd] at s1 s2 s3 s4
      have hst2 : start ct o nodes2 id = start ct o nodes id := by
        rw [halike.start, hstart]
      rw [newChild_eq (by rw [s2]; exact hd5), s2, s3, hst2]
      have hb' : (nd nodes2 id).b = (nd nodes id).b := congrArg Region.b s3
      have ht' : (nd nodes2 id).t = (nd nodes id).t := congrArg Region.t s3
      have hl' : (nd nodes2 id).l = (nd nodes id).l := congrArg Region.l s3
      have hr' : (nd nodes2 id).r = (nd nodes id).r := congrArg Region.r s3
      rw [hb', ht', hl', hr']
      by_cases h1 : pos ≤ start ct o nodes id
      · rw [if_pos h1, if_pos (.inl h1)]
      · rw [if_neg h1]
        by_cases h2 : pos > (region (nd nodes id)).high (vert o (nd nodes id).d)
        · rw [if_pos h2, if_pos (.inr h2)]
        · have h3 : ¬ (pos ≤ start ct o nodes id
              ∨ pos > (region (nd nodes id)).high (vert o (nd nodes id).d)) := by
            rintro (hh | hh) <;> contradiction
          rw [if_neg h2, if_neg h3]
          rfl

/-! ### The invariant of a bin -/

/-- Invariant of a bin under construction. -/
structure BinInv (inst : Instance) (bin : SolutionBin) : Prop where
  type_lt : bin.binTypeId < inst.numberOfBinTypes
  tree : Tree inst (inst.binType bin.binTypeId) bin.binTypeId bin.nodes
  pattern : bin.firstCutOrientation ≠ .any → Sized (inst.binType bin.binTypeId) →
    0 ≤ inst.parameters.cutThickness → ∀ K, StagesOk K bin.nodes →
    Tip inst.parameters.cutThickness bin.firstCutOrientation K
      (base (inst.binType bin.binTypeId) bin.binTypeId) bin.nodes

theorem Tree.shape (h : Tree inst bt b nodes) (hs : Sized bt) : Shape (base bt b) nodes :=
  ⟨h.base_lt, by
    rw [h.root.2.2, (initialNodes_base hs b).1]; exact usable_nonempty hs, h.fathers⟩

theorem addNodeTo_inv (h : Tree inst bt b nodes) (hp : o ≠ .any → Sized bt → 0 ≤ ct →
      ∀ K, StagesOk K nodes → Tip ct o K (base bt b) nodes) {depth pos : Int} (hd1 : 1 ≤ depth) :
    Tree inst bt b (addNodeTo ct o nodes depth pos).1
    ∧ (o ≠ .any → Sized bt → 0 ≤ ct → ∀ K, StagesOk K (addNodeTo ct o nodes depth pos).1 →
        Tip ct o K (base bt b) (addNodeTo ct o nodes depth pos).1)
    ∧ (addNodeTo ct o nodes depth pos).2 ≠ some .ub := by
  rcases addNodeTo_spec (ct := ct) (o := o) (pos := pos) h hd1 with
    ⟨_, he⟩ | ⟨hd2, id, _, c2, hid, hd5, nodes1, n1, n2, ht, ho, hext, hnd, hst, he⟩
  · rw [he]; exact ⟨h, hp, by simp⟩
  · have hb := h.base_lt
    have hid1 : id < nodes1.length := lt_of_lt_of_le hid hext.1
    -- the state after climbing
    have hclimb : o ≠ .any → Sized bt → 0 ≤ ct → ∀ K, StagesOk K nodes1 →
        Tip ct o K (base bt b) nodes1 ∧ ∃ pre P, Ready ct o K (base bt b) nodes1 id pre P := by
      intro ho' hs' hct K hK
      have htip := hp ho' hs' hct K (stagesOk_mono h.fathers hext hK)
      obtain ⟨pre, hr⟩ := tip_ready htip
      have hspec := climb_spec (o := o) ho' hct hd1 nodes.length nodes (nodes.length - 1)
        (h.shape hs') (by omega) K (by rw [← n1]; exact hK) htip ⟨pre, [], hr⟩ (by omega)
      obtain ⟨_, t1, id', pre', P', r1, r2, r3⟩ := hspec
      rw [n2] at r1
      cases r1
      rw [← n1] at t1 r2
      exact ⟨t1, pre', P', r2⟩
    rw [he]
    by_cases hi : (nd nodes id).f.isSome = true ∧ 0 ≤ (nd nodes id).itemTypeId
    · rw [if_pos hi]
      exact ⟨ht, fun a b' c K hK => (hclimb a b' c K hK).1, by simp⟩
    · rw [if_neg hi]
      dsimp only
      have halike : Alike nodes1 (if (nd nodes id).f.isSome
          then nodes1.modify id (fun p => { p with itemTypeId := -2 }) else nodes1) := by
        by_cases hf : (nd nodes id).f.isSome = true
        · rw [if_pos hf]; exact alike_modify id (-2)
        · rw [if_neg hf]; exact ⟨rfl, fun i => ⟨.refl _, rfl⟩⟩
      have htree2 : Tree inst bt b (if (nd nodes id).f.isSome
          then nodes1.modify id (fun p => { p with itemTypeId := -2 }) else nodes1) := by
        by_cases hf : (nd nodes id).f.isSome = true
        · rw [if_pos hf]
          refine ht.setItem c2 ?_
          intro _ hh
          dsimp only at hh
          omega
        · rw [if_neg hf]; exact ht
      have hitem2 : (nd (if (nd nodes id).f.isSome
          then nodes1.modify id (fun p => { p with itemTypeId := -2 }) else nodes1) id).f.isSome →
          (nd (if (nd nodes id).f.isSome
          then nodes1.modify id (fun p => { p with itemTypeId := -2 }) else nodes1) id).itemTypeId
            < 0 := by
        by_cases hf : (nd nodes id).f.isSome = true
        · rw [if_pos hf, nd_modify, if_pos ⟨rfl, hid1⟩]
          intro _
          exact (by decide : (-2 : Int) < 0)
        · rw [if_neg hf, hnd]
          intro hh; exact absurd hh hf
      generalize hn2 : (if (nd nodes id).f.isSome
          then nodes1.modify id (fun p => { p with itemTypeId := -2 }) else nodes1) = nodes2 at *
      have hopen2 : Open nodes2 id := by
        intro j j1 j2
        rw [(halike.2 id).1.2.1, (halike.2 j).1.2.1]
        exact ho j j1 (by rw [← halike.1]; exact j2)
      have hready2 : o ≠ .any → Sized bt → 0 ≤ ct → ∀ K, StagesOk K nodes2 →
          Tip ct o K (base bt b) nodes2
          ∧ ∃ pre P, Ready ct o K (base bt b) nodes2 id pre P := by
        intro a b' c K hK
        obtain ⟨t, pre, P, r⟩ := hclimb a b' c K (halike.stagesOk hK)
        exact ⟨halike.tip t, pre, P, halike.ready r⟩
      by_cases hpos : pos ≤ start ct o nodes id
          ∨ pos > (region (nd nodes id)).high (vert o (nd nodes id).d)
      · rw [if_pos hpos]
        exact ⟨htree2, fun a b' c K hK => (hready2 a b' c K hK).1, by simp⟩
      · rw [if_neg hpos]
        push Not at hpos
        obtain ⟨w1, w2, w3, w4, w5⟩ := childAt_spec (ct := ct) (o := o) (nodes := nodes)
          (depth := depth) (pos := pos) (id := id)
        obtain ⟨⟨s1, s2, s3⟩, s4⟩ := halike.2 id
        rw [hnd] at s1 s2 s3 s4
        have hst2 : start ct o nodes2 id = start ct o nodes id := by rw [halike.start, hst]
        have hw2 : (childAt ct o nodes id depth pos).d = (nd nodes2 id).d + 1 := by
          rw [w2, s2]; omega
        refine ⟨htree2.push c2 (by rw [halike.1]; exact hid1) hopen2 hitem2 w1 hw2 w3 (by omega),
          ?_, by simp⟩
        intro a b' c K hK
        have hK2 : StagesOk K nodes2 := stagesOk_mono htree2.fathers extends_push hK
        obtain ⟨_, pre, P, r⟩ := hready2 a b' c K hK2
        refine (ready_push (e := pos) htree2.base_lt r hK w1 hw2 w3 ?_ ?_ ?_).tip
        · rw [w5, s2, s3, hst2]
        · rw [hst2]; exact hpos.1
        · rw [s2, s3]; exact hpos.2

theorem binInv_initial {binTypeId : Nat} {copies : Int} (hb : binTypeId < inst.numberOfBinTypes) :
    BinInv inst { binTypeId := binTypeId, copies := copies, firstCutOrientation := o, nodes :=
      initialNodes (inst.binType binTypeId) binTypeId } := by
  refine ⟨hb, tree_initial, ?_⟩
  intro _ _ _ K _
  dsimp only
  have hl := initialNodes_length (inst.binType binTypeId) binTypeId
  have hb : base (inst.binType binTypeId) binTypeId
      = (initialNodes (inst.binType binTypeId) binTypeId).length - 1 := rfl
  obtain ⟨root, tail, e, h1, h2, h3, h4⟩ := initialNodes_cons (inst.binType binTypeId) binTypeId
  have hc : (nd (initialNodes (inst.binType binTypeId) binTypeId)
      (base (inst.binType binTypeId) binTypeId)).children = [] := by
    have := nd_mem hl
    rw [e] at this
    rcases List.mem_cons.mp this with hh | hh
    · rw [← e] at hh; rw [hh, h2]
    · rw [← e] at hh; exact (h4 _ hh).2.1
  refine ⟨[], ?_, ?_, ?_⟩
  · rw [← hb]
    exact .root hl (base_depth _ _)
  · rw [← hb]; exact hc
  · rw [← hb]
    unfold leaves
    rw [List.drop_eq_getElem_cons hl]
    have hnil : (initialNodes (inst.binType binTypeId) binTypeId).drop
        (base (inst.binType binTypeId) binTypeId + 1) = [] := by
      apply List.drop_eq_nil_of_le
      unfold base; omega
    rw [hnil]
    have hnd : nd (initialNodes (inst.binType binTypeId) binTypeId)
        (base (inst.binType binTypeId) binTypeId)
        = (initialNodes (inst.binType binTypeId) binTypeId)[base (inst.binType binTypeId)
          binTypeId] := by
      unfold nd; rw [List.getD_eq_getElem?_getD, List.getElem?_eq_getElem hl]; rfl
    rw [← hnd]
    simp [leafOf, hc]

theorem setItem_inv {i : Nat} {bin : SolutionBin} {v : Int} (h : BinInv inst bin)
    (hb : base (inst.binType bin.binTypeId) bin.binTypeId ≤ i)
    (hv : ItemOk inst { nd bin.nodes i with itemTypeId := v }) :
    BinInv inst { bin with nodes := bin.nodes.modify i fun n => { n with itemTypeId := v } } := by
  refine ⟨h.type_lt, h.tree.setItem hb hv, ?_⟩
  intro a b' c K hK
  have hal := alike_modify (nodes := bin.nodes) i v
  exact hal.tip (h.pattern a b' c K (hal.stagesOk hK))

/-- A finished bin is cut along its leaves. -/
theorem finish_spec {bin : SolutionBin} (h : BinInv inst bin)
    (ho : bin.firstCutOrientation ≠ .any) (hs : Sized (inst.binType bin.binTypeId))
    (hct : 0 ≤ inst.parameters.cutThickness) {K : Nat}
    (hK : StagesOk K (finishNodes inst.parameters.cutThickness bin.nodes)) :
    Cuts inst.parameters.cutThickness K (vert bin.firstCutOrientation 0)
      (usable (inst.binType bin.binTypeId))
      (leaves (base (inst.binType bin.binTypeId) bin.binTypeId)
        (finishNodes inst.parameters.cutThickness bin.nodes)) := by
  have hb := h.tree.base_lt
  have htree := h.tree.finish (ct := inst.parameters.cutThickness)
  unfold finishNodes at hK htree ⊢
  rw [if_neg (by omega)] at hK htree ⊢
  have htip := h.pattern ho hs hct K
    (stagesOk_mono h.tree.fathers (closeUp_extends _ _ _) hK)
  obtain ⟨pre, hr⟩ := tip_ready htip
  obtain ⟨L, hp, hl, hc⟩ := closeUp_spec ho hct bin.nodes.length bin.nodes (bin.nodes.length - 1)
    (h.tree.shape hs) h.tree.top (by omega) K hK htip ⟨pre, [], hr⟩
  rw [List.nil_append] at hl
  rw [hl]
  have hd := htree.depth_base
  have hleft : left K (nd (closeUp inst.parameters.cutThickness bin.nodes.length bin.nodes
      (some (bin.nodes.length - 1))) (base (inst.binType bin.binTypeId) bin.binTypeId)) = K := by
    unfold left; rw [hd]; omega
  rw [hleft, hd, htree.root.2.2, (initialNodes_base hs bin.binTypeId).1] at hc
  exact hc

end

end PackingSolver.Guil
