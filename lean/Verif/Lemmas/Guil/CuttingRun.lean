import Verif.Lemmas.Guil.Cutting

/-!
# Lemmas: the nodes of a bin after calls that throw no exception
-/

namespace PackingSolver.Guil

open Spec

section
variable {inst : Instance} {bt : BinType} {b : Nat} {nodes nodes' : List Node} {ct D : Int}
  {o : CutOrientation}

/-- Depth of the last node. -/
def lastDepth (nodes : List Node) : Int := (nd nodes (nodes.length - 1)).d

theorem cutting_initial : Cutting ct o (base bt b) (initialNodes bt b) D := by
  have hl : (initialNodes bt b).length = base bt b + 1 := by
    have := initialNodes_length bt b
    unfold base at this ⊢
    omega
  refine ⟨fun i a h1 h2 => by omega, fun i h1 h2 => by omega, fun i h1 h2 _ => ?_⟩
  have hi : i = base bt b := by omega
  subst hi
  obtain ⟨root, tail, e, -, r2, -, r4⟩ := initialNodes_cons bt b
  have hc : (nd (initialNodes bt b) (base bt b)).children = [] := by
    have hm := nd_mem h2
    rw [e] at hm ⊢
    rcases List.mem_cons.mp hm with hm | hm
    · rw [hm]; exact r2
    · exact (r4 _ hm).2.1
  intro c hcc
  rw [hc] at hcc
  cases hcc

theorem Cutting.alike (h : Cutting ct o (base bt b) nodes D) (hal : Alike nodes nodes')
    (hmark : ∀ i, base bt b < i → i < nodes.length → nd nodes' i = nd nodes i
      ∨ ((nd nodes i).children = [] ∧ 0 ≤ (nd nodes' i).itemTypeId)) :
    Cutting ct o (base bt b) nodes' D := by
  obtain ⟨hl, hs⟩ := hal
  refine ⟨?_, ?_, ?_⟩
  · intro i a h1 h2 h3
    rw [hl] at h2
    rw [(hs i).1.1] at h3
    rw [(hs a).1.2.1]
    have hc := h.child i a h1 h2 h3
    have e1 := (hs i).1.2.2
    have e2 := (hs a).1.2.2
    have hst : startAt ct (vert o (nd nodes a).d) nodes' a i
        = startAt ct (vert o (nd nodes a).d) nodes a i := by
      unfold startAt
      rw [kidsUpTo_congr fun j _ => (hs j).1.1]
      cases (kidsUpTo nodes a i).getLast? with
      | none => dsimp only; rw [e2]
      | some c => dsimp only; rw [(hs c).1.2.2]
    refine ⟨?_, ?_, ?_, ?_, ?_⟩
    · rw [e1, hst]; exact hc.low
    · rw [e1]; exact hc.lt
    · rw [e1, e2]; exact hc.high
    · rw [e1, e2]; exact hc.low'
    · rw [e1, e2]; exact hc.high'
  · intro i h1 h2
    rw [hl] at h2
    rw [(hs i).2]
    rcases hmark i h1 h2 with hm | ⟨hm, hm'⟩
    · rw [hm]; exact h.mark i h1 h2
    · exact ⟨fun hc => absurd hm hc, fun _ => .inr hm'⟩
  · intro i h1 h2 h3
    rw [hl] at h2
    have hopen : Open nodes' i ↔ Open nodes i := by
      unfold Open
      rw [hl, (hs i).1.2.1]
      exact forall_congr' fun j => by rw [(hs j).1.2.1]
    rw [hopen, (hs i).1.2.1] at h3
    intro c hc
    rw [(hs i).2] at hc
    have := h.shut i h1 h2 h3 c hc
    have e1 := (hs i).1.2.2
    have e2 := (hs c).1.2.2
    rw [show (nd nodes' i).r = (nd nodes i).r from congrArg Region.r e1,
      show (nd nodes' i).t = (nd nodes i).t from congrArg Region.t e1,
      show (nd nodes' c).r = (nd nodes c).r from congrArg Region.r e2,
      show (nd nodes' c).t = (nd nodes c).t from congrArg Region.t e2]
    exact this

theorem Cutting.addNode {depth pos : Int} (hct : 0 ≤ ct) (ht : Tree inst bt b nodes)
    (h : Cutting ct o (base bt b) nodes (lastDepth nodes)) (hd : 1 ≤ depth)
    (he : addNodeTo ct o nodes depth pos = (nodes', none)) :
    Cutting ct o (base bt b) nodes' (lastDepth nodes') := by
  have hbl := ht.base_lt
  rcases addNodeTo_spec (ct := ct) (o := o) (pos := pos) ht hd with
    ⟨-, hx⟩ | ⟨hd2, id, e1, c2, hid, hd5, nodes1, n1, n2, ht1, hop, hext, hnd, hst, hx⟩
  · rw [hx] at he; cases he
  · have hC := Cutting.climb (o := o) hct hd nodes.length nodes (nodes.length - 1) _ ht h (le_refl _)
      (by omega) (by omega) (by omega) (open_last nodes) (by omega)
    rw [← n1] at hC
    rw [hx] at he
    by_cases hi : (nd nodes id).f.isSome = true ∧ 0 ≤ (nd nodes id).itemTypeId
    · rw [if_pos hi] at he; cases he
    · rw [if_neg hi] at he
      dsimp only at he
      by_cases hp : pos ≤ start ct o nodes id
          ∨ pos > (region (nd nodes id)).high (vert o (nd nodes id).d)
      · rw [if_pos hp] at he; cases he
      · rw [if_neg hp] at he
        push Not at hp
        have he' := (Prod.mk.inj he).1
        subst he'
        obtain ⟨k1, k2, k3, k4, k5⟩ := childAt_spec (ct := ct) (o := o) (nodes := nodes)
          (depth := depth) (pos := pos) (id := id)
        have hid1 : id < nodes1.length := lt_of_lt_of_le hid hext.1
        have hlast : lastDepth (pushChild (if (nd nodes id).f.isSome
            then nodes1.modify id (fun p => { p with itemTypeId := -2 }) else nodes1) id
            (childAt ct o nodes id depth pos)) = depth := by
          unfold lastDepth
          rw [length_push, Nat.add_sub_cancel, nd_push_new, k2]
        rw [hlast]
        have hpush := hC.push (nodes2 := if (nd nodes id).f.isSome
            then nodes1.modify id (fun p => { p with itemTypeId := -2 }) else nodes1)
          (w := childAt ct o nodes id depth pos) (e := pos) ht1 c2 hid1 hop (by rw [hnd]; omega)
          ?_ ?_ ?_ k1 (by rw [k2, hnd]; omega) k3 k4 (by rw [hnd, hst]; exact k5)
          (by rw [hst]; exact hp.1) (by rw [hnd]; exact hp.2)
        · exact hpush.mono (by rw [hnd]; omega)
        · split
          · exact alike_modify id (-2)
          · exact ⟨rfl, fun _ => ⟨Same.refl _, rfl⟩⟩
        · intro i hi
          split
          · rw [nd_modify, if_neg (fun hh => hi hh.1)]
          · rfl
        · intro hb
          obtain ⟨a, a1, -⟩ := ht.later id hb hid
          rw [if_pos (by rw [a1]; rfl), nd_modify, if_pos ⟨rfl, hid1⟩]

theorem Tree.leaf_last (ht : Tree inst bt b nodes) :
    (nd nodes (nodes.length - 1)).children = [] := by
  have := ht.base_lt
  rw [ht.kids _ (by omega) (by omega), List.filter_eq_nil_iff]
  intro j hj hcon
  have hj := List.mem_range.mp hj
  have := ht.fathers j hj _ (eq_of_beq hcon)
  omega

theorem Cutting.setItem {i : Nat} (ht : Tree inst bt b nodes)
    (h : Cutting ct o (base bt b) nodes (lastDepth nodes)) :
    Cutting ct o (base bt b) (nodes.modify (nodes.length - 1) fun n =>
        { n with itemTypeId := (i : Int) })
      (lastDepth (nodes.modify (nodes.length - 1) fun n => { n with itemTypeId := (i : Int) })) := by
  have hbl := ht.base_lt
  have hal := alike_modify (nodes := nodes) (nodes.length - 1) (i : Int)
  have hlast : lastDepth (nodes.modify (nodes.length - 1) fun n => { n with itemTypeId := (i : Int) })
      = lastDepth nodes := by
    unfold lastDepth
    rw [List.length_modify]
    exact (hal.2 _).1.2.1
  rw [hlast]
  refine h.alike hal fun j h1 h2 => ?_
  rw [nd_modify]
  by_cases hj : j = nodes.length - 1 ∧ nodes.length - 1 < nodes.length
  · rw [if_pos hj]
    right
    refine ⟨by rw [hj.1]; exact ht.leaf_last, ?_⟩
    dsimp only
    omega
  · rw [if_neg hj]; exact .inl rfl

/-- The nodes of every bin of the builder are cut from one another. -/
def CutInv (inst : Instance) (sb : SolutionBuilder) : Prop :=
  ∀ bin ∈ sb.sol.bins, Cutting inst.parameters.cutThickness bin.firstCutOrientation
    (base (inst.binType bin.binTypeId) bin.binTypeId) bin.nodes (lastDepth bin.nodes)

theorem cutInv_setNodes {sb : SolutionBuilder} {bin : SolutionBin} (h : CutInv inst sb)
    (hl : sb.sol.bins.getLast? = some bin)
    (hn : Cutting inst.parameters.cutThickness bin.firstCutOrientation
      (base (inst.binType bin.binTypeId) bin.binTypeId) nodes (lastDepth nodes)) :
    CutInv inst (sb.setNodes nodes) := by
  obtain ⟨ini, hsplit⟩ := List.getLast?_eq_some_iff.mp hl
  rw [setNodes_bins hsplit]
  intro b' hb'
  rcases List.mem_append.mp hb' with hm | hm
  · exact h b' (by rw [hsplit]; exact List.mem_append_left _ hm)
  · rw [List.mem_singleton.mp hm]; exact hn

/-- A call without exception keeps the nodes cut from one another. -/
theorem cutInv_step {sb sb' : SolutionBuilder} (hct : 0 ≤ inst.parameters.cutThickness)
    (hr : RunInv inst sb) (h : CutInv inst sb) {op : Op} (he : sb.step inst op = (sb', none)) :
    CutInv inst sb' := by
  cases op with
  | addBin b c o =>
    unfold SolutionBuilder.step SolutionBuilder.addBin at he
    dsimp only at he
    by_cases hb : b ≥ inst.numberOfBinTypes
    · rw [if_pos hb] at he; cases he
    · rw [if_neg hb] at he
      have he' := (Prod.mk.inj he).1
      subst he'
      intro bin hbin
      dsimp only at hbin
      rcases List.mem_append.mp hbin with hm | hm
      · exact h bin hm
      · rw [List.mem_singleton.mp hm]; exact cutting_initial
  | addNode d p =>
    unfold SolutionBuilder.step SolutionBuilder.addNode at he
    dsimp only at he
    cases hl : sb.sol.bins.getLast? with
    | none => rw [hl] at he; cases he
    | some bin =>
      rw [hl] at he
      dsimp only at he
      by_cases hd : d < 1
      · rw [if_pos hd] at he; cases he
      · rw [if_neg hd] at he
        obtain ⟨he1, he2⟩ := Prod.mk.inj he
        subst he1
        have hm := List.mem_of_getLast? hl
        exact cutInv_setNodes h hl ((h bin hm).addNode hct (hr.bins bin hm).1.tree
          (by omega : 1 ≤ d) (pos := p) (Prod.ext rfl he2))
  | setItem i =>
    unfold SolutionBuilder.step SolutionBuilder.setLastNodeItem at he
    dsimp only at he
    cases hl : sb.sol.bins.getLast? with
    | none => rw [hl] at he; cases he
    | some bin =>
      rw [hl] at he
      dsimp only at he
      by_cases hi : i ≥ inst.numberOfItemTypes
      · rw [if_pos hi] at he; cases he
      · rw [if_neg hi] at he
        have hm := List.mem_of_getLast? hl
        have htree := (hr.bins bin hm).1.tree
        have hlt := htree.base_lt
        have hne : bin.nodes ≠ [] := by intro hh; rw [hh] at hlt; simp at hlt
        rw [getLast_nd hne] at he
        dsimp only at he
        by_cases hdim : (!dimensionsOk (inst.itemType i) (nd bin.nodes (bin.nodes.length - 1)))
            = true
        · rw [if_pos hdim] at he; cases he
        · rw [if_neg hdim, set_last_eq_modify] at he
          have he1 := (Prod.mk.inj he).1
          subst he1
          exact cutInv_setNodes h hl ((h bin hm).setItem htree)

theorem runOrThrow_inv (hct : 0 ≤ inst.parameters.cutThickness) {ops : List Op} :
    ∀ {sb sb' : SolutionBuilder}, RunInv inst sb → CutInv inst sb →
    sb.runOrThrow inst ops = .ok sb' → RunInv inst sb' ∧ CutInv inst sb' := by
  induction ops with
  | nil =>
    intro sb sb' h1 h2 he
    unfold SolutionBuilder.runOrThrow at he
    rw [← Except.ok.inj he]
    exact ⟨h1, h2⟩
  | cons op ops ih =>
    intro sb sb' h1 h2 he
    unfold SolutionBuilder.runOrThrow at he
    rcases hs : sb.step inst op with ⟨sb1, _ | e⟩
    · rw [hs] at he
      have hr := (runInv_step h1 op).1
      rw [hs] at hr
      exact ih hr (cutInv_step hct h1 h2 hs) he
    · rw [hs] at he; cases he

/-- The nodes of a finished bin are all finished. -/
theorem Cutting.finish (hct : 0 ≤ ct) (ht : Tree inst bt b nodes)
    (h : Cutting ct o (base bt b) nodes (lastDepth nodes)) :
    Cutting ct o (base bt b) (finishNodes ct nodes) (-1) := by
  have hbl := ht.base_lt
  unfold finishNodes
  rw [if_neg (by omega)]
  exact Cutting.closeUp hct nodes.length nodes (nodes.length - 1) _ ht h (le_refl _) (by omega)
    (by omega) (by omega) (open_last nodes)

end

end PackingSolver.Guil
