import Verif.Lemmas.Guil.Builder
import Verif.Lemmas.Except
import Mathlib.Data.List.Induction

/-!
# Lemmas: histories of calls of the builder of guillotine solutions
-/

namespace PackingSolver.Guil

open Spec

section
variable {inst : Instance}

/-- The staging attributes of a bin have not been computed yet. -/
def FreshBin (bin : SolutionBin) : Prop :=
  bin.numberOfStages = 0 ∧ bin.numberOfStagesReal = 0 ∧ bin.cutTypeIsNonExact = false
    ∧ bin.cutTypeIsRoadef2018 = false ∧ bin.resourceConsumption = []

/-- State of the builder after any calls. -/
structure RunInv (inst : Instance) (sb : SolutionBuilder) : Prop where
  rest : sb.sol = { Solution.init inst with bins := sb.sol.bins }
  bins : ∀ bin ∈ sb.sol.bins, BinInv inst bin ∧ FreshBin bin

theorem runInv_new : RunInv inst (SolutionBuilder.new inst) :=
  ⟨rfl, by intro bin hb; cases hb⟩

theorem modify_last_bin (f : SolutionBin → SolutionBin) (l : List SolutionBin) (a : SolutionBin) :
    (l ++ [a]).modify ((l ++ [a]).length - 1) f = l ++ [f a] := by
  have hlen : (l ++ [a]).length - 1 = l.length := by simp
  rw [hlen]
  clear hlen
  induction l with
  | nil => rfl
  | cons b l ih => rw [List.cons_append, List.length_cons, List.modify_succ_cons, ih]; rfl

theorem runInv_setNodes {sb : SolutionBuilder} {bin : SolutionBin} {nodes : List Node}
    (h : RunInv inst sb) (hl : sb.sol.bins.getLast? = some bin)
    (hn : BinInv inst { bin with nodes := nodes }) : RunInv inst (sb.setNodes nodes) := by
  obtain ⟨ini, hsplit⟩ := List.getLast?_eq_some_iff.mp hl
  have hb : (sb.setNodes nodes).sol.bins = ini ++ [{ bin with nodes := nodes }] := by
    unfold SolutionBuilder.setNodes
    dsimp only
    rw [hsplit, modify_last_bin]
  refine ⟨?_, ?_⟩
  · have : (sb.setNodes nodes).sol = { sb.sol with bins := (sb.setNodes nodes).sol.bins } := rfl
    rw [this, h.rest]
  · intro b' hb'
    rw [hb] at hb'
    rcases List.mem_append.mp hb' with hm | hm
    · exact h.bins b' (by rw [hsplit]; exact List.mem_append_left _ hm)
    · rw [List.mem_singleton.mp hm]
      have hf := (h.bins bin (List.mem_of_getLast? hl)).2
      exact ⟨hn, hf⟩

theorem getLast_nd {nodes : List Node} (h : nodes ≠ []) :
    nodes.getLast? = some (nd nodes (nodes.length - 1)) := by
  have hl : 0 < nodes.length := List.length_pos_iff.mpr h
  rw [List.getLast?_eq_getElem?, List.getElem?_eq_getElem (by omega)]
  unfold nd
  rw [List.getD_eq_getElem?_getD, List.getElem?_eq_getElem (by omega)]
  rfl

theorem set_last_eq_modify (nodes : List Node) (v : Int) :
    nodes.set (nodes.length - 1) { nd nodes (nodes.length - 1) with itemTypeId := v }
      = nodes.modify (nodes.length - 1) fun n => { n with itemTypeId := v } := by
  by_cases h : nodes = []
  · subst h; rfl
  · have hl : 0 < nodes.length := List.length_pos_iff.mpr h
    apply List.ext_getElem?
    intro i
    rw [List.getElem?_set, List.getElem?_modify]
    by_cases hi : nodes.length - 1 = i
    · subst hi
      rw [if_pos rfl, if_pos (by omega), List.getElem?_eq_getElem (by omega)]
      unfold nd
      rw [List.getD_eq_getElem?_getD, List.getElem?_eq_getElem (by omega)]
      simp
    · rw [if_neg hi]
      simp [hi]

/-- Every call keeps the invariant and is defined. -/
theorem runInv_step {sb : SolutionBuilder} (h : RunInv inst sb) (op : Op) :
    RunInv inst (sb.step inst op).1 ∧ (sb.step inst op).2 ≠ some .ub := by
  cases op with
  | addBin b c o =>
    unfold SolutionBuilder.step SolutionBuilder.addBin
    dsimp only
    by_cases hb : b ≥ inst.numberOfBinTypes
    · rw [if_pos hb]; exact ⟨h, by simp⟩
    · rw [if_neg hb]
      refine ⟨⟨?_, ?_⟩, by simp⟩
      · dsimp only
        rw [h.rest]
      · intro bin hbin
        dsimp only at hbin
        rcases List.mem_append.mp hbin with hm | hm
        · exact h.bins bin hm
        · rw [List.mem_singleton.mp hm]
          exact ⟨binInv_initial (by omega), rfl, rfl, rfl, rfl, rfl⟩
  | addNode d p =>
    unfold SolutionBuilder.step SolutionBuilder.addNode
    dsimp only
    cases hl : sb.sol.bins.getLast? with
    | none => exact ⟨h, by simp⟩
    | some bin =>
      dsimp only
      by_cases hd : d < 1
      · rw [if_pos hd]; exact ⟨h, by simp⟩
      · rw [if_neg hd]
        have hbi := (h.bins bin (List.mem_of_getLast? hl)).1
        obtain ⟨a1, a2, a3⟩ := addNodeTo_inv (inst := inst)
          (ct := inst.parameters.cutThickness) (o := bin.firstCutOrientation) (pos := p)
          hbi.tree hbi.pattern (by omega : 1 ≤ d)
        exact ⟨runInv_setNodes h hl ⟨hbi.type_lt, a1, a2⟩, a3⟩
  | setItem i =>
    unfold SolutionBuilder.step SolutionBuilder.setLastNodeItem
    dsimp only
    cases hl : sb.sol.bins.getLast? with
    | none => exact ⟨h, by simp⟩
    | some bin =>
      dsimp only
      by_cases hi : i ≥ inst.numberOfItemTypes
      · rw [if_pos hi]; exact ⟨h, by simp⟩
      · rw [if_neg hi]
        have hbi := (h.bins bin (List.mem_of_getLast? hl)).1
        have hlt := hbi.tree.base_lt
        have hne : bin.nodes ≠ [] := by intro hh; rw [hh] at hlt; simp at hlt
        rw [getLast_nd hne]
        dsimp only
        by_cases hdim : (!dimensionsOk (inst.itemType i) (nd bin.nodes (bin.nodes.length - 1)))
            = true
        · rw [if_pos hdim]; exact ⟨h, by simp⟩
        · rw [if_neg hdim, set_last_eq_modify]
          refine ⟨runInv_setNodes h hl ?_, by simp⟩
          refine setItem_inv hbi (by omega) ?_
          intro _ _
          refine ⟨?_, i, by omega, rfl, ?_⟩
          · dsimp only
            rw [hbi.tree.kids _ (by omega) (by omega), List.filter_eq_nil_iff]
            intro j hj hcon
            have hj := List.mem_range.mp hj
            have := hbi.tree.fathers j hj _ (eq_of_beq hcon)
            omega
          · have hdim' : dimensionsOk (inst.itemType i) (nd bin.nodes (bin.nodes.length - 1))
                = true := by
              revert hdim
              cases dimensionsOk (inst.itemType i) (nd bin.nodes (bin.nodes.length - 1)) <;> simp
            exact hdim'

theorem runInv_run (ops : List Op) : RunInv inst (SolutionBuilder.run inst ops) := by
  unfold SolutionBuilder.run
  induction ops using List.reverseRecOn with
  | nil => exact runInv_new
  | append_singleton ops op ih =>
    rw [List.foldl_append]
    exact (runInv_step ih op).1

/-! ### `build` -/

/-- A finished bin. -/
structure DoneBin (inst : Instance) (bin : SolutionBin) : Prop where
  type_lt : bin.binTypeId < inst.numberOfBinTypes
  tree : Tree inst (inst.binType bin.binTypeId) bin.binTypeId bin.nodes
  cuts : bin.firstCutOrientation ≠ .any → Sized (inst.binType bin.binTypeId) →
    0 ≤ inst.parameters.cutThickness → ∀ K, StagesOk K bin.nodes →
    Cuts inst.parameters.cutThickness K (vert bin.firstCutOrientation 0)
      (usable (inst.binType bin.binTypeId))
      (leaves (base (inst.binType bin.binTypeId) bin.binTypeId) bin.nodes)

theorem doneBin_finish {bin : SolutionBin} (h : BinInv inst bin) :
    DoneBin inst { bin with nodes := finishNodes inst.parameters.cutThickness bin.nodes } :=
  ⟨h.type_lt, h.tree.finish, fun ho hs hct _ hK => finish_spec h ho hs hct hK⟩

theorem setResidual_cases (nodes : List Node) :
    setResidual nodes = nodes ∨ setResidual nodes
      = nodes.modify (nodes.length - 1) fun n => { n with itemTypeId := -3 } := by
  unfold setResidual
  by_cases h : nodes = []
  · subst h; exact .inl rfl
  · rw [getLast_nd h]
    dsimp only
    by_cases hc : (nd nodes (nodes.length - 1)).itemTypeId = -1
        ∧ (nd nodes (nodes.length - 1)).d = 1
    · rw [if_pos hc, set_last_eq_modify]; exact .inr rfl
    · rw [if_neg hc]; exact .inl rfl

theorem doneBin_residual {bin : SolutionBin} (h : DoneBin inst bin) :
    DoneBin inst { bin with nodes := setResidual bin.nodes } := by
  have hlt := h.tree.base_lt
  rcases setResidual_cases bin.nodes with he | he
  · rw [he]; exact h
  · rw [he]
    have hal := alike_modify (nodes := bin.nodes) (bin.nodes.length - 1) (-3)
    refine ⟨h.type_lt, h.tree.setItem (by omega) ?_, ?_⟩
    · intro _ hh
      dsimp only at hh
      omega
    · intro ho hs hct K hK
      dsimp only
      rw [hal.leaves]
      exact h.cuts ho hs hct K (hal.stagesOk hK)

theorem mem_modify {l : List SolutionBin} {i : Nat} {f : SolutionBin → SolutionBin}
    {x : SolutionBin} (h : x ∈ l.modify i f) : x ∈ l ∨ ∃ y ∈ l, x = f y := by
  obtain ⟨j, hj, he⟩ := List.getElem_of_mem h
  rw [List.length_modify] at hj
  rw [List.getElem_modify] at he
  by_cases hij : i = j
  · rw [if_pos hij] at he
    exact .inr ⟨_, List.getElem_mem hj, he.symm⟩
  · rw [if_neg hij] at he
    exact .inl (he ▸ List.getElem_mem hj)

theorem finishBins_done {sb : SolutionBuilder} (h : RunInv inst sb) :
    ∀ bin ∈ finishBins inst.parameters.cutThickness sb.sol.bins,
      DoneBin inst bin ∧ FreshBin bin := by
  intro bin hb
  unfold finishBins at hb
  dsimp only at hb
  have hmap : ∀ b ∈ sb.sol.bins.map (fun bin => { bin with
      nodes := finishNodes inst.parameters.cutThickness bin.nodes }),
      DoneBin inst b ∧ FreshBin b := by
    intro b hb
    obtain ⟨b', hb', rfl⟩ := List.mem_map.mp hb
    exact ⟨doneBin_finish (h.bins b' hb').1, (h.bins b' hb').2⟩
  rcases mem_modify hb with hm | ⟨y, hy, rfl⟩
  · exact hmap bin hm
  · exact ⟨doneBin_residual (hmap y hy).1, (hmap y hy).2⟩

/-- What `update_indicators` makes of a bin. -/
def Staged (inst : Instance) (b b' : SolutionBin) : Prop :=
  ∃ c, b' = stageBin inst { b with resourceConsumption := c }

theorem updateIndicators_ok {s s' : Solution} {k : Nat}
    (h : s.updateIndicators inst k = .ok s') :
    s.inRange inst k = true ∧ (s.updateNodes inst k).minimumWasteLengthFeasible = true
      ∧ s' = (s.updateNodes inst k).updateFlags inst s.waste := by
  unfold Solution.updateIndicators at h
  by_cases hr : s.inRange inst k = true
  · rw [if_pos hr] at h
    dsimp only at h
    by_cases hw : (!(s.updateNodes inst k).minimumWasteLengthFeasible) = true
    · rw [if_pos hw] at h; cases h
    · rw [if_neg hw] at h
      refine ⟨hr, ?_, (Except.ok.inj h).symm⟩
      revert hw
      cases (s.updateNodes inst k).minimumWasteLengthFeasible <;> simp
  · rw [if_neg hr] at h; cases h

theorem updateIndicators_bins {s s' : Solution} {k : Nat}
    (h : s.updateIndicators inst k = .ok s') :
    k < s.bins.length ∧ ∃ b', Staged inst (s.bins.getD k default) b' ∧ s'.bins = s.bins.set k b' := by
  obtain ⟨hr, _, rfl⟩ := updateIndicators_ok h
  unfold Solution.inRange at hr
  dsimp only at hr
  simp only [Bool.and_eq_true, decide_eq_true_eq] at hr
  exact ⟨hr.1.1.1, _, ⟨_, rfl⟩, rfl⟩

/-- `build` as a sequence of `update_indicators`. -/
theorem build_steps {s s' : Solution} {n : Nat}
    (h : (List.range n).foldlM (fun s pos => Solution.updateIndicators inst s pos) s = .ok s') :
    s'.bins.length = s.bins.length ∧ n ≤ s.bins.length
    ∧ (∀ i < n, Staged inst (s.bins.getD i default) (s'.bins.getD i default))
    ∧ ∀ i, n ≤ i → s'.bins.getD i default = s.bins.getD i default := by
  induction n generalizing s' with
  | zero =>
    have : s' = s := by
      simp only [List.range_zero, List.foldlM_nil] at h
      exact (Except.ok.inj h).symm
    subst this
    exact ⟨rfl, by omega, by intro i hi; omega, fun _ _ => rfl⟩
  | succ n ih =>
    rw [List.range_succ, List.foldlM_append] at h
    obtain ⟨s1, h1, h2⟩ := bind_ok.mp h
    obtain ⟨i1, i2, i3, i4⟩ := ih h1
    rw [List.foldlM_cons] at h2
    obtain ⟨s2, h3, h4⟩ := bind_ok.mp h2
    rw [List.foldlM_nil] at h4
    have : s' = s2 := (Except.ok.inj h4).symm
    subst this
    obtain ⟨u1, b', u2, u3⟩ := updateIndicators_bins h3
    rw [i4 n (le_refl _)] at u2
    have hget : ∀ i, s'.bins.getD i default
        = if i = n then b' else s1.bins.getD i default := by
      intro i
      rw [u3, List.getD_eq_getElem?_getD, List.getElem?_set, List.getD_eq_getElem?_getD]
      by_cases hi : n = i
      · subst hi; simp [u1]
      · have : ¬ i = n := fun hh => hi hh.symm
        simp [hi, this]
    refine ⟨by rw [u3, List.length_set, i1], by omega, ?_, ?_⟩
    · intro i hi
      rw [hget i]
      by_cases hin : i = n
      · rw [if_pos hin, hin]; exact u2
      · rw [if_neg hin]; exact i3 i (by omega)
    · intro i hi
      rw [hget i, if_neg (by omega)]
      exact i4 i (by omega)

theorem build_bins {sb : SolutionBuilder} {s : Solution} (h : sb.build inst = .ok s) :
    s.bins.length = sb.sol.bins.length
    ∧ ∀ i < s.bins.length, Staged inst
      ((finishBins inst.parameters.cutThickness sb.sol.bins).getD i default)
      (s.bins.getD i default) := by
  unfold SolutionBuilder.build at h
  dsimp only at h
  have hlen : (finishBins inst.parameters.cutThickness sb.sol.bins).length
      = sb.sol.bins.length := by
    unfold finishBins
    dsimp only
    rw [List.length_modify, List.length_map]
  obtain ⟨h1, h2, h3, h4⟩ := build_steps h
  dsimp only at h1 h3
  exact ⟨by rw [h1, hlen], fun i hi => h3 i (by omega)⟩

/-- A bin of a built solution. -/
theorem built_bin {ops : List Op} {s : Solution}
    (h : (SolutionBuilder.run inst ops).build inst = .ok s) {bin : SolutionBin}
    (hb : bin ∈ s.bins) : ∃ b, DoneBin inst b ∧ FreshBin b ∧ Staged inst b bin := by
  obtain ⟨h1, h2⟩ := build_bins h
  obtain ⟨i, hi, he⟩ := List.getElem_of_mem hb
  have hst := h2 i hi
  have hbin : s.bins.getD i default = bin := by
    rw [List.getD_eq_getElem?_getD, List.getElem?_eq_getElem hi, he]; rfl
  rw [hbin] at hst
  have hlen : (finishBins inst.parameters.cutThickness (SolutionBuilder.run inst ops).sol.bins).length
      = (SolutionBuilder.run inst ops).sol.bins.length := by
    unfold finishBins
    dsimp only
    rw [List.length_modify, List.length_map]
  have hmem : (finishBins inst.parameters.cutThickness
      (SolutionBuilder.run inst ops).sol.bins).getD i default
      ∈ finishBins inst.parameters.cutThickness (SolutionBuilder.run inst ops).sol.bins := by
    rw [List.getD_eq_getElem?_getD, List.getElem?_eq_getElem (by omega)]
    exact List.getElem_mem _
  obtain ⟨d1, d2⟩ := finishBins_done (runInv_run (inst := inst) ops) _ hmem
  exact ⟨_, d1, d2, hst⟩

theorem staged_frame {b b' : SolutionBin} (h : Staged inst b b') :
    b'.binTypeId = b.binTypeId ∧ b'.copies = b.copies
    ∧ b'.firstCutOrientation = b.firstCutOrientation ∧ b'.nodes = b.nodes
    ∧ b'.numberOfStagesReal = stagesReal b.nodes b.numberOfStagesReal := by
  obtain ⟨c, rfl⟩ := h
  exact ⟨rfl, rfl, rfl, rfl, rfl⟩

/-! ### Stages -/

theorem stagesReal_ge (all : List Node) : ∀ (l : List Node) (m : Int),
    m ≤ l.foldl (fun m n => if sameAsParent all n then m else max m n.d) m
    ∧ ∀ n ∈ l, sameAsParent all n = true
      ∨ n.d ≤ l.foldl (fun m n => if sameAsParent all n then m else max m n.d) m := by
  intro l
  induction l with
  | nil => intro m; exact ⟨le_refl _, by simp⟩
  | cons a l ih =>
    intro m
    rw [List.foldl_cons]
    by_cases h : sameAsParent all a = true
    · rw [if_pos h]
      obtain ⟨h1, h2⟩ := ih m
      refine ⟨h1, ?_⟩
      intro n hn
      rcases List.mem_cons.mp hn with rfl | hn
      · exact .inl h
      · exact h2 n hn
    · rw [if_neg h]
      obtain ⟨h1, h2⟩ := ih (max m a.d)
      refine ⟨le_trans (le_max_left _ _) h1, ?_⟩
      intro n hn
      rcases List.mem_cons.mp hn with rfl | hn
      · exact .inr (le_trans (le_max_right _ _) h1)
      · exact h2 n hn

theorem sameAsParent_iff {nodes : List Node} {n : Node} :
    sameAsParent nodes n = true ↔ ∃ f, n.f = some f ∧ region n = region (nd nodes f) := by
  unfold sameAsParent
  cases hf : n.f with
  | none => simp
  | some f =>
    dsimp only
    simp only [Bool.and_eq_true, decide_eq_true_eq, Option.some.injEq, exists_eq_left']
    unfold region nd
    constructor
    · rintro ⟨⟨⟨h1, h2⟩, h3⟩, h4⟩
      rw [h1, h2, h3, h4]
    · intro h
      injection h with h1 h2 h3 h4
      exact ⟨⟨⟨h1, h2⟩, h3⟩, h4⟩

theorem stagesOk_real (nodes : List Node) : StagesOk (stagesReal nodes 0).toNat nodes := by
  intro i hi
  obtain ⟨h1, h2⟩ := stagesReal_ge nodes nodes 0
  rcases h2 _ (nd_mem hi) with h | h
  · right
    exact sameAsParent_iff.mp h
  · left
    unfold stagesReal
    omega

/-! ### Items are leaves -/

theorem items_sublist {l : List Node}
    (h : ∀ n ∈ l, (n.f.isSome && decide (0 ≤ n.itemTypeId)) = true → n.children = []) :
    List.Sublist ((l.filter fun n => n.f.isSome && decide (0 ≤ n.itemTypeId)).map region)
      (l.flatMap leafOf) := by
  induction l with
  | nil => exact .slnil
  | cons a l ih =>
    have ih := ih fun n hn => h n (List.mem_cons_of_mem _ hn)
    rw [List.flatMap_cons]
    by_cases ha : (a.f.isSome && decide (0 ≤ a.itemTypeId)) = true
    · rw [List.filter_cons, if_pos ha, List.map_cons]
      have hc := h a (List.mem_cons_self ..) ha
      have : leafOf a = [region a] := by unfold leafOf; rw [if_pos hc]
      rw [this]
      exact ih.cons_cons _
    · rw [List.filter_cons, if_neg ha]
      exact ih.trans (List.sublist_append_right _ _)

theorem Tree.items_leaves {bt : BinType} {b : Nat} {nodes : List Node}
    (h : Tree inst bt b nodes) :
    List.Sublist ((nodes.filter fun n => n.f.isSome && decide (0 ≤ n.itemTypeId)).map region)
      (leaves (base bt b) nodes) := by
  have hmemnd : ∀ n ∈ nodes, ∃ i < nodes.length, nd nodes i = n := by
    intro n hn
    obtain ⟨i, hi, he⟩ := List.getElem_of_mem hn
    refine ⟨i, hi, ?_⟩
    unfold nd
    rw [List.getD_eq_getElem?_getD, List.getElem?_eq_getElem hi, he]; rfl
  have hpre : (nodes.take (base bt b)).filter
      (fun n => n.f.isSome && decide (0 ≤ n.itemTypeId)) = [] := by
    rw [List.filter_eq_nil_iff]
    intro n hn hcon
    obtain ⟨i, hi, he⟩ := List.getElem_of_mem hn
    rw [List.length_take] at hi
    rw [List.getElem_take] at he
    have hnd : nd nodes i = n := by
      unfold nd
      rw [List.getD_eq_getElem?_getD, List.getElem?_eq_getElem (by omega), he]; rfl
    have hfr := h.frame i (by omega)
    rw [hnd] at hfr
    obtain ⟨root, tail, e, h1, h2, h3, h4⟩ := initialNodes_cons bt b
    have hl := initialNodes_length bt b
    have hm := nd_mem (nodes := initialNodes bt b) (i := i) (by omega)
    rw [← hfr, e] at hm
    rw [Bool.and_eq_true, decide_eq_true_eq] at hcon
    rcases List.mem_cons.mp hm with hh | hh
    · rw [hh, h1] at hcon; simp at hcon
    · have := (h4 _ hh).2.2; omega
  conv_lhs => rw [← List.take_append_drop (base bt b) nodes]
  rw [List.filter_append, hpre, List.nil_append]
  apply items_sublist
  intro n hn hc
  obtain ⟨i, hi, he⟩ := hmemnd n (List.mem_of_mem_drop hn)
  rw [Bool.and_eq_true, decide_eq_true_eq] at hc
  have := h.items i hi
  rw [he] at this
  exact (this hc.1 hc.2).1

end

end PackingSolver.Guil
