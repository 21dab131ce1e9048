import Verif.Lemmas.Guil.SortReplay
import Verif.Lemmas.Guil.Minimize
import Verif.Lemmas.Guil.Unflip
import Verif.Spec.GuillotineComposed

/-!
# Lemmas: the bins of composed solutions are cut as their nodes say
-/

namespace PackingSolver.Guil.SortSubplates

open Guil.Spec
open PostProcess

/-- A bin cut as its nodes say. -/
structure CutBin (inst : Instance) (bin : SolutionBin) : Prop where
  type_lt : bin.binTypeId < inst.numberOfBinTypes
  tree : Tree inst (inst.binType bin.binTypeId) bin.binTypeId bin.nodes
  child : ∀ i a, base (inst.binType bin.binTypeId) bin.binTypeId < i → i < bin.nodes.length →
    (nd bin.nodes i).f = some a →
    ChildOk inst.parameters.cutThickness (vert bin.firstCutOrientation (nd bin.nodes a).d) bin.nodes i a
  cut : ∀ i, base (inst.binType bin.binTypeId) bin.binTypeId < i → i < bin.nodes.length →
    (nd bin.nodes i).children ≠ [] → (nd bin.nodes i).itemTypeId = -2
  leaf : ∀ i, base (inst.binType bin.binTypeId) bin.binTypeId < i → i < bin.nodes.length →
    (nd bin.nodes i).children = [] → (nd bin.nodes i).itemTypeId = -1
      ∨ (nd bin.nodes i).itemTypeId = -3 ∨ 0 ≤ (nd bin.nodes i).itemTypeId

section
variable {inst : Instance} {bin bin' : SolutionBin}

/-- Waste may become a residual, and the other way round. -/
theorem CutBin.alike (h : CutBin inst bin) (ht : bin'.binTypeId = bin.binTypeId)
    (ho : bin'.firstCutOrientation = bin.firstCutOrientation) (ha : Alike bin.nodes bin'.nodes)
    (hf : ∀ i < base (inst.binType bin.binTypeId) bin.binTypeId, nd bin'.nodes i = nd bin.nodes i)
    (hi : ∀ i, (nd bin.nodes i).f.isSome = true →
      (nd bin'.nodes i).itemTypeId = (nd bin.nodes i).itemTypeId
      ∨ (((nd bin.nodes i).itemTypeId = -1 ∨ (nd bin.nodes i).itemTypeId = -3)
        ∧ ((nd bin'.nodes i).itemTypeId = -1 ∨ (nd bin'.nodes i).itemTypeId = -3))) :
    CutBin inst bin' := by
  obtain ⟨hl, hs⟩ := ha
  have hsome : ∀ i, base (inst.binType bin.binTypeId) bin.binTypeId < i → i < bin.nodes.length →
      (nd bin.nodes i).f.isSome = true := by
    intro i h1 h2
    obtain ⟨a, e, -⟩ := h.tree.later i h1 h2
    rw [e]; rfl
  have htree : Tree inst (inst.binType bin.binTypeId) bin.binTypeId bin'.nodes := by
    refine h.tree.alike ⟨hl, hs⟩ ?_ hf
    intro i hi'
    rw [hl] at hi'
    intro h1 h2
    rw [(hs i).1.1] at h1
    have hok := h.tree.items i hi'
    rcases hi i h1 with e | ⟨-, e⟩
    · rw [e] at h2
      obtain ⟨k1, k, k2, k3, k4⟩ := hok h1 h2
      refine ⟨by rw [(hs i).2]; exact k1, k, k2, by rw [e]; exact k3, ?_⟩
      have er := (hs i).1.2.2
      injection er with e1 e2 e3 e4
      unfold dimensionsOk at k4 ⊢
      rw [e1, e2, e3, e4]
      exact k4
    · omega
  refine ⟨by rw [ht]; exact h.type_lt, by rw [ht]; exact htree, ?_, ?_, ?_⟩
  · rw [ht, ho, hl]
    intro i a h1 h2 h3
    rw [(hs i).1.1] at h3
    rw [(hs a).1.2.1]
    exact (h.child i a h1 h2 h3).same (h.tree.fathers i h2 a h3) (fun j _ => (hs j).1)
  · rw [ht, hl]
    intro i h1 h2 h3
    rw [(hs i).2] at h3
    have h4 := h.cut i h1 h2 h3
    rcases hi i (hsome i h1 h2) with e | ⟨e, -⟩ <;> omega
  · rw [ht, hl]
    intro i h1 h2 h3
    rw [(hs i).2] at h3
    have h4 := h.leaf i h1 h2 h3
    rcases hi i (hsome i h1 h2) with e | ⟨-, e⟩
    · rw [e]; exact h4
    · omega

/-- The residual of a bin becomes waste or the other way round. -/
theorem CutBin.mark (h : CutBin inst bin) {v : Int} (hv : v = -1 ∨ v = -3)
    (hw : (nd bin.nodes (bin.nodes.length - 1)).itemTypeId = -1
      ∨ (nd bin.nodes (bin.nodes.length - 1)).itemTypeId = -3) :
    CutBin inst { bin with
      nodes := bin.nodes.modify (bin.nodes.length - 1) fun n => { n with itemTypeId := v } } := by
  have hbl := h.tree.base_lt
  refine h.alike (bin' := { bin with nodes := bin.nodes.modify (bin.nodes.length - 1) fun n => { n with itemTypeId := v } })
    rfl rfl (alike_modify _ _) ?_ ?_
  · intro i hi
    dsimp only
    rw [nd_modify, if_neg (by omega)]
  · intro i _
    dsimp only
    rw [nd_modify]
    by_cases hc : i = bin.nodes.length - 1 ∧ bin.nodes.length - 1 < bin.nodes.length
    · rw [if_pos hc]
      right
      rw [hc.1]
      exact ⟨hw, hv⟩
    · rw [if_neg hc]
      left; rfl

theorem cutBin_frame (h : CutBin inst bin) (h1 : bin'.binTypeId = bin.binTypeId)
    (h2 : bin'.firstCutOrientation = bin.firstCutOrientation) (h3 : bin'.nodes = bin.nodes) :
    CutBin inst bin' := by
  refine ⟨?_, ?_, ?_, ?_, ?_⟩
  · rw [h1]; exact h.type_lt
  · rw [h1, h3]; exact h.tree
  · rw [h1, h2, h3]; exact h.child
  · rw [h1, h3]; exact h.cut
  · rw [h1, h3]; exact h.leaf

/-- Solutions whose bins are cut as their nodes say. -/
def CutSolution (inst : Instance) (s : Solution) : Prop := ∀ bin ∈ s.bins, CutBin inst bin

theorem cutSolution_built (hct : 0 ≤ inst.parameters.cutThickness) {ops : List Op}
    {sb : SolutionBuilder} {s : Solution}
    (hrun : (SolutionBuilder.new inst).runOrThrow inst ops = .ok sb) (hb : sb.build inst = .ok s) :
    CutSolution inst s := by
  obtain ⟨hI, hC⟩ := runOrThrow_inv hct runInv_new (by intro bin hb; cases hb) hrun
  have hst := build_staged hb
  have hfin : ∀ bin ∈ finishBins inst.parameters.cutThickness sb.sol.bins, CutBin inst bin := by
    have hmap : ∀ bin ∈ sb.sol.bins.map (fun bin => { bin with
        nodes := finishNodes inst.parameters.cutThickness bin.nodes }), CutBin inst bin := by
      intro bin hbin
      obtain ⟨b0, hb0, rfl⟩ := List.mem_map.mp hbin
      have hd := doneBin_finish (hI.bins b0 hb0).1
      have hcc := Cutting.finish hct (hI.bins b0 hb0).1.tree (hC b0 hb0)
      refine ⟨hd.type_lt, hd.tree, hcc.child, fun i h1 h2 => (hcc.mark i h1 h2).1, ?_⟩
      intro i h1 h2 h3
      rcases (hcc.mark i h1 h2).2 h3 with e | e
      · exact .inl e
      · exact .inr (.inr e)
    intro bin hbin
    unfold finishBins at hbin
    dsimp only at hbin
    obtain ⟨j, hj, rfl⟩ := List.getElem_of_mem hbin
    rw [List.length_modify] at hj
    rw [List.getElem_modify]
    have hm := hmap _ (List.getElem_mem hj)
    split_ifs with hlast
    · generalize (List.map _ sb.sol.bins)[j] = bin0 at hm
      have hne : bin0.nodes ≠ [] := by
        intro h0
        have := hm.tree.base_lt
        rw [h0] at this
        simp at this
      have hcase : setResidual bin0.nodes = bin0.nodes
          ∨ ((nd bin0.nodes (bin0.nodes.length - 1)).itemTypeId = -1 ∧ setResidual bin0.nodes
            = bin0.nodes.modify (bin0.nodes.length - 1) fun n => { n with itemTypeId := -3 }) := by
        unfold setResidual
        rw [getLast_nd hne]
        dsimp only
        split_ifs with hc
        · rw [set_last_eq_modify]
          exact .inr ⟨hc.1, rfl⟩
        · exact .inl rfl
      rcases hcase with e | ⟨e1, e2⟩
      · rw [e]; exact hm
      · rw [e2]
        exact hm.mark (.inr rfl) (.inl e1)
    · exact hm
  intro bin hbin
  obtain ⟨i, hi, rfl⟩ := List.getElem_of_mem hbin
  have hi' : i < (finishBins inst.parameters.cutThickness sb.sol.bins).length := by
    rw [hst.length_eq]; exact hi
  have := hst.get hi' hi
  obtain ⟨e1, -, e3, e4, -⟩ := staged_frame this
  exact cutBin_frame (hfin _ (List.getElem_mem hi')) e1 e3 e4

theorem cutSolution_clear {s : Solution} (h : CutSolution inst s) :
    CutSolution inst s.clearResidual := by
  unfold Solution.clearResidual
  cases hl : s.bins.getLast? with
  | none => exact h
  | some bin =>
    dsimp only
    have hm := h bin (List.mem_of_getLast? hl)
    by_cases hne : bin.nodes = []
    · rw [hne]; exact h
    · rw [getLast_nd hne]
      dsimp only
      split_ifs with hc
      · rw [set_last_eq_modify]
        intro bin' hbin'
        rcases List.mem_or_eq_of_mem_set hbin' with hb | rfl
        · exact h bin' hb
        · exact hm.mark (.inl rfl) (.inr hc)
      · exact h

theorem cutSolution_append {s other s' : Solution} {pos : Nat} {copies : Int}
    (h1 : CutSolution inst s) (h2 : CutSolution inst other)
    (h : s.appendBin inst other pos copies [] [] = .ok s') : CutSolution inst s' := by
  obtain ⟨old, b, nodes, ho, hb, hlt, hn, hu⟩ := appendBin_ok h
  obtain rfl : old.binTypeId = b := by
    unfold relabel at hb
    exact Option.some.inj hb
  have hold := h2 old (List.mem_of_getElem? ho)
  have hreg := relabelled_region hold.tree hn
  have hlen := hreg.length_eq
  have hnew : CutBin inst { binTypeId := old.binTypeId, copies := copies, firstCutOrientation := old.firstCutOrientation, nodes := nodes } := by
    refine hold.alike (bin' := { binTypeId := old.binTypeId, copies := copies, firstCutOrientation := old.firstCutOrientation, nodes := nodes })
      rfl rfl ⟨hlen.symm, ?_⟩ ?_ ?_
    · intro i
      dsimp only
      by_cases hi : i < old.nodes.length
      · have := hreg.get hi (by omega)
        unfold nd
        rw [List.getD_eq_getElem _ _ hi, List.getD_eq_getElem _ _ (by omega)]
        exact ⟨⟨this.1, this.2.1, this.2.2.2.1⟩, this.2.2.1⟩
      · unfold nd
        rw [List.getD_eq_default _ _ (by omega), List.getD_eq_default _ _ (by omega)]
        exact ⟨.refl _, rfl⟩
    · intro i hi
      dsimp only
      have hbl := hold.tree.base_lt
      have hi1 : i < old.nodes.length := by omega
      have hi2 : i < nodes.length := by omega
      have hr := hreg.get hi1 hi2
      have hrel := hn.get hi1 hi2
      have e1 : nd old.nodes i = old.nodes[i] := by unfold nd; rw [List.getD_eq_getElem _ _ hi1]
      have e2 : nd nodes i = nodes[i] := by unfold nd; rw [List.getD_eq_getElem _ _ hi2]
      simp only [List.get_eq_getElem] at hr hrel
      rw [e1, e2]
      by_cases hf : old.nodes[i].f = none
      · have hfr := hold.tree.frame i hi
        rw [e1] at hfr
        obtain ⟨root, tail, e, -, -, -, r4⟩ := initialNodes_cons (inst.binType old.binTypeId)
          old.binTypeId
        have hlen' := initialNodes_length (inst.binType old.binTypeId) old.binTypeId
        have hroot : root = { f := none, d := 0, l := 0, r := (inst.binType old.binTypeId).w, b := 0, t := (inst.binType old.binTypeId).h, itemTypeId := old.binTypeId } := by
          unfold initialNodes at e
          dsimp only at e
          split_ifs at e
          · injection e with e _
            exact e.symm
          · injection e with e _
            exact e.symm
        have hi0 : i = 0 := by
          by_contra hne
          obtain ⟨j, rfl⟩ : ∃ j, i = j + 1 := ⟨i - 1, by omega⟩
          rw [e] at hfr
          have h5 : nd (root :: tail) (j + 1) = nd tail j := by
            unfold nd; rw [List.getD_cons_succ]
          rw [e, List.length_cons] at hlen'
          rw [h5] at hfr
          have := (r4 _ (nd_mem (nodes := tail) (i := j) (by omega))).1
          rw [← hfr, hf] at this
          cases this
        have hre : old.nodes[i] = root := by
          rw [hfr, hi0, e]
          rfl
        rw [hre, hroot] at hrel ⊢
        unfold relabelNode at hrel
        dsimp only at hrel
        split_ifs at hrel
        · exact (Option.some.inj hrel).symm
        · exact (Option.some.inj hrel).symm
        · exact absurd rfl ‹_›
        · exact absurd rfl ‹_›
      · exact hr.2.2.2.2.1 hf
    · intro i hf
      dsimp only
      left
      by_cases hi : i < old.nodes.length
      · have hr := hreg.get hi (by omega)
        unfold nd at hf ⊢
        rw [List.getD_eq_getElem _ _ hi] at hf ⊢
        rw [List.getD_eq_getElem _ _ (by omega)]
        simp only [List.get_eq_getElem] at hr
        rw [hr.2.2.2.2.1 (by intro h0; rw [h0] at hf; cases hf)]
      · unfold nd
        rw [List.getD_eq_default _ _ (by omega), List.getD_eq_default _ _ (by omega)]
  obtain ⟨-, b', hst, hbins⟩ := updateIndicators_bins hu
  intro bin hbin
  rw [hbins] at hbin
  have hc := cutSolution_clear h1
  rcases List.mem_or_eq_of_mem_set hbin with hm | rfl
  · rcases List.mem_append.mp hm with hm | hm
    · exact hc bin hm
    · rw [List.mem_singleton] at hm
      rw [hm]; exact hnew
  · rw [List.getD_eq_getElem?_getD, List.getElem?_append_right (le_refl _), Nat.sub_self] at hst
    obtain ⟨e1, -, e3, e4, -⟩ := staged_frame hst
    exact cutBin_frame hnew e1 e3 e4

theorem composed_cut (hct : 0 ≤ inst.parameters.cutThickness) {s : Solution}
    (h : Composed inst s) : CutSolution inst s := by
  induction h with
  | empty => intro bin hb; cases hb
  | built h1 h2 => exact cutSolution_built hct h1 h2
  | append _ _ h3 ih1 ih2 => exact cutSolution_append ih1 ih2 h3

end

end PackingSolver.Guil.SortSubplates
