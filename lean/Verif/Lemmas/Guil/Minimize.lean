import Verif.Lemmas.Guil.PostDepth
import Verif.Lemmas.Guil.Append
import Verif.Props.Guil.Append

/-!
# Lemmas: appending bins with their types unchanged
-/

namespace PackingSolver.Guil.PostProcess

open Guil.Spec
open PackingSolver.Spec (IsSortOf)

/-- What is kept of a bin. -/
def digest (b : SolutionBin) : Nat × Int × List (Nat × Region) × CutOrientation × Int :=
  (b.binTypeId, b.copies, places b.nodes, b.firstCutOrientation, b.numberOfStagesReal)

theorem relabelNode_same {bt : BinType} {b : Nat} {n m : Node}
    (h : relabelNode bt b [] n = some m) :
    m.f = n.f ∧ m.d = n.d ∧ m.children = n.children ∧ m.l = n.l ∧ m.b = n.b
      ∧ (n.f ≠ none → m = n) ∧ (n.f = none → m = n ∨ (m.r = bt.w ∧ m.t = bt.h)) := by
  unfold relabelNode at h
  by_cases h1 : n.t = -4
  · rw [if_pos h1] at h; cases h; simp
  · rw [if_neg h1] at h
    by_cases h2 : n.f = none
    · rw [if_pos h2] at h; cases h; simp [h2]
    · rw [if_neg h2] at h
      by_cases h3 : n.itemTypeId ≥ 0
      · rw [if_pos h3] at h
        have : m = n := by
          have h4 : ({ n with itemTypeId := (n.itemTypeId.toNat : Int) } : Node) = m :=
            Option.some.inj h
          rw [← h4, Int.toNat_of_nonneg h3]
        subst this
        simp
      · rw [if_neg h3] at h; cases h; simp

theorem relabelNode_returns (bt : BinType) (b : Nat) (n : Node) :
    ∃ m, relabelNode bt b [] n = some m := by
  unfold relabelNode
  split_ifs
  · exact ⟨_, rfl⟩
  · exact ⟨_, rfl⟩
  · exact ⟨_, rfl⟩
  · exact ⟨_, rfl⟩

theorem mapM_returns {α β : Type} {f : α → Option β} (hf : ∀ a, ∃ b, f a = some b) :
    ∀ l : List α, ∃ l', l.mapM f = some l' := by
  intro l
  induction l with
  | nil => exact ⟨[], by rw [List.mapM_nil]; rfl⟩
  | cons a l ih =>
    obtain ⟨b, hb⟩ := hf a
    obtain ⟨l', hl⟩ := ih
    exact ⟨b :: l', by rw [List.mapM_cons, hb, hl]; rfl⟩

theorem places_relabelled {bt : BinType} {b : Nat} {l l' : List Node}
    (h : List.Forall₂ (fun n m => relabelNode bt b [] n = some m) l l') : places l' = places l := by
  induction h with
  | nil => rfl
  | @cons n m l l' h1 _ ih =>
    obtain ⟨k1, -, -, -, -, k2, -⟩ := relabelNode_same h1
    unfold places at ih ⊢
    by_cases hf : n.f = none
    · rw [List.filter_cons_of_neg (by rw [k1, hf]; simp), List.filter_cons_of_neg (by rw [hf]; simp)]
      exact ih
    · rw [k2 hf]
      rw [List.filter_cons, List.filter_cons]
      split_ifs
      · rw [List.map_cons, List.map_cons, ih]
      · exact ih

theorem clearResidual_digest (s : Solution) :
    s.clearResidual.bins.map digest = s.bins.map digest
      ∧ s.clearResidual.minimumWasteLengthFeasible = s.minimumWasteLengthFeasible := by
  unfold Solution.clearResidual
  rcases List.eq_nil_or_concat s.bins with hb | ⟨front, b, hb⟩
  · rw [hb]; exact ⟨by dsimp only [List.getLast?_nil]; rw [hb], rfl⟩
  · rw [List.concat_eq_append] at hb
    rw [hb, List.getLast?_concat]
    dsimp only
    rcases List.eq_nil_or_concat b.nodes with hn | ⟨l, n, hn⟩
    · rw [hn]; exact ⟨by dsimp only [List.getLast?_nil]; rw [hb], rfl⟩
    · rw [List.concat_eq_append] at hn
      rw [hn, List.getLast?_concat]
      dsimp only
      by_cases h3 : n.itemTypeId = -3
      · rw [if_pos h3]
        refine ⟨?_, rfl⟩
        have hp : places (l ++ [{ n with itemTypeId := -1 }]) = places (l ++ [n]) := by
          unfold places
          rw [List.filter_append, List.filter_append]
          congr 2
          rw [List.filter_cons_of_neg (by simp), List.filter_cons_of_neg (by simp [h3])]
        simp only [List.length_append, List.length_singleton, Nat.add_sub_cancel,
          List.set_append_right _ _ (le_refl _), Nat.sub_self, List.set_cons_zero, List.map_append,
          List.map_singleton]
        congr 2
        unfold digest
        dsimp only
        rw [hp, hn]
      · rw [if_neg h3]; exact ⟨by rw [hb], rfl⟩

section
variable {inst : Instance}

/-- Whatever is appended, the bins already there are kept, up to the residual of the last. -/
theorem appendBin_digest {s other s' : Solution} {pos : Nat} {copies : Int}
    (h : s.appendBin inst other pos copies [] [] = .ok s') :
    ∃ old nodes, other.bins[pos]? = some old ∧ old.binTypeId < inst.numberOfBinTypes
      ∧ List.Forall₂ (fun n m => relabelNode (inst.binType old.binTypeId) old.binTypeId [] n = some m)
        old.nodes nodes
      ∧ s'.bins.map digest = s.bins.map digest ++ [(old.binTypeId, copies, places old.nodes,
        old.firstCutOrientation, stagesReal nodes 0)] := by
  obtain ⟨old, b, nodes, ho, hb, hlt, hn, hu⟩ := appendBin_ok h
  have hbe : old.binTypeId = b := by
    unfold relabel at hb
    exact Option.some.inj hb
  subst hbe
  refine ⟨old, nodes, ho, hlt, hn, ?_⟩
  rw [← (clearResidual_digest s).1]
  obtain ⟨-, b', ⟨c, hb'⟩, hbins⟩ := updateIndicators_bins hu
  rw [hbins, hb']
  rw [← places_relabelled hn]
  generalize s.clearResidual = t
  rw [List.set_append_right _ _ (le_refl _), Nat.sub_self, List.set_cons_zero, List.map_append,
    List.map_singleton]
  congr 2
  rw [List.getD_eq_getElem?_getD, List.getElem?_append_right (le_refl _), Nat.sub_self]
  rfl

/-- The root of a bin. -/
theorem tree_root {bt : BinType} {b : Nat} {nodes : List Node} (h : Tree inst bt b nodes) {n : Node}
    (hn : n ∈ nodes) (hf : n.f = none) : n.r = bt.w ∧ n.t = bt.h ∧ n.d < 1 := by
  obtain ⟨j, hj, rfl⟩ := mem_nd hn
  obtain ⟨root, tail, e, r1, -, r3, r4⟩ := initialNodes_cons bt b
  have hroot : root.r = bt.w ∧ root.t = bt.h := by
    unfold initialNodes at e
    dsimp only at e
    split_ifs at e <;> (cases e; exact ⟨rfl, rfl⟩)
  have hlen := initialNodes_length bt b
  have hinit : ∀ i, i ≤ base bt b → (nd (initialNodes bt b) i).f = none →
      nd (initialNodes bt b) i = root := by
    intro i hi hfi
    rw [e] at hlen hfi ⊢
    cases i with
    | zero => rfl
    | succ i =>
      exfalso
      have hm : nd (root :: tail) (i + 1) ∈ tail := by
        have : nd (root :: tail) (i + 1) = nd tail i := by
          unfold nd; rw [List.getD_cons_succ]
        rw [this]
        exact nd_mem (by simp at hlen; omega)
      rw [(r4 _ hm).1] at hfi
      cases hfi
  rcases Nat.lt_trichotomy j (base bt b) with hlt | rfl | hgt
  · have := h.frame j hlt
    rw [this] at hf ⊢
    rw [hinit j (by omega) hf]
    exact ⟨hroot.1, hroot.2, by omega⟩
  · obtain ⟨s1, s2, s3⟩ := h.root
    rw [s1] at hf
    rw [hinit _ (le_refl _) hf] at s2 s3
    injection s3 with t1 t2 t3 t4
    exact ⟨by rw [t2]; exact hroot.1, by rw [t4]; exact hroot.2, by omega⟩
  · obtain ⟨a, ha, -⟩ := h.later j hgt hj
    rw [hf] at ha
    cases ha

theorem relabelled_region {b : Nat} {nodes nodes' : List Node}
    (h : Tree inst (inst.binType b) b nodes)
    (hn : List.Forall₂ (fun n m => relabelNode (inst.binType b) b [] n = some m) nodes nodes') :
    List.Forall₂ (fun n m => m.f = n.f ∧ m.d = n.d ∧ m.children = n.children ∧ region m = region n
      ∧ (n.f ≠ none → m = n) ∧ (n.f = none → n.d < 1)) nodes nodes' := by
  have key : ∀ (l l' : List Node), (∀ n ∈ l, n ∈ nodes) →
      List.Forall₂ (fun n m => relabelNode (inst.binType b) b [] n = some m) l l' →
      List.Forall₂ (fun n m => m.f = n.f ∧ m.d = n.d ∧ m.children = n.children ∧ region m = region n
        ∧ (n.f ≠ none → m = n) ∧ (n.f = none → n.d < 1)) l l' := by
    intro l l' hl hr
    induction hr with
    | nil => exact .nil
    | @cons n m l l' h1 _ ih =>
      obtain ⟨k1, k2, k3, k4, k5, k6, k7⟩ := relabelNode_same h1
      refine .cons ⟨k1, k2, k3, ?_, k6, fun hf => (tree_root h (hl n (by simp)) hf).2.2⟩
        (ih fun x hx => hl x (by simp [hx]))
      by_cases hf : n.f = none
      · obtain ⟨t1, t2, -⟩ := tree_root h (hl n (by simp)) hf
        rcases k7 hf with k7 | ⟨k7, k8⟩
        · rw [k7]
        · unfold region
          rw [k4, k5, k7, k8, t1, t2]
      · rw [k6 hf]
  exact key _ _ (fun _ h => h) hn

theorem stagesReal_congr {nodes nodes' : List Node}
    (h : List.Forall₂ (fun n m => m.f = n.f ∧ m.d = n.d ∧ region m = region n) nodes nodes')
    (start : Int) : stagesReal nodes' start = stagesReal nodes start := by
  have hget : ∀ i, region (nodes'.getD i default) = region (nodes.getD i default) := by
    intro i
    by_cases hi : i < nodes.length
    · have hi' : i < nodes'.length := by rw [← h.length_eq]; exact hi
      rw [List.getD_eq_getElem _ _ hi, List.getD_eq_getElem _ _ hi']
      exact (h.get hi hi').2.2
    · have hl := h.length_eq
      rw [List.getD_eq_default _ _ (by omega), List.getD_eq_default _ _ (by omega)]
  have hsame : ∀ n m : Node, m.f = n.f → region m = region n →
      sameAsParent nodes' m = sameAsParent nodes n := by
    intro n m h1 h2
    unfold sameAsParent
    rw [h1]
    cases n.f with
    | none => rfl
    | some f =>
      dsimp only
      have h3 := hget f
      injection h2 with a1 a2 a3 a4
      injection h3 with b1 b2 b3 b4
      rw [a1, a2, a3, a4, b1, b2, b3, b4]
  have key : ∀ (l l' : List Node) (m : Int),
      List.Forall₂ (fun n m => m.f = n.f ∧ m.d = n.d ∧ region m = region n) l l' →
      l'.foldl (fun m n => if sameAsParent nodes' n then m else max m n.d) m
        = l.foldl (fun m n => if sameAsParent nodes n then m else max m n.d) m := by
    intro l l' m hl
    induction hl generalizing m with
    | nil => rfl
    | @cons a b l l' h1 _ ih =>
      rw [List.foldl_cons, List.foldl_cons, hsame a b h1.1 h1.2.2, h1.2.1, ih]
  exact key _ _ _ h

/-- The stages of a bin of a built solution. -/
theorem built_real {ops : List Op} {other : Solution}
    (h : (SolutionBuilder.run inst ops).build inst = .ok other) {old : SolutionBin}
    (ho : old ∈ other.bins) : DoneBin inst { old with resourceConsumption := [] } ∧
      old.numberOfStagesReal = stagesReal old.nodes 0 := by
  obtain ⟨b0, d, f, st⟩ := built_bin h ho
  obtain ⟨e1, e2, e3, e4, e5⟩ := staged_frame st
  refine ⟨⟨by rw [e1]; exact d.type_lt, ?_, ?_⟩, by rw [e5, e4, f.2.1]⟩
  · dsimp only
    rw [e1, e4]; exact d.tree
  · dsimp only
    rw [e1, e3, e4]; exact d.cuts

/-- A bin of a built solution can be appended if pieces of waste may be one unit wide. -/
theorem appendBin_returns {s other : Solution} {pos : Nat} {copies : Int} {ops : List Op}
    (ht : TablesOk inst) (hs : ∀ bt ∈ inst.binTypes, Sized bt)
    (hw : inst.parameters.minimumWasteLength ≤ 1)
    (hb : (SolutionBuilder.run inst ops).build inst = .ok other) {old : SolutionBin}
    (ho : other.bins[pos]? = some old) (hws : s.minimumWasteLengthFeasible = true) :
    ∃ s', s.appendBin inst other pos copies [] [] = .ok s'
      ∧ s'.minimumWasteLengthFeasible = true
      ∧ s'.bins.map digest = s.bins.map digest ++ [(old.binTypeId, copies, places old.nodes,
        old.firstCutOrientation, old.numberOfStagesReal)] := by
  have hmem := List.mem_of_getElem? ho
  obtain ⟨hdone, hreal⟩ := built_real hb hmem
  obtain ⟨nodes, hn⟩ := mapM_returns (relabelNode_returns (inst.binType old.binTypeId) old.binTypeId)
    old.nodes
  have hn2 := mapM_forall₂ hn
  have hreg := relabelled_region hdone.tree hn2
  dsimp only at hreg
  have hlt : old.binTypeId < inst.numberOfBinTypes := hdone.type_lt
  obtain ⟨nb, hnb⟩ : ∃ nb : SolutionBin, nb = { binTypeId := old.binTypeId, copies := copies, firstCutOrientation := old.firstCutOrientation, nodes := nodes } := ⟨_, rfl⟩
  have happ : s.appendBin inst other pos copies [] []
      = ({ s.clearResidual with bins := s.clearResidual.bins ++ [nb] } : Solution).updateIndicators
        inst s.clearResidual.bins.length := by
    unfold Solution.appendBin
    dsimp only
    rw [ho]
    dsimp only
    rw [show relabel [] old.binTypeId = some old.binTypeId from rfl]
    dsimp only
    rw [if_neg (by omega), hn, hnb]
  have hwc := (clearResidual_digest s).2
  rw [hws] at hwc
  generalize hu : ({ s.clearResidual with bins := s.clearResidual.bins ++ [nb] } : Solution) = u at happ
  have hgu : u.bins.getD s.clearResidual.bins.length default = nb := by
    rw [← hu]; simp
  have hlu : s.clearResidual.bins.length < u.bins.length := by
    rw [← hu]; simp
  have hwu : u.minimumWasteLengthFeasible = true := by rw [← hu]; exact hwc
  have hrange : u.inRange inst s.clearResidual.bins.length = true := by
    have h0 := inRange_of (s := { u with bins := [{ old with resourceConsumption := [] }] }) (k := 0)
      ht (by simp) hdone
    unfold Solution.inRange at h0 ⊢
    dsimp only at h0 ⊢
    rw [hgu, hnb]
    simp only [List.getD_cons_zero, Bool.and_eq_true, decide_eq_true_eq, List.all_eq_true] at h0 ⊢
    obtain ⟨⟨⟨-, a1⟩, a2⟩, a3⟩ := h0
    refine ⟨⟨⟨hlu, a1⟩, a2⟩, fun m hm => ?_⟩
    obtain ⟨j, hj, rfl⟩ := List.getElem_of_mem hm
    have hj' : j < old.nodes.length := by rw [hreg.length_eq]; exact hj
    obtain ⟨k1, k2, k3, -, k5, k6⟩ := hreg.get hj' hj
    have a4 := a3 _ (List.getElem_mem hj')
    simp only [List.get_eq_getElem] at k1 k2 k3 k5 k6
    by_cases hf : old.nodes[j].f = none
    · refine ⟨⟨by rw [k1, hf], by rw [k3, ← hreg.length_eq]; exact a4.1.2⟩, ?_⟩
      have := k6 hf
      rw [Bool.or_eq_true, Bool.or_eq_true]
      exact .inl (.inr (by rw [k1, hf, k2]; simp [this]))
    · rw [k5 hf, ← hreg.length_eq]
      exact a4
  have hwaste : WasteOk inst (plateOf nb) := by
    intro m hm hd _
    rw [hnb] at hm
    obtain ⟨j, hj, rfl⟩ := List.getElem_of_mem hm
    have hj' : j < old.nodes.length := by rw [hreg.length_eq]; exact hj
    obtain ⟨k1, k2, -, k4, -⟩ := hreg.get hj' hj
    simp only [List.get_eq_getElem] at k1 k2 k4
    have hd' : 1 ≤ old.nodes[j].d := by rw [← k2]; exact hd
    have hp := pieces_positive hb hs (plateOf old) (List.mem_map_of_mem hmem) old.nodes[j]
      (List.getElem_mem hj') (by omega)
    injection k4 with c1 c2 c3 c4
    have c1' : nodes[j].l = old.nodes[j].l := c1
    have c2' : nodes[j].r = old.nodes[j].r := c2
    have c3' : nodes[j].b = old.nodes[j].b := c3
    have c4' : nodes[j].t = old.nodes[j].t := c4
    show _ ≤ nodes[j].r - nodes[j].l ∧ _ ≤ nodes[j].t - nodes[j].b
    omega
  have hflag := (updateNodes_waste (inst := inst) u s.clearResidual.bins.length).mpr
    ⟨hwu, by rw [hgu]; exact hwaste⟩
  have hret : s.appendBin inst other pos copies [] [] = .ok
      ((u.updateNodes inst s.clearResidual.bins.length).updateFlags inst u.waste) := by
    rw [happ]
    unfold Solution.updateIndicators
    rw [if_pos hrange]
    dsimp only
    rw [if_neg (by rw [hflag]; simp)]
  refine ⟨_, hret, hflag, ?_⟩
  obtain ⟨old', nodes', g1, -, g3, g4⟩ := appendBin_digest hret
  rw [ho] at g1
  cases g1
  rw [g4, hreal, stagesReal_congr ((relabelled_region hdone.tree g3).imp
    fun n m h => ⟨h.1, h.2.1, h.2.2.2.1⟩)]

end

end PackingSolver.Guil.PostProcess
