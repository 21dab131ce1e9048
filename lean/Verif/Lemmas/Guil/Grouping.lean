import Verif.Model.Guil.Grouping
import Verif.Spec.GuillotineGrouping
import Verif.Lemmas.Grouping
import Verif.Lemmas.Guil.Minimize
import Verif.Lemmas.Guil.Unflip
import Verif.Props.Guil.Append

/-! Helper lemmas: guillotine solutions with grouped bins. -/

namespace PackingSolver.Guil

open Spec Grouping Grouping.Spec

namespace GroupLemmas

variable {inst : Instance}

/-- What makes two listed plates identical. -/
abbrev content (p : Plate) : Nat × CutOrientation × List Node := (p.binTypeId, p.orientation, p.nodes)

/-! ## Appending bins unchanged -/

theorem relabelNode_same {bt : BinType} {b : Nat} {n m : Node}
    (h : relabelNode bt b [] n = some m)
    (hr : n.f = none → n.itemTypeId = b ∧ n.r = bt.w ∧ n.t = bt.h) : m = n := by
  unfold relabelNode at h
  split_ifs at h with h1 h2 h3
  · exact (Option.some.inj h).symm
  · obtain ⟨e1, e2, e3⟩ := hr h2
    rw [← e1, ← e2, ← e3] at h
    exact (Option.some.inj h).symm
  · have h' : some ({ n with itemTypeId := ((n.itemTypeId.toNat : Nat) : Int) } : Node) = some m := h
    rw [Int.toNat_of_nonneg h3] at h'
    exact (Option.some.inj h').symm
  · exact (Option.some.inj h).symm

theorem append_same {s other s' : Solution} {pos : Nat} {copies : Int}
    (h : s.appendBin inst other pos copies [] [] = .ok s')
    (hr : ∀ n ∈ (other.bins.getD pos default).nodes, n.f = none →
      n.itemTypeId = (other.bins.getD pos default).binTypeId
        ∧ n.r = (inst.binType (other.bins.getD pos default).binTypeId).w
        ∧ n.t = (inst.binType (other.bins.getD pos default).binTypeId).h) :
    plates s' = withoutResidual (plates s)
      ++ [{ plateOf (other.bins.getD pos default) with copies := copies }] := by
  obtain ⟨old, b, nodes, ho, hb, hlt, hn, hu⟩ := appendBin_ok h
  have hold : other.bins.getD pos default = old := by
    rw [List.getD_eq_getElem?_getD, ho]; rfl
  rw [hold] at hr ⊢
  obtain rfl : old.binTypeId = b := by
    unfold relabel at hb
    exact Option.some.inj hb
  have hne : nodes = old.nodes := by
    clear hu ho h hold
    generalize old.nodes = ol at hn hr
    induction hn with
    | nil => rfl
    | cons h1 h2 ih =>
      rw [ih fun n hn' => hr n (List.mem_cons_of_mem _ hn'),
        relabelNode_same h1 (hr _ (List.mem_cons_self ..))]
  subst hne
  rw [← clearResidual_plates]
  obtain ⟨_, _, he⟩ := updateIndicators_ok hu
  rw [he]
  generalize s.clearResidual = t
  generalize hnb : ({ binTypeId := old.binTypeId, copies := copies, firstCutOrientation := old.firstCutOrientation, nodes := old.nodes } : SolutionBin) = nb
  show plates (({ t with bins := t.bins ++ [nb] } : Solution).updateNodes inst t.bins.length) = _
  unfold Solution.updateNodes plates
  have hget : ({ t with bins := t.bins ++ [nb] } : Solution).bins.getD t.bins.length default
      = nb := by simp
  rw [hget]
  dsimp only
  rw [List.set_append_right _ _ (le_refl _), Nat.sub_self, List.set_cons_zero, List.map_append]
  congr 1
  rw [List.map_singleton, ← hnb]
  rfl

/-- Nodes that do not end with a residual. -/
def Unmarked (nodes : List Node) : Prop := ∀ n, nodes.getLast? = some n → n.itemTypeId ≠ -3

theorem withoutResidual_snoc (ps : List Plate) (p : Plate) (h : Unmarked p.nodes) :
    withoutResidual (ps ++ [p]) = ps ++ [p] := by
  unfold withoutResidual
  rw [List.reverse_append]
  show ps.reverse.reverse ++ _ = _
  rw [List.reverse_reverse]
  rcases List.eq_nil_or_concat p.nodes with hn | ⟨l, n, hn⟩
  · rw [hn]
    dsimp only [List.reverse_nil]
    rw [← hn]
  · rw [List.concat_eq_append] at hn
    have := h n (by rw [hn]; simp)
    rw [hn, List.reverse_append]
    show ps ++ [{ p with nodes := l.reverse.reverse ++ [_] }] = _
    rw [List.reverse_reverse, if_neg this, ← hn]

theorem withoutResidual_unmarked (ps : List Plate) (h : ∀ p ∈ ps.dropLast, Unmarked p.nodes) :
    ∀ p ∈ withoutResidual ps, Unmarked p.nodes := by
  rcases List.eq_nil_or_concat ps with rfl | ⟨front, q, rfl⟩
  · intro p hp; cases hp
  · rw [List.concat_eq_append] at h ⊢
    rw [List.dropLast_concat] at h
    unfold withoutResidual
    rw [List.reverse_append]
    show ∀ p ∈ front.reverse.reverse ++ _, _
    rw [List.reverse_reverse]
    intro p hp
    rcases List.mem_append.mp hp with hp | hp
    · exact h p hp
    · rw [List.mem_singleton.mp hp]
      intro n hn
      dsimp only at hn
      split at hn
      · cases hn
      · next m l _ =>
        rw [List.getLast?_concat] at hn
        cases hn
        split_ifs with h3
        · show (-1 : Int) ≠ -3
          decide
        · exact h3

theorem appendGroups {other : Solution} (gs : List (Nat × Int)) {s s' : Solution}
    (h : gs.foldlM (fun n g => n.appendBin inst other g.1 g.2 [] []) s = .ok s')
    (hr : ∀ g ∈ gs, ∀ n ∈ (other.bins.getD g.1 default).nodes, n.f = none →
      n.itemTypeId = (other.bins.getD g.1 default).binTypeId
        ∧ n.r = (inst.binType (other.bins.getD g.1 default).binTypeId).w
        ∧ n.t = (inst.binType (other.bins.getD g.1 default).binTypeId).h)
    (hm : ∀ g ∈ gs.dropLast, Unmarked (other.bins.getD g.1 default).nodes)
    (h0 : withoutResidual (plates s) = plates s) :
    plates s' = plates s
      ++ gs.map fun g => { plateOf (other.bins.getD g.1 default) with copies := g.2 } := by
  induction gs generalizing s with
  | nil =>
    rw [List.foldlM_nil] at h
    cases h; simp
  | cons g gs ih =>
    rw [List.foldlM_cons] at h
    obtain ⟨s1, h1, h2⟩ := bind_ok.mp h
    have hp := append_same h1 (hr g (by simp))
    rw [h0] at hp
    cases gs with
    | nil =>
      rw [List.foldlM_nil] at h2
      cases h2
      rw [hp]; rfl
    | cons g' gs =>
      rw [List.dropLast_cons_cons] at hm
      rw [ih h2 (fun x hx => hr x (List.mem_cons_of_mem _ hx))
        (fun x hx => hm x (List.mem_cons_of_mem _ hx))
        (by rw [hp]; exact withoutResidual_snoc _ _ (hm g (by simp))), hp]
      simp

theorem keys_unmarked {α : Type} [DecidableEq α] (P : α → Prop) (l : List α)
    (h : ∀ x ∈ l.dropLast, P x) : ∀ x ∈ l.eraseDups.dropLast, P x := by
  rcases List.eq_nil_or_concat l with rfl | ⟨front, q, rfl⟩
  · intro x hx; simp at hx
  · rw [List.concat_eq_append] at h ⊢
    rw [List.dropLast_concat] at h
    rw [eraseDups_snoc]
    intro x hx
    split_ifs at hx
    · exact h x ((mem_eraseDups' _ _).mp (List.mem_of_mem_dropLast hx))
    · rw [List.dropLast_concat] at hx
      exact h x ((mem_eraseDups' _ _).mp hx)

theorem grouped {s s' : Solution} (hreg : Regular inst (plates s))
    (h : groupIdenticalBins inst s = .ok s') :
    ((plates s').map fun p => (content p, p.copies))
        = insAll ((plates s).map fun p => (content p, p.copies)) := by
  obtain ⟨hview, hlt⟩ := binGroups_view binContent (fun b : SolutionBin => b.copies) s.bins
  have e : (plates s).map (fun p => (content p, p.copies))
      = s.bins.map fun b => (binContent b, b.copies) := by
    unfold plates
    rw [List.map_map]
    rfl
  have hkeys := congrArg (List.map Prod.fst) hview
  rw [insAll_keys, List.map_map] at hkeys
  have hr : ∀ g ∈ binGroups binContent (fun b : SolutionBin => b.copies) s.bins,
      ∀ n ∈ (s.bins.getD g.1 default).nodes, n.f = none →
      n.itemTypeId = (s.bins.getD g.1 default).binTypeId
        ∧ n.r = (inst.binType (s.bins.getD g.1 default).binTypeId).w
        ∧ n.t = (inst.binType (s.bins.getD g.1 default).binTypeId).h := by
    intro g hg n hn hf
    rw [List.getD_eq_getElem _ _ (hlt g hg)] at hn ⊢
    exact hreg.roots (plateOf (s.bins[g.1]'(hlt g hg))) (List.mem_map_of_mem (List.getElem_mem _)) n hn hf
  have hm : ∀ g ∈ (binGroups binContent (fun b : SolutionBin => b.copies) s.bins).dropLast,
      Unmarked (s.bins.getD g.1 default).nodes := by
    intro g hg
    have h1 := keys_unmarked (fun c : Nat × CutOrientation × List Node => Unmarked c.2.2)
      (s.bins.map binContent) (by
        intro x hx
        rw [← List.map_dropLast] at hx
        obtain ⟨b, hb, rfl⟩ := List.mem_map.mp hx
        refine hreg.marks (plateOf b) ?_
        unfold plates
        rw [← List.map_dropLast]
        exact List.mem_map_of_mem hb)
    rw [show s.bins.map binContent = List.map (Prod.fst ∘ fun b => (binContent b, b.copies)) s.bins
      from rfl, ← hkeys] at h1
    unfold groupView at h1
    rw [List.map_map, ← List.map_dropLast] at h1
    exact h1 _ (List.mem_map_of_mem hg)
  have := appendGroups _ h hr hm rfl
  rw [e, ← hview, this]
  unfold groupView
  rw [show plates (Solution.init inst) = [] from rfl, List.nil_append, List.map_map]
  rfl

/-! ## The builder marks a residual in the last bin only -/

/-- No node is a residual. -/
def NoMark (nodes : List Node) : Prop := ∀ n ∈ nodes, n.itemTypeId ≠ -3

theorem noMark_modify {nodes : List Node} (h : NoMark nodes) (id : Nat) (f : Node → Node)
    (hf : ∀ n, n.itemTypeId ≠ -3 → (f n).itemTypeId ≠ -3) : NoMark (nodes.modify id f) := by
  intro n hn
  obtain ⟨j, hj, rfl⟩ := List.getElem_of_mem hn
  rw [List.length_modify] at hj
  rw [List.getElem_modify]
  have := h _ (List.getElem_mem hj)
  split_ifs
  · exact hf _ this
  · exact this

theorem noMark_append {l l' : List Node} (h : NoMark l) (h' : NoMark l') : NoMark (l ++ l') :=
  fun n hn => (List.mem_append.mp hn).elim (h n) (h' n)

theorem noMark_child (f : Nat) (d l r b t : Int) : NoMark [childNode f d l r b t] := by
  intro n hn
  rw [List.mem_singleton.mp hn]
  show (-1 : Int) ≠ -3
  decide

theorem noMark_push {nodes : List Node} (h : NoMark nodes) (id f : Nat) (d l r b t : Int) :
    NoMark (pushChild nodes id (childNode f d l r b t)) :=
  noMark_append (noMark_modify h id _ fun _ hn => hn) (noMark_child f d l r b t)

theorem noMark_close {ct : Int} {nodes : List Node} (h : NoMark nodes) (id : Nat) :
    NoMark (closeNode ct nodes id) := by
  unfold closeNode
  dsimp only
  split
  · exact h
  · split_ifs
    · exact noMark_push h _ _ _ _ _ _ _
    · exact noMark_push h _ _ _ _ _ _ _
    · exact h

theorem noMark_climb {ct depth : Int} (fuel : Nat) {nodes : List Node} (h : NoMark nodes)
    (id : Option Nat) : NoMark (climb ct depth fuel nodes id).1 := by
  induction fuel generalizing nodes id with
  | zero => cases id <;> exact h
  | succ fuel ih =>
    cases id with
    | none => exact h
    | some id =>
      rw [show climb ct depth (fuel + 1) nodes (some id)
        = if (nodes.getD id default).d = depth - 1 then (nodes, some id)
          else climb ct depth fuel (closeNode ct nodes id)
            ((closeNode ct nodes id).getD id default).f from rfl]
      split_ifs
      · exact h
      · exact ih (noMark_close h id) _

theorem noMark_closeUp {ct : Int} (fuel : Nat) {nodes : List Node} (h : NoMark nodes)
    (id : Option Nat) : NoMark (closeUp ct fuel nodes id) := by
  induction fuel generalizing nodes id with
  | zero => cases id <;> exact h
  | succ fuel ih =>
    cases id with
    | none => exact h
    | some id => exact ih (noMark_close h id) _

theorem noMark_addNodeTo {ct : Int} {o : CutOrientation} {nodes : List Node} {depth pos : Int}
    (h : NoMark nodes) : NoMark (addNodeTo ct o nodes depth pos).1 := by
  unfold addNodeTo
  cases nodes.getLast? with
  | none => exact h
  | some last =>
    dsimp only
    split_ifs
    · exact h
    · have hc := noMark_climb (ct := ct) (depth := depth) nodes.length h (some (nodes.length - 1))
      generalize climb ct depth nodes.length nodes (some (nodes.length - 1)) = c at hc
      obtain ⟨l, id⟩ := c
      cases id with
      | none => exact hc
      | some id =>
        dsimp only at hc ⊢
        split_ifs with h1 h2
        · exact hc
        · have hm : NoMark (l.modify id fun p => { p with itemTypeId := -2 }) :=
            noMark_modify hc id _ fun _ _ => by show (-2 : Int) ≠ -3; decide
          generalize (l.modify id fun p => { p with itemTypeId := -2 }) = l' at hm
          cases hn : newChild ct depth pos o l' id with
          | error e => exact hm
          | ok child =>
            unfold newChild at hn
            dsimp only at hn
            split_ifs at hn <;> (cases hn; exact noMark_push hm _ _ _ _ _ _ _)
        · cases hn : newChild ct depth pos o l id with
          | error e => exact hc
          | ok child =>
            unfold newChild at hn
            dsimp only at hn
            split_ifs at hn <;> (cases hn; exact noMark_push hc _ _ _ _ _ _ _)

theorem noMark_if {c : Prop} [Decidable c] {l : List Node} (h : NoMark l) :
    NoMark (if c then l else []) := by
  split_ifs
  · exact h
  · intro n hn; cases hn

theorem noMark_trims (bt : BinType) : NoMark (trimNodes bt) := by
  unfold trimNodes
  refine noMark_append (noMark_append (noMark_append (noMark_append (noMark_append (noMark_append
    (noMark_append ?_ ?_) ?_) ?_) ?_) ?_) ?_) ?_ <;>
    exact noMark_if (noMark_child _ _ _ _ _ _)

theorem noMark_initial (bt : BinType) (b : Nat) : NoMark (initialNodes bt b) := by
  have hroot : NoMark [({ f := none, d := 0, l := 0, r := bt.w, b := 0, t := bt.h, itemTypeId := b } : Node)] := by
    intro n hn
    rw [List.mem_singleton.mp hn]
    show (b : Int) ≠ -3
    omega
  unfold initialNodes
  dsimp only
  split_ifs
  · exact noMark_append (noMark_append hroot (noMark_trims bt)) (noMark_child _ _ _ _ _ _)
  · exact hroot

/-- Solutions under construction have no residual. -/
def NoMarks (bins : List SolutionBin) : Prop := ∀ b ∈ bins, NoMark b.nodes

theorem noMarks_setNodes {sb : SolutionBuilder} (h : NoMarks sb.sol.bins) {nodes : List Node}
    (hn : NoMark nodes) : NoMarks (sb.setNodes nodes).sol.bins := by
  unfold SolutionBuilder.setNodes
  intro b hb
  obtain ⟨j, hj, rfl⟩ := List.getElem_of_mem hb
  have hj' : j < sb.sol.bins.length := by simpa using hj
  rw [List.getElem_modify]
  split_ifs
  · exact hn
  · exact h _ (List.getElem_mem hj')

theorem noMarks_step {sb : SolutionBuilder} (h : NoMarks sb.sol.bins) (op : Op) :
    NoMarks (sb.step inst op).1.sol.bins := by
  cases op with
  | addBin b c o =>
    show NoMarks (sb.addBin inst b c o).1.sol.bins
    unfold SolutionBuilder.addBin
    split_ifs
    · exact h
    · intro bin hbin
      rcases List.mem_append.mp hbin with hbin | hbin
      · exact h bin hbin
      · rw [List.mem_singleton.mp hbin]
        exact noMark_initial _ _
  | addNode d p =>
    show NoMarks (sb.addNode inst d p).1.sol.bins
    unfold SolutionBuilder.addNode
    cases hl : sb.sol.bins.getLast? with
    | none => exact h
    | some bin =>
      dsimp only
      split_ifs
      · exact h
      · exact noMarks_setNodes h (noMark_addNodeTo (h bin (List.mem_of_getLast? hl)))
  | setItem i =>
    show NoMarks (sb.setLastNodeItem inst i).1.sol.bins
    unfold SolutionBuilder.setLastNodeItem
    cases hl : sb.sol.bins.getLast? with
    | none => exact h
    | some bin =>
      dsimp only
      split_ifs
      · exact h
      · cases bin.nodes.getLast? with
        | none => exact h
        | some node =>
          dsimp only
          split_ifs
          · exact h
          · refine noMarks_setNodes h fun n hn => ?_
            rcases List.mem_or_eq_of_mem_set hn with hn | rfl
            · exact h bin (List.mem_of_getLast? hl) n hn
            · show (i : Int) ≠ -3
              omega

theorem noMarks_run (ops : List Op) : NoMarks (SolutionBuilder.run inst ops).sol.bins := by
  unfold SolutionBuilder.run
  have h0 : NoMarks (SolutionBuilder.new inst).sol.bins := by intro b hb; cases hb
  generalize SolutionBuilder.new inst = sb at h0
  induction ops generalizing sb with
  | nil => exact h0
  | cons op ops ih => exact ih _ (noMarks_step h0 op)

theorem modify_dropLast {α : Type} (l : List α) (f : α → α) :
    (l.modify (l.length - 1) f).dropLast = l.dropLast := by
  rcases List.eq_nil_or_concat l with rfl | ⟨front, q, rfl⟩
  · rfl
  · rw [List.concat_eq_append]
    apply List.ext_getElem
    · simp
    · intro i h1 h2
      simp only [List.length_dropLast, List.length_append, List.length_singleton] at h2
      rw [List.getElem_dropLast, List.getElem_dropLast, List.getElem_modify, if_neg]
      simp; omega

theorem built_marks {ops : List Op} {s : Solution}
    (h : (SolutionBuilder.run inst ops).build inst = .ok s) :
    ∀ p ∈ (plates s).dropLast, ∀ n, p.nodes.getLast? = some n → n.itemTypeId ≠ -3 := by
  have hst := build_staged h
  have hnodes : (plates s).map (·.nodes)
      = (finishBins inst.parameters.cutThickness (SolutionBuilder.run inst ops).sol.bins).map
        (·.nodes) := by
    unfold plates
    rw [List.map_map]
    generalize finishBins inst.parameters.cutThickness (SolutionBuilder.run inst ops).sol.bins = l
      at hst
    generalize s.bins = l' at hst
    induction hst with
    | nil => rfl
    | cons h1 h2 ih =>
      rw [List.map_cons, List.map_cons, ih, ← (staged_frame h1).2.2.2.1]
      rfl
  intro p hp n hn
  have hm : p.nodes ∈ ((plates s).map (·.nodes)).dropLast := by
    rw [← List.map_dropLast]
    exact List.mem_map_of_mem hp
  rw [hnodes, ← List.map_dropLast] at hm
  unfold finishBins at hm
  dsimp only at hm
  rw [modify_dropLast] at hm
  obtain ⟨b, hb, e⟩ := List.mem_map.mp hm
  obtain ⟨b0, hb0, rfl⟩ := List.mem_map.mp (List.mem_of_mem_dropLast hb)
  dsimp only at e
  have := noMark_closeUp (ct := inst.parameters.cutThickness) b0.nodes.length
    (noMarks_run ops b0 hb0) (if b0.nodes.length = 0 then none else some (b0.nodes.length - 1))
  have e' : closeUp inst.parameters.cutThickness b0.nodes.length b0.nodes
      (if b0.nodes.length = 0 then none else some (b0.nodes.length - 1)) = p.nodes := e
  rw [e'] at this
  exact this n (List.mem_of_getLast? hn)

theorem built_roots {ops : List Op} {s : Solution}
    (h : (SolutionBuilder.run inst ops).build inst = .ok s) :
    ∀ p ∈ plates s, ∀ n ∈ p.nodes, n.f = none →
      n.r = (inst.binType p.binTypeId).w ∧ n.t = (inst.binType p.binTypeId).h := by
  intro p hp n hn hf
  obtain ⟨b, hb, rfl⟩ := List.mem_map.mp hp
  obtain ⟨b0, d, f, st⟩ := built_bin h hb
  obtain ⟨e1, e2, e3, e4, e5⟩ := staged_frame st
  dsimp only at hn ⊢
  rw [e4] at hn
  rw [e1]
  obtain ⟨r1, r2, -⟩ := PostProcess.tree_root d.tree hn hf
  exact ⟨r1, r2⟩

theorem penalties_zero {ps : List Plate} (ht : ∀ p ∈ ps, p.binTypeId < inst.numberOfBinTypes)
    (hpen : ∀ b ∈ inst.binTypes, ∀ r ∈ b.resources, r.penalize = false) :
    reportedProfit inst ps = (ps.map fun p =>
      (p.copies : ℚ) * (p.items.map fun i => (inst.itemType i).profit).sum).sum := by
  unfold reportedProfit
  congr 1
  refine List.map_congr_left fun p hp => ?_
  have hz : penalties inst p.binTypeId p.items = 0 := by
    apply List.sum_eq_zero
    intro x hx
    obtain ⟨r, hr, rfl⟩ := List.mem_map.mp hx
    have hbt : inst.binType p.binTypeId ∈ inst.binTypes := by
      unfold Instance.binType
      rw [List.getD_eq_getElem _ _ (ht p hp)]
      exact List.getElem_mem _
    rw [hpen _ hbt r hr]
    simp
  rw [hz, sub_zero]

end GroupLemmas

end PackingSolver.Guil
