import Verif.Lemmas.Guil.Build

/-!
# Lemmas: the nodes of guillotine solutions have positive sides
-/

namespace PackingSolver.Guil

open Spec

/-- All nodes have positive sides, except perhaps trims, which are not cut. -/
def Wide (nodes : List Node) : Prop :=
  ∀ n ∈ nodes, (0 ≤ n.d ∨ n.children ≠ []) → (region n).Nonempty

section
variable {nodes : List Node} {ct : Int} {o : CutOrientation}

theorem mem_modify_node {l : List Node} {i : Nat} {f : Node → Node} {x : Node}
    (h : x ∈ l.modify i f) : x ∈ l ∨ ∃ y, l[i]? = some y ∧ x = f y := by
  obtain ⟨j, hj, he⟩ := List.getElem_of_mem h
  rw [List.length_modify] at hj
  rw [List.getElem_modify] at he
  by_cases hij : i = j
  · rw [if_pos hij] at he
    refine .inr ⟨l[j], ?_, he.symm⟩
    rw [hij]; exact List.getElem?_eq_getElem hj
  · rw [if_neg hij] at he
    exact .inl (he ▸ List.getElem_mem hj)

theorem wide_modify_item {i : Nat} {v : Int} (h : Wide nodes) :
    Wide (nodes.modify i fun n => { n with itemTypeId := v }) := by
  intro n hn hc
  rcases mem_modify_node hn with hm | ⟨y, hy, rfl⟩
  · exact h n hm hc
  · exact h y (List.mem_of_getElem? hy) hc

theorem wide_push {id : Nat} {w : Node} (h : Wide nodes)
    (hp : id < nodes.length → (region (nd nodes id)).Nonempty) (hw : (region w).Nonempty) :
    Wide (pushChild nodes id w) := by
  intro n hn hc
  unfold pushChild at hn
  rcases List.mem_append.mp hn with hm | hm
  · rcases mem_modify_node hm with hm | ⟨y, hy, rfl⟩
    · exact h n hm hc
    · have hlt : id < nodes.length := (List.getElem?_eq_some_iff.mp hy).1
      have hpp := hp hlt
      have : nd nodes id = y := by
        unfold nd; rw [List.getD_eq_getElem?_getD, hy]; rfl
      rw [this] at hpp
      exact hpp
  · rw [List.mem_singleton.mp hm]; exact hw

theorem wide_close (h : Wide nodes) (id : Nat) : Wide (closeNode ct nodes id) := by
  unfold closeNode
  dsimp only
  cases hl : (nodes.getD id default).children.getLast? with
  | none => exact h
  | some c =>
    dsimp only
    have hne : (region (nd nodes id)).Nonempty := by
      have hlt : id < nodes.length := by
        by_contra hcon
        rw [List.getD_eq_default _ _ (by omega)] at hl
        cases hl
      refine h _ (nd_mem hlt) (.inr ?_)
      intro h0
      have : (nodes.getD id default).children = [] := h0
      rw [this] at hl
      cases hl
    by_cases h1 : (nodes.getD id default).r > (nodes.getD c default).r + ct
    · rw [if_pos h1]
      exact wide_push h (fun _ => hne) ⟨h1, hne.2⟩
    · rw [if_neg h1]
      by_cases h2 : (nodes.getD id default).t > (nodes.getD c default).t + ct
      · rw [if_pos h2]
        exact wide_push h (fun _ => hne) ⟨hne.1, h2⟩
      · rw [if_neg h2]; exact h

theorem wide_climb (depth : Int) : ∀ (fuel : Nat) (nodes : List Node) (id : Option Nat),
    Wide nodes → Wide (climb ct depth fuel nodes id).1 := by
  intro fuel
  induction fuel with
  | zero => intro nodes id h; cases id <;> exact h
  | succ fuel ih =>
    intro nodes id h
    cases id with
    | none => exact h
    | some id =>
      unfold climb
      by_cases hd : (nodes.getD id default).d = depth - 1
      · rw [if_pos hd]; exact h
      · rw [if_neg hd]; exact ih _ _ (wide_close h id)

theorem wide_closeUp : ∀ (fuel : Nat) (nodes : List Node) (id : Option Nat),
    Wide nodes → Wide (closeUp ct fuel nodes id) := by
  intro fuel
  induction fuel with
  | zero => intro nodes id h; cases id <;> exact h
  | succ fuel ih =>
    intro nodes id h
    cases id with
    | none => exact h
    | some id => exact ih _ _ (wide_close h id)

theorem climb_depth (depth : Int) : ∀ (fuel : Nat) (nodes : List Node) (id : Option Nat) (r : Nat),
    (climb ct depth fuel nodes id).2 = some r →
    (nd (climb ct depth fuel nodes id).1 r).d = depth - 1 := by
  intro fuel
  induction fuel with
  | zero => intro nodes id r h; cases id <;> cases h
  | succ fuel ih =>
    intro nodes id r h
    cases id with
    | none => cases h
    | some id =>
      unfold climb at h ⊢
      by_cases hd : (nodes.getD id default).d = depth - 1
      · rw [if_pos hd] at h ⊢
        cases h
        exact hd
      · rw [if_neg hd] at h ⊢
        exact ih _ _ r h

theorem wide_addNode {depth pos : Int} (hd1 : 1 ≤ depth) (h : Wide nodes) :
    Wide (addNodeTo ct o nodes depth pos).1 := by
  unfold addNodeTo
  cases hl : nodes.getLast? with
  | none => exact h
  | some last =>
    dsimp only
    by_cases hd2 : depth > last.d + 1
    · rw [if_pos hd2]; exact h
    · rw [if_neg hd2]
      have h1 := wide_climb (ct := ct) depth nodes.length nodes (some (nodes.length - 1)) h
      have h2 := climb_depth (ct := ct) depth nodes.length nodes (some (nodes.length - 1))
      generalize climb ct depth nodes.length nodes (some (nodes.length - 1)) = res at h1 h2
      obtain ⟨nodes1, _ | id⟩ := res
      · exact h1
      · dsimp only at h1 h2 ⊢
        have hd := h2 id rfl
        by_cases hi : ((nodes1.getD id default).f.isSome
            && decide ((nodes1.getD id default).itemTypeId ≥ 0)) = true
        · rw [if_pos hi]; exact h1
        · rw [if_neg hi]
          -- the parent with its new mark
          have h3 : Wide (if (nodes1.getD id default).f.isSome = true
              then nodes1.modify id (fun p => { p with itemTypeId := -2 }) else nodes1) := by
            split
            · exact wide_modify_item h1
            · exact h1
          have hreg : region (nd (if (nodes1.getD id default).f.isSome = true
              then nodes1.modify id (fun p => { p with itemTypeId := -2 }) else nodes1) id)
              = region (nd nodes1 id) := by
            split
            · rw [nd_modify]; split <;> rfl
            · rfl
          have hp : id < nodes1.length → (region (nd nodes1 id)).Nonempty := fun hlt =>
            h1 _ (nd_mem hlt) (.inl (by omega))
          generalize hn2 : (if (nodes1.getD id default).f.isSome = true
              then nodes1.modify id (fun p => { p with itemTypeId := -2 }) else nodes1)
            = nodes2 at *
          have hlen : nodes2.length = nodes1.length := by
            rw [← hn2]; split
            · exact List.length_modify ..
            · rfl
          cases hc : newChild ct depth pos o nodes2 id with
          | error e => exact h3
          | ok child =>
            dsimp only
            refine wide_push h3 (fun hlt => by rw [hreg]; exact hp (by omega)) ?_
            by_cases hlt : id < nodes1.length
            · have hpp : (region (nd nodes2 id)).Nonempty := by rw [hreg]; exact hp hlt
              unfold newChild at hc
              dsimp only at hc
              split at hc
              · split at hc
                · split at hc
                  · cases hc
                  · split at hc
                    · cases hc
                    · cases hc
                      exact ⟨not_le.mp (by assumption), hpp.2⟩
                · split at hc
                  · cases hc
                  · split at hc
                    · cases hc
                    · cases hc
                      exact ⟨not_le.mp (by assumption), hpp.2⟩
              · split at hc
                · split at hc
                  · cases hc
                  · split at hc
                    · cases hc
                    · cases hc
                      exact ⟨hpp.1, not_le.mp (by assumption)⟩
                · split at hc
                  · cases hc
                  · split at hc
                    · cases hc
                    · cases hc
                      exact ⟨hpp.1, not_le.mp (by assumption)⟩
            · exfalso
              have : nd nodes1 id = default := by
                unfold nd; exact List.getD_eq_default _ _ (by omega)
              have h5 : nodes2.getD id default = default := List.getD_eq_default _ _ (by omega)
              unfold newChild at hc
              rw [h5] at hc
              dsimp only at hc
              split at hc
              · have : (default : Node).children.getLast? = none := rfl
                rw [this] at hc
                dsimp only at hc
                split at hc
                · cases hc
                · split at hc
                  · cases hc
                  · have e1 : (default : Node).l = 0 := rfl
                    have e2 : (default : Node).r = 0 := rfl
                    omega
              · have : (default : Node).children.getLast? = none := rfl
                rw [this] at hc
                dsimp only at hc
                split at hc
                · cases hc
                · split at hc
                  · cases hc
                  · have e1 : (default : Node).b = 0 := rfl
                    have e2 : (default : Node).t = 0 := rfl
                    omega

theorem trimNodes_flat (bt : BinType) : ∀ n ∈ trimNodes bt, n.d = -1 ∧ n.children = [] := by
  intro n hn
  unfold trimNodes at hn
  simp only [List.mem_append] at hn
  rcases hn with (((((((h | h) | h) | h) | h) | h) | h) | h) <;>
    (split at h
     · rw [List.mem_singleton.mp h]; exact ⟨rfl, rfl⟩
     · cases h)

theorem wide_initial {bt : BinType} (hs : Sized bt) (b : Nat) : Wide (initialNodes bt b) := by
  have hl := hs.left
  have hr := hs.right
  have hb := hs.bottom
  have ht := hs.top
  have hw := hs.width
  have hh := hs.height
  have h0 : (⟨0, bt.w, 0, bt.h⟩ : Region).Nonempty :=
    ⟨by show 0 < bt.w; omega, by show 0 < bt.h; omega⟩
  intro n hn hc
  unfold initialNodes at hn
  dsimp only at hn
  by_cases h : (bt.hardLeft || bt.hardRight || bt.hardBottom || bt.hardTop) = true
  · rw [if_pos h] at hn
    rcases List.mem_append.mp hn with hn | hn
    · rcases List.mem_append.mp hn with hn | hn
      · rw [List.mem_singleton.mp hn]; exact h0
      · obtain ⟨h1, h2⟩ := trimNodes_flat bt n hn
        rcases hc with hc | hc
        · omega
        · exact absurd h2 hc
    · rw [List.mem_singleton.mp hn]
      have e1 : bt.innerLeft ≤ bt.leftTrim := by
        unfold BinType.innerLeft; split <;> omega
      have e2 : bt.w - bt.rightTrim ≤ bt.innerRight := by
        unfold BinType.innerRight; split <;> omega
      have e3 : bt.innerBottom ≤ bt.bottomTrim := by
        unfold BinType.innerBottom; split <;> omega
      have e4 : bt.h - bt.topTrim ≤ bt.innerTop := by
        unfold BinType.innerTop; split <;> omega
      exact ⟨by show bt.innerLeft < bt.innerRight; omega,
        by show bt.innerBottom < bt.innerTop; omega⟩
  · rw [if_neg h] at hn
    rw [List.mem_singleton.mp hn]; exact h0

end

/-! ### Builder -/

section
variable {inst : Instance}

theorem wide_step {sb : SolutionBuilder} (hs : ∀ bt ∈ inst.binTypes, Sized bt)
    (h : ∀ bin ∈ sb.sol.bins, Wide bin.nodes) (op : Op) :
    ∀ bin ∈ (sb.step inst op).1.sol.bins, Wide bin.nodes := by
  have hset : ∀ nodes, Wide nodes → ∀ bin ∈ (sb.setNodes nodes).sol.bins, Wide bin.nodes := by
    intro nodes hn bin hb
    unfold SolutionBuilder.setNodes at hb
    rcases mem_modify hb with hm | ⟨y, hy, rfl⟩
    · exact h bin hm
    · exact hn
  cases op with
  | addBin t c o =>
    show ∀ bin ∈ (sb.addBin inst t c o).1.sol.bins, _
    unfold SolutionBuilder.addBin
    by_cases ht : t ≥ inst.numberOfBinTypes
    · rw [if_pos ht]; exact h
    · rw [if_neg ht]
      intro bin hb
      rcases List.mem_append.mp hb with hb | hb
      · exact h bin hb
      · rw [List.mem_singleton.mp hb]
        exact wide_initial (hs _ (binType_mem (by omega))) t
  | addNode d p =>
    show ∀ bin ∈ (sb.addNode inst d p).1.sol.bins, _
    unfold SolutionBuilder.addNode
    cases hl : sb.sol.bins.getLast? with
    | none => exact h
    | some bin =>
      dsimp only
      by_cases hd : d < 1
      · rw [if_pos hd]; exact h
      · rw [if_neg hd]
        exact hset _ (wide_addNode (by omega) (h bin (List.mem_of_getLast? hl)))
  | setItem i =>
    show ∀ bin ∈ (sb.setLastNodeItem inst i).1.sol.bins, _
    unfold SolutionBuilder.setLastNodeItem
    cases hl : sb.sol.bins.getLast? with
    | none => exact h
    | some bin =>
      dsimp only
      by_cases hi : i ≥ inst.numberOfItemTypes
      · rw [if_pos hi]; exact h
      · rw [if_neg hi]
        by_cases hne : bin.nodes = []
        · rw [hne]; exact h
        · rw [getLast_nd hne]
          dsimp only
          split
          · exact h
          · rw [set_last_eq_modify]
            exact hset _ (wide_modify_item (h bin (List.mem_of_getLast? hl)))

theorem wide_run (hs : ∀ bt ∈ inst.binTypes, Sized bt) (ops : List Op) :
    ∀ bin ∈ (SolutionBuilder.run inst ops).sol.bins, Wide bin.nodes := by
  unfold SolutionBuilder.run
  induction ops using List.reverseRecOn with
  | nil => intro bin hb; cases hb
  | append_singleton ops op ih =>
    rw [List.foldl_append]
    exact wide_step hs ih op

theorem wide_residual {nodes : List Node} (h : Wide nodes) : Wide (setResidual nodes) := by
  rcases setResidual_cases nodes with he | he
  · rw [he]; exact h
  · rw [he]; exact wide_modify_item h

theorem wide_finish (hs : ∀ bt ∈ inst.binTypes, Sized bt) (ops : List Op) :
    ∀ bin ∈ finishBins inst.parameters.cutThickness (SolutionBuilder.run inst ops).sol.bins,
      Wide bin.nodes := by
  intro bin hb
  unfold finishBins at hb
  dsimp only at hb
  have hmap : ∀ b ∈ (SolutionBuilder.run inst ops).sol.bins.map (fun bin => { bin with
      nodes := finishNodes inst.parameters.cutThickness bin.nodes }), Wide b.nodes := by
    intro b hb
    obtain ⟨b', hb', rfl⟩ := List.mem_map.mp hb
    exact wide_closeUp _ _ _ (wide_run hs ops b' hb')
  rcases mem_modify hb with hm | ⟨y, hy, rfl⟩
  · exact hmap bin hm
  · exact wide_residual (hmap y hy)

end

end PackingSolver.Guil
