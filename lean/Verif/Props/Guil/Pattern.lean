import Verif.Lemmas.Guil.Run
import Mathlib.Algebra.Order.BigOperators.Group.List

/-!
# Properties of guillotine solutions: cutting patterns (C67) and builder calls (C68)
-/

namespace PackingSolver.Guil

open Spec

/-! ## An example -/

namespace PatternEx

/-- A plate of 100 × 60 with hard trims of 2 on the left and 3 at the bottom, cuts of thickness 1;
items of 30 × 20 and of 67 × 27. -/
def inst : Instance := {
  objective := .binPackingWithLeftovers
  parameters := { cutThickness := 1, numberOfStages := 2 }
  itemTypes := [
    { w := 30, h := 20, profit := 600, copies := 3, resourceIds := [[]] },
    { w := 67, h := 27, profit := 1809, copies := 2, resourceIds := [[]] }]
  binTypes := [{ w := 100, h := 60, copies := 2, leftTrim := 2, bottomTrim := 3 }] }

/-- Two vertical strips with two items each; the last call of each kind is rejected. -/
def ops : List Op := [
  .addBin 0 1 .vertical, .addNode 1 32, .addNode 2 23, .setItem 0, .addNode 2 44, .setItem 0,
  .addNode 1 100, .addNode 2 30, .setItem 1, .addNode 2 58, .setItem 1, .setItem 5, .addNode 2 59,
  .addNode 9 1, .addBin 7 1 .vertical]

/-- The solution. -/
def sol : Solution := match (SolutionBuilder.run inst ops).build inst with
  | .ok s => s
  | .error _ => {}

theorem built : (SolutionBuilder.run inst ops).build inst = .ok sol := by decide +kernel

theorem sized : ∀ bt ∈ inst.binTypes, Sized bt := by
  intro bt h
  rw [List.mem_singleton.mp h]
  exact ⟨by decide, by decide, by decide, by decide, by decide, by decide⟩

end PatternEx

section
variable {inst : Instance} {ops : List Op} {s : Solution} {bin : SolutionBin}

/-! ## C67: cutting patterns -/

/-- **C67**: whatever the calls of the builder, including rejected calls whose exceptions are
caught, every bin of the solution it builds is a guillotine cutting pattern: the bin without its
hard trims can be cut, by cuts of the given thickness, in at most `number_of_stages_real` stages
starting with the first cut orientation of the bin, into pieces among which are the items. -/
theorem guillotine_pattern (h : (SolutionBuilder.run inst ops).build inst = .ok s)
    (hb : bin ∈ s.bins) (ho : bin.firstCutOrientation ≠ .any)
    (hs : Sized (inst.binType bin.binTypeId)) (hct : 0 ≤ inst.parameters.cutThickness) :
    ∃ L, Cuts inst.parameters.cutThickness bin.numberOfStagesReal.toNat
        (decide (bin.firstCutOrientation = .vertical)) (usable (inst.binType bin.binTypeId)) L
      ∧ List.Sublist ((itemNodes bin).map region) L := by
  obtain ⟨b, d, f, st⟩ := built_bin h hb
  obtain ⟨e1, e2, e3, e4, e5⟩ := staged_frame st
  rw [e3] at ho
  rw [e1] at hs
  rw [f.2.1] at e5
  have hc := d.cuts ho hs hct _ (stagesOk_real b.nodes)
  have hv : vert b.firstCutOrientation 0 = decide (b.firstCutOrientation = .vertical) := by
    cases b.firstCutOrientation <;> rfl
  rw [hv] at hc
  refine ⟨leaves (base (inst.binType b.binTypeId) b.binTypeId) b.nodes, ?_, ?_⟩
  · rw [e1, e3, e5]; exact hc
  · unfold itemNodes
    rw [e4]
    exact d.tree.items_leaves

/-- **C67**: the items lie in the bin without its hard trims, and a cut of the given thickness fits
between any two of them. -/
theorem items_inside_apart (h : (SolutionBuilder.run inst ops).build inst = .ok s)
    (hb : bin ∈ s.bins) (ho : bin.firstCutOrientation ≠ .any)
    (hs : Sized (inst.binType bin.binTypeId)) (hct : 0 ≤ inst.parameters.cutThickness) :
    (∀ n ∈ itemNodes bin, (region n).Inside (usable (inst.binType bin.binTypeId))
      ∧ (region n).Nonempty)
    ∧ ((itemNodes bin).map region).Pairwise (Region.Apart inst.parameters.cutThickness) := by
  obtain ⟨L, hc, hsub⟩ := guillotine_pattern h hb ho hs hct
  refine ⟨fun n hn => cuts_inside hct hc _ (hsub.subset (List.mem_map_of_mem hn)), ?_⟩
  exact (cuts_apart hct hc).sublist hsub

/-- **C67**: every item of the solution exists and its node has the dimensions of the item, possibly
rotated. -/
theorem items_dimensions (h : (SolutionBuilder.run inst ops).build inst = .ok s)
    (hb : bin ∈ s.bins) : ∀ n ∈ itemNodes bin, ∃ i < inst.numberOfItemTypes,
      n.itemTypeId = (i : Int) ∧
      ((n.r - n.l = (inst.itemType i).w ∧ n.t - n.b = (inst.itemType i).h)
        ∨ (n.r - n.l = (inst.itemType i).h ∧ n.t - n.b = (inst.itemType i).w)) := by
  obtain ⟨b, d, f, st⟩ := built_bin h hb
  obtain ⟨e1, e2, e3, e4, e5⟩ := staged_frame st
  intro n hn
  unfold itemNodes at hn
  rw [e4] at hn
  obtain ⟨hm, hc⟩ := List.mem_filter.mp hn
  rw [Bool.and_eq_true, decide_eq_true_eq] at hc
  obtain ⟨j, hj, he⟩ := List.getElem_of_mem hm
  have hnd : nd b.nodes j = n := by
    unfold nd
    rw [List.getD_eq_getElem?_getD, List.getElem?_eq_getElem hj, he]; rfl
  have := d.tree.items j hj
  rw [hnd] at this
  obtain ⟨_, k, hk, hid, hdim⟩ := this hc.1 hc.2
  refine ⟨k, hk, hid, ?_⟩
  unfold dimensionsOk at hdim
  simpa using hdim

/-- **C67**: the items of a bin do not exceed the area of the bin without its hard trims. -/
theorem items_area_le (h : (SolutionBuilder.run inst ops).build inst = .ok s)
    (hb : bin ∈ s.bins) (ho : bin.firstCutOrientation ≠ .any)
    (hs : Sized (inst.binType bin.binTypeId)) (hct : 0 ≤ inst.parameters.cutThickness) :
    ((itemNodes bin).map fun n => (region n).area).sum
      ≤ (usable (inst.binType bin.binTypeId)).area := by
  obtain ⟨L, hc, hsub⟩ := guillotine_pattern h hb ho hs hct
  refine le_trans ?_ (cuts_area hct hc)
  have hmap : (itemNodes bin).map (fun n => (region n).area)
      = ((itemNodes bin).map region).map Region.area := by rw [List.map_map]; rfl
  rw [hmap]
  refine List.Sublist.sum_le_sum (hsub.map _) ?_
  intro x hx
  obtain ⟨R, hR, rfl⟩ := List.mem_map.mp hx
  obtain ⟨_, h1, h2⟩ := cuts_inside hct hc R hR
  unfold Region.area
  exact Int.mul_nonneg (by omega) (by omega)

/-- The hypotheses of the theorems of C67 are met by a pattern of two stages with four items, a
cut thickness, two hard trims and rejected calls. -/
example : (SolutionBuilder.run PatternEx.inst PatternEx.ops).build PatternEx.inst
      = .ok PatternEx.sol
    ∧ ∃ bin ∈ PatternEx.sol.bins, bin.firstCutOrientation ≠ .any
      ∧ Sized (PatternEx.inst.binType bin.binTypeId)
      ∧ 0 ≤ PatternEx.inst.parameters.cutThickness
      ∧ bin.numberOfStagesReal = 2 ∧ (itemNodes bin).length = 4 :=
  ⟨PatternEx.built, PatternEx.sol.bins.getD 0 default, by decide +kernel, by decide +kernel,
    PatternEx.sized _ (by decide +kernel), by decide, by decide +kernel, by decide +kernel⟩

/-! ## C68: the calls of the builder -/

/-- **C68**: no call of the builder, in any order, has undefined behaviour. -/
theorem calls_defined (ops : List Op) (op : Op) :
    ((SolutionBuilder.run inst ops).step inst op).2 ≠ some .ub :=
  (runInv_step (runInv_run ops) op).2

theorem verticalAt_iff {o : CutOrientation} {d : Int} (hd : 0 ≤ d) :
    isVerticalAt o d = decide (VerticalAt o d) := by
  unfold isVerticalAt VerticalAt
  rw [Int.tmod_eq_emod_of_nonneg hd]
  cases o <;> simp

/-- **C68**: `add_node` is accepted exactly if there is a bin and the new cut makes sense; otherwise
it throws `std::logic_error`. -/
theorem add_node_accepts_iff (ops : List Op) (depth pos : Int) :
    (((SolutionBuilder.run inst ops).addNode inst depth pos).2 = none
      ↔ ∃ bin, (SolutionBuilder.run inst ops).sol.bins.getLast? = some bin
        ∧ CanCut inst.parameters.cutThickness bin.firstCutOrientation bin.nodes depth pos)
    ∧ (((SolutionBuilder.run inst ops).addNode inst depth pos).2 = none
      ∨ ((SolutionBuilder.run inst ops).addNode inst depth pos).2 = some .logicError) := by
  have hrun := runInv_run (inst := inst) ops
  unfold SolutionBuilder.addNode
  cases hl : (SolutionBuilder.run inst ops).sol.bins.getLast? with
  | none => exact ⟨by simp, .inr rfl⟩
  | some bin =>
    dsimp only
    by_cases hd : depth < 1
    · rw [if_pos hd]
      refine ⟨⟨fun h => by simp at h, ?_⟩, .inr rfl⟩
      rintro ⟨bin', hb', hc⟩
      have := hc.1
      omega
    · rw [if_neg hd]
      have hbi := (hrun.bins bin (List.mem_of_getLast? hl)).1
      have hlt := hbi.tree.base_lt
      have hne : bin.nodes ≠ [] := by intro hh; rw [hh] at hlt; simp at hlt
      have hlast := getLast_nd hne
      dsimp only
      rcases addNodeTo_spec (ct := inst.parameters.cutThickness) (o := bin.firstCutOrientation)
          (pos := pos) hbi.tree (by omega : 1 ≤ depth) with
        ⟨h1, he⟩ | ⟨h1, id, c1, c2, hid, hd5, nodes1, n1, n2, ht, ho, hext, hnd, hst, he⟩
      · rw [he]
        refine ⟨⟨fun h => by simp at h, ?_⟩, .inr rfl⟩
        rintro ⟨bin', hb', hc⟩
        cases hb'
        obtain ⟨_, ⟨last, hl', hle⟩, _⟩ := hc
        rw [hlast] at hl'
        cases hl'
        omega
      · have hv : vert bin.firstCutOrientation (nd bin.nodes id).d
            = decide (VerticalAt bin.firstCutOrientation depth) := by
          unfold vert
          rw [hd5, Int.sub_add_cancel]
          exact verticalAt_iff (by omega)
        have hstart : start inst.parameters.cutThickness bin.firstCutOrientation bin.nodes id
            = nextPos inst.parameters.cutThickness
                (decide (VerticalAt bin.firstCutOrientation depth)) bin.nodes id := by
          unfold start nextPos
          rw [hv]
          rfl
        have hopen : openAt bin.nodes (depth - 1) = some id := c1
        rw [he]
        by_cases hi : (nd bin.nodes id).f.isSome = true ∧ 0 ≤ (nd bin.nodes id).itemTypeId
        · rw [if_pos hi]
          refine ⟨⟨fun h => by simp at h, ?_⟩, .inr rfl⟩
          rintro ⟨bin', hb', hc⟩
          cases hb'
          obtain ⟨_, _, i, hi', hni, _⟩ := hc
          rw [hopen] at hi'
          cases hi'
          exact absurd hi hni
        · rw [if_neg hi]
          dsimp only
          by_cases hpos : pos ≤ start inst.parameters.cutThickness bin.firstCutOrientation
                bin.nodes id
              ∨ pos > (region (nd bin.nodes id)).high
                  (vert bin.firstCutOrientation (nd bin.nodes id).d)
          · rw [if_pos hpos]
            refine ⟨⟨fun h => by simp at h, ?_⟩, .inr rfl⟩
            rintro ⟨bin', hb', hc⟩
            cases hb'
            obtain ⟨_, _, i, hi', _, hp1, hp2⟩ := hc
            rw [hopen] at hi'
            cases hi'
            rw [hv, hstart] at hpos
            have hp2' : pos ≤ (region (nd bin.nodes id)).high
                (decide (VerticalAt bin.firstCutOrientation depth)) := hp2
            omega
          · rw [if_neg hpos]
            push Not at hpos
            refine ⟨⟨fun _ => ⟨bin, rfl, by omega, ⟨_, hlast, h1⟩, id, hopen, hi, ?_, ?_⟩,
              fun _ => rfl⟩, .inl rfl⟩
            · rw [← hstart]; exact hpos.1
            · rw [← hv]; exact hpos.2

/-- **C68**: an accepted `add_node` appends the strip between the end of the last strip and the
given position as the last node of the bin; the nodes already there keep their place in the tree
and in the bin, and no other bin changes. -/
theorem add_node_effect {depth pos : Int}
    (h : ((SolutionBuilder.run inst ops).addNode inst depth pos).2 = none) :
    ∃ before bin i bin' last, (SolutionBuilder.run inst ops).sol.bins = before ++ [bin]
      ∧ ((SolutionBuilder.run inst ops).addNode inst depth pos).1.sol.bins = before ++ [bin']
      ∧ openAt bin.nodes (depth - 1) = some i
      ∧ bin'.nodes.getLast? = some last
      ∧ last.f = some i ∧ last.d = depth ∧ last.children = [] ∧ last.itemTypeId = -1
      ∧ region last = ((region (bin.nodes.getD i default)).after
            (decide (VerticalAt bin.firstCutOrientation depth))
            (nextPos inst.parameters.cutThickness
              (decide (VerticalAt bin.firstCutOrientation depth)) bin.nodes i)).before
            (decide (VerticalAt bin.firstCutOrientation depth)) pos
      ∧ bin.nodes.length < bin'.nodes.length
      ∧ ∀ j < bin.nodes.length, (bin'.nodes.getD j default).f = (bin.nodes.getD j default).f
          ∧ (bin'.nodes.getD j default).d = (bin.nodes.getD j default).d
          ∧ region (bin'.nodes.getD j default) = region (bin.nodes.getD j default) := by
  have hrun := runInv_run (inst := inst) ops
  unfold SolutionBuilder.addNode at h ⊢
  cases hl : (SolutionBuilder.run inst ops).sol.bins.getLast? with
  | none => rw [hl] at h; simp at h
  | some bin =>
    rw [hl] at h
    dsimp only at h ⊢
    by_cases hd : depth < 1
    · rw [if_pos hd] at h; simp at h
    · rw [if_neg hd] at h ⊢
      dsimp only at h ⊢
      have hbi := (hrun.bins bin (List.mem_of_getLast? hl)).1
      have hlt := hbi.tree.base_lt
      obtain ⟨ini, hsplit⟩ := List.getLast?_eq_some_iff.mp hl
      rcases addNodeTo_spec (ct := inst.parameters.cutThickness) (o := bin.firstCutOrientation)
          (pos := pos) hbi.tree (by omega : 1 ≤ depth) with
        ⟨h1, he⟩ | ⟨h1, id, c1, c2, hid, hd5, nodes1, n1, n2, ht, ho, hext, hnd, hst, he⟩
      · rw [he] at h; simp at h
      · have hv : vert bin.firstCutOrientation (nd bin.nodes id).d
            = decide (VerticalAt bin.firstCutOrientation depth) := by
          unfold vert
          rw [hd5, Int.sub_add_cancel]
          exact verticalAt_iff (by omega)
        have hstart : start inst.parameters.cutThickness bin.firstCutOrientation bin.nodes id
            = nextPos inst.parameters.cutThickness
                (decide (VerticalAt bin.firstCutOrientation depth)) bin.nodes id := by
          unfold start nextPos
          rw [hv]
          rfl
        rw [he] at h ⊢
        by_cases hi : (nd bin.nodes id).f.isSome = true ∧ 0 ≤ (nd bin.nodes id).itemTypeId
        · rw [if_pos hi] at h; simp at h
        · rw [if_neg hi] at h ⊢
          dsimp only at h ⊢
          by_cases hpos : pos ≤ start inst.parameters.cutThickness bin.firstCutOrientation
                bin.nodes id
              ∨ pos > (region (nd bin.nodes id)).high
                  (vert bin.firstCutOrientation (nd bin.nodes id).d)
          · rw [if_pos hpos] at h; simp at h
          · rw [if_neg hpos]
            have halike : Alike nodes1 (if (nd bin.nodes id).f.isSome
                then nodes1.modify id (fun p => { p with itemTypeId := -2 }) else nodes1) := by
              by_cases hf : (nd bin.nodes id).f.isSome = true
              · rw [if_pos hf]; exact alike_modify id (-2)
              · rw [if_neg hf]; exact ⟨rfl, fun i => ⟨.refl _, rfl⟩⟩
            generalize hn2 : (if (nd bin.nodes id).f.isSome
                then nodes1.modify id (fun p => { p with itemTypeId := -2 }) else nodes1)
              = nodes2 at *
            obtain ⟨w1, w2, w3, w4, w5⟩ := childAt_spec (ct := inst.parameters.cutThickness)
              (o := bin.firstCutOrientation) (nodes := bin.nodes) (depth := depth) (pos := pos)
              (id := id)
            have hext2 : Extends bin.nodes (pushChild nodes2 id
                (childAt inst.parameters.cutThickness bin.firstCutOrientation bin.nodes id depth
                  pos)) := (hext.trans halike.extends).trans extends_push
            have hlen : nodes2.length = nodes1.length := halike.1
            generalize hN : childAt inst.parameters.cutThickness bin.firstCutOrientation
              bin.nodes id depth pos = w at *
            refine ⟨ini, bin, id, { bin with nodes := pushChild nodes2 id w }, w, hsplit, ?_, c1, ?_,
              w1, w2, w3, w4, ?_, ?_, ?_⟩
            · unfold SolutionBuilder.setNodes
              dsimp only
              rw [hsplit, modify_last_bin]
            · unfold pushChild
              simp
            · rw [w5, hv, hstart]
              rfl
            · dsimp only
              rw [length_push, hlen]
              have := hext.1
              omega
            · intro j hj
              exact hext2.2 j hj

/-- **C68**: `set_last_node_item` is accepted exactly if there is a bin, the item type exists and the
last node has its dimensions, possibly rotated; otherwise it throws `std::logic_error` and leaves
the builder unchanged. -/
theorem set_item_accepts_iff (ops : List Op) (i : Nat) :
    (((SolutionBuilder.run inst ops).setLastNodeItem inst i).2 = none
      ↔ i < inst.numberOfItemTypes
        ∧ ∃ bin last, (SolutionBuilder.run inst ops).sol.bins.getLast? = some bin
          ∧ bin.nodes.getLast? = some last
          ∧ ((last.r - last.l = (inst.itemType i).w ∧ last.t - last.b = (inst.itemType i).h)
            ∨ (last.r - last.l = (inst.itemType i).h ∧ last.t - last.b = (inst.itemType i).w)))
    ∧ (((SolutionBuilder.run inst ops).setLastNodeItem inst i).2 = none
      ∨ (SolutionBuilder.run inst ops).setLastNodeItem inst i
        = (SolutionBuilder.run inst ops, some .logicError)) := by
  have hrun := runInv_run (inst := inst) ops
  unfold SolutionBuilder.setLastNodeItem
  cases hl : (SolutionBuilder.run inst ops).sol.bins.getLast? with
  | none => exact ⟨by simp, .inr rfl⟩
  | some bin =>
    dsimp only
    by_cases hi : i ≥ inst.numberOfItemTypes
    · rw [if_pos hi]
      refine ⟨⟨fun h => by simp at h, ?_⟩, .inr rfl⟩
      rintro ⟨h, _⟩
      omega
    · rw [if_neg hi]
      have hbi := (hrun.bins bin (List.mem_of_getLast? hl)).1
      have hlt := hbi.tree.base_lt
      have hne : bin.nodes ≠ [] := by intro hh; rw [hh] at hlt; simp at hlt
      rw [getLast_nd hne]
      dsimp only
      by_cases hdim : dimensionsOk (inst.itemType i) (nd bin.nodes (bin.nodes.length - 1)) = true
      · rw [if_neg (by rw [hdim]; simp)]
        refine ⟨⟨fun _ => ⟨by omega, bin, _, rfl, getLast_nd hne, ?_⟩, fun _ => rfl⟩, .inl rfl⟩
        unfold dimensionsOk at hdim
        simpa using hdim
      · have hf : dimensionsOk (inst.itemType i) (nd bin.nodes (bin.nodes.length - 1)) = false := by
          revert hdim
          cases dimensionsOk (inst.itemType i) (nd bin.nodes (bin.nodes.length - 1)) <;> simp
        rw [if_pos (by rw [hf]; rfl)]
        refine ⟨⟨fun h => by simp at h, ?_⟩, .inr rfl⟩
        rintro ⟨_, bin', last, hb', hl', hdm⟩
        cases hb'
        rw [getLast_nd hne] at hl'
        cases hl'
        exfalso
        apply hdim
        unfold dimensionsOk
        simpa using hdm

/-- **C68**: `add_bin` is accepted exactly if the bin type exists; it appends a bin whose only leaf
is the bin without its hard trims.  Otherwise it throws `std::invalid_argument` and leaves the
builder unchanged. -/
theorem add_bin_accepts_iff (ops : List Op) (b : Nat) (c : Int) (o : CutOrientation) :
    (b < inst.numberOfBinTypes → Sized (inst.binType b) →
      ((SolutionBuilder.run inst ops).addBin inst b c o).2 = none
      ∧ ∃ bin last, ((SolutionBuilder.run inst ops).addBin inst b c o).1.sol.bins
          = (SolutionBuilder.run inst ops).sol.bins ++ [bin]
        ∧ bin.binTypeId = b ∧ bin.copies = c ∧ bin.firstCutOrientation = o
        ∧ bin.nodes.getLast? = some last ∧ region last = usable (inst.binType b) ∧ last.d = 0
        ∧ last.children = [])
    ∧ (inst.numberOfBinTypes ≤ b → (SolutionBuilder.run inst ops).addBin inst b c o
        = (SolutionBuilder.run inst ops, some .invalidArgument)) := by
  unfold SolutionBuilder.addBin
  constructor
  · intro hb hs
    rw [if_neg (by omega)]
    have hl := initialNodes_length (inst.binType b) b
    have hne : initialNodes (inst.binType b) b ≠ [] := by
      intro hh; rw [hh] at hl; simp at hl
    obtain ⟨h1, h2⟩ := initialNodes_base hs b
    refine ⟨rfl, _, _, rfl, rfl, rfl, rfl, getLast_nd hne, h1, h2, ?_⟩
    obtain ⟨root, tail, e, _, hc, _, h4⟩ := initialNodes_cons (inst.binType b) b
    have hm := nd_mem hl
    rw [e] at hm
    rcases List.mem_cons.mp hm with hh | hh
    · rw [← e] at hh
      have : nd (initialNodes (inst.binType b) b)
        ((initialNodes (inst.binType b) b).length - 1) = root := hh
      rw [this, hc]
    · rw [← e] at hh
      exact (h4 _ hh).2.1
  · intro hb
    rw [if_pos hb]

/-- The states of the example meet the hypotheses: calls of each kind are accepted and rejected. -/
example : ∃ ops1 ops2 ops3 : List Op,
    ((SolutionBuilder.run PatternEx.inst ops1).addNode PatternEx.inst 2 44).2 = none
    ∧ ((SolutionBuilder.run PatternEx.inst ops2).setLastNodeItem PatternEx.inst 0).2 = none
    ∧ ((SolutionBuilder.run PatternEx.inst ops3).addNode PatternEx.inst 2 59).2
        = some .logicError
    ∧ ((SolutionBuilder.run PatternEx.inst ops3).setLastNodeItem PatternEx.inst 5).2
        = some .logicError :=
  ⟨PatternEx.ops.take 4, PatternEx.ops.take 5, PatternEx.ops.take 11, by decide +kernel,
    by decide +kernel, by decide +kernel, by decide +kernel⟩

end

/-! ## Where the code does not do what one would expect -/

namespace PatternEx

/-- **C68, negative**: an `add_node` that throws may change the solution under construction: it
closes the nodes it has left and marks the node it would have cut. -/
theorem rejected_add_node_changes_builder :
    ∃ ops : List Op, ((SolutionBuilder.run inst ops).addNode inst 1 200).2 = some .logicError
      ∧ ((SolutionBuilder.run inst ops).addNode inst 1 200).1.sol
        ≠ (SolutionBuilder.run inst ops).sol :=
  ⟨ops.take 4, by decide +kernel, by decide +kernel⟩

/-- An instance whose item must not be rotated. -/
def instOriented : Instance := {
  objective := .binPackingWithLeftovers
  itemTypes := [{ w := 30, h := 20, copies := 1, oriented := true, resourceIds := [[]] }]
  binTypes := [{ w := 100, h := 60 }] }

/-- **C67, negative**: an item that must not be rotated may be packed rotated; the solution is
feasible. -/
theorem oriented_item_rotated :
    ∃ s, (SolutionBuilder.run instOriented [.addBin 0 1 .vertical, .addNode 1 20, .addNode 2 30,
        .setItem 0]).build instOriented = .ok s
      ∧ s.feasible = true ∧ (instOriented.itemType 0).oriented = true
      ∧ ∃ bin ∈ s.bins, ∃ n ∈ itemNodes bin, n.itemTypeId = 0
        ∧ n.r - n.l = (instOriented.itemType 0).h ∧ n.r - n.l ≠ (instOriented.itemType 0).w := by
  refine ⟨(match (SolutionBuilder.run instOriented [.addBin 0 1 .vertical, .addNode 1 20,
      .addNode 2 30, .setItem 0]).build instOriented with | .ok s => s | .error _ => {}),
    by decide +kernel, by decide +kernel, by decide +kernel, ?_⟩
  refine ⟨_, List.mem_singleton.mpr rfl, ?_⟩
  exact ⟨_, List.mem_singleton.mpr rfl, by decide +kernel, by decide +kernel, by decide +kernel⟩

/-- **C67, negative**: with the first cut orientation `any` every cut is horizontal, at every depth,
so a second stage cannot cut what the first has left. -/
theorem any_orientation_cuts_horizontally (d : Int) : isVerticalAt .any d = false := by
  unfold isVerticalAt
  simp

/-- A bin with a hard right trim and a soft top trim. -/
def binTrims : BinType :=
  { w := 100, h := 60, rightTrim := 10, rightTrimType := .hard, topTrim := 5 }

/-- **C67, negative**: with a hard right trim and a soft top trim, the trims in the solution
overlap: the corner is listed although the top trim is not cut. -/
theorem trims_overlap :
    ∃ n ∈ trimNodes binTrims, ∃ m ∈ trimNodes binTrims, n ≠ m
      ∧ n.l < m.r ∧ m.l < n.r ∧ n.b < m.t ∧ m.b < n.t :=
  ⟨trimNode 90 100 55 60, by decide, trimNode 90 100 0 60, by decide, by decide, by decide,
    by decide, by decide, by decide⟩

end PatternEx

end PackingSolver.Guil
