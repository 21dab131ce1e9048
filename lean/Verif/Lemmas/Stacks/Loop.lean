import Verif.Spec.StacksSolution
import Verif.Lemmas.OneDim.Indicators
import Mathlib.Data.List.GetD
import Mathlib.Algebra.Order.Field.Rat
import Mathlib.Algebra.BigOperators.Group.List.Basic
import Mathlib.Tactic.Linarith
import Mathlib.Tactic.Ring

/-! Helper lemmas: the loops of `update_indicators` of boxstacks solutions. -/

namespace PackingSolver.Stacks

open Spec
open PackingSolver.Box (Rotation)

/-! ### Adding to the weights of the groups -/

theorem addUpTo_aux (l : List ℚ) (d : ℚ) (n : Nat) :
    ((List.range n).foldl (fun l i => l.modify i (· + d)) l).length = l.length
    ∧ ∀ i, i < l.length → ((List.range n).foldl (fun l i => l.modify i (· + d)) l).getD i 0
      = l.getD i 0 + if i < n then d else 0 := by
  induction n with
  | zero => simp
  | succ n ih =>
    rw [List.range_succ, List.foldl_append]
    set r := (List.range n).foldl (fun l i => l.modify i (· + d)) l
    refine ⟨by simpa using ih.1, fun i hi => ?_⟩
    have hi' : i < r.length := by rw [ih.1]; exact hi
    have := ih.2 i hi
    rw [List.getD_eq_getElem _ _ hi'] at this
    simp only [List.foldl_cons, List.foldl_nil]
    rw [List.getD_eq_getElem _ _ (by simpa using hi'), List.getElem_modify, this]
    by_cases h : n = i
    · subst h; simp
    · rw [if_neg h]
      by_cases h2 : i < n
      · rw [if_pos h2, if_pos (by omega)]
      · rw [if_neg h2, if_neg (by omega)]

theorem addUpTo_length (l : List ℚ) (g : Nat) (d : ℚ) : (addUpTo l g d).length = l.length :=
  (addUpTo_aux l d (g + 1)).1

theorem addUpTo_getD (l : List ℚ) (g : Nat) (d : ℚ) {i : Nat} (hi : i < l.length) :
    (addUpTo l g d).getD i 0 = l.getD i 0 + if i ≤ g then d else 0 := by
  have := (addUpTo_aux l d (g + 1)).2 i hi
  unfold addUpTo
  rw [this]
  by_cases h : i ≤ g
  · rw [if_pos h, if_pos (by omega)]
  · rw [if_neg h, if_neg (by omega)]

/-! ### The items of a stack -/

/-- The view of an item. -/
abbrev viewItem (i : SolutionItem) : Nat × Rotation := (i.itemTypeId, i.rotation)

/-- The loop over the items. -/
abbrev runItems (inst : Instance) (c : Int) (st : ItemLoop) (l : List SolutionItem) : ItemLoop :=
  l.foldl (itemStep inst c) st

/-- `item_copies_` after a list of items. -/
def addItems (v : List Int) (c : Int) (l : List (Nat × Rotation)) : List Int :=
  l.foldl (fun v i => addAt v i.1 c) v

theorem addItems_append (v : List Int) (c : Int) (l m : List (Nat × Rotation)) :
    addItems v c (l ++ m) = addItems (addItems v c l) c m := List.foldl_append

theorem addAt_length (l : List Int) (i : Nat) (d : Int) : (addAt l i d).length = l.length := by
  simp [addAt]

theorem addAt_getD (l : List Int) (i : Nat) (d : Int) (j : Nat) (hj : j < l.length) :
    (addAt l i d).getD j 0 = l.getD j 0 + if i = j then d else 0 := by
  unfold addAt
  rw [List.getD_eq_getElem _ _ (by simpa using hj), List.getElem_modify, List.getD_eq_getElem _ _ hj]
  split_ifs <;> simp

theorem addItems_length (v : List Int) (c : Int) (l : List (Nat × Rotation)) :
    (addItems v c l).length = v.length := by
  induction l generalizing v with
  | nil => rfl
  | cons a l ih => rw [addItems, List.foldl_cons, ← addItems, ih, addAt_length]

theorem addItems_getD (v : List Int) (c : Int) (l : List (Nat × Rotation)) (j : Nat)
    (hj : j < v.length) : (addItems v c l).getD j 0 = v.getD j 0 + c * count l j := by
  induction l generalizing v with
  | nil => simp [addItems, count]
  | cons a l ih =>
    rw [addItems, List.foldl_cons, ← addItems, ih _ (by rwa [addAt_length]), addAt_getD _ _ _ _ hj]
    unfold count
    rw [List.countP_cons]
    by_cases h : a.1 = j
    · simp [h]; ring
    · simp [h]

variable {inst : Instance} {c : Int}

theorem z_eq (it : ItemType) (r : Rotation) : it.z r = (Box.Spec.rotated it.box r).z := by
  cases r <;> rfl

theorem x_eq (it : ItemType) (r : Rotation) : it.x r = (Box.Spec.rotated it.box r).x := by
  cases r <;> rfl

theorem y_eq (it : ItemType) (r : Rotation) : it.y r = (Box.Spec.rotated it.box r).y := by
  cases r <;> rfl

theorem runItems_snoc (st : ItemLoop) (l : List SolutionItem) (a : SolutionItem) :
    runItems inst c st (l ++ [a]) = itemStep inst c (runItems inst c st l) a := List.foldl_append

theorem runItems_place (st : ItemLoop) (l : List SolutionItem) :
    (runItems inst c st l).pile.xStart = st.pile.xStart
    ∧ (runItems inst c st l).pile.xEnd = st.pile.xEnd
    ∧ (runItems inst c st l).pile.yStart = st.pile.yStart
    ∧ (runItems inst c st l).pile.yEnd = st.pile.yEnd := by
  induction l using List.reverseRecOn with
  | nil => exact ⟨rfl, rfl, rfl, rfl⟩
  | append_singleton l a ih => rw [runItems_snoc]; exact ih

/-- The totals of the solution after the items of a stack. -/
theorem runItems_sol (st : ItemLoop) (l : List SolutionItem) :
    (runItems inst c st l).sol = { st.sol with
      numberOfItems := st.sol.numberOfItems + c * (l.length : Int)
      itemCopies := addItems st.sol.itemCopies c (l.map viewItem)
      itemVolume := st.sol.itemVolume + c * ((l.map fun i => itemHeight inst (viewItem i)
        * ((st.pile.xEnd - st.pile.xStart) * (st.pile.yEnd - st.pile.yStart))).sum)
      itemWeight := st.sol.itemWeight
        + (c : ℚ) * (l.map fun i => (inst.itemType i.itemTypeId).weight).sum
      itemProfit := st.sol.itemProfit
        + (c : ℚ) * (l.map fun i => (inst.itemType i.itemTypeId).profit).sum } := by
  induction l using List.reverseRecOn with
  | nil => simp [addItems]
  | append_singleton l a ih =>
    obtain ⟨h1, h2, h3, h4⟩ := runItems_place (inst := inst) (c := c) st l
    rw [runItems_snoc]
    simp only [itemStep, ih, h1, h2, h3, h4, List.map_append, List.sum_append, List.length_append,
      List.map_cons, List.map_nil, List.sum_cons, List.sum_nil, addItems_append]
    congr 1
    · simp; ring
    · rw [itemHeight, ← z_eq]; ring
    · ring
    · ring

/-- The items keep their types and rotations. -/
theorem runItems_items (st : ItemLoop) (l : List SolutionItem) :
    (runItems inst c st l).pile.items.map viewItem = st.pile.items.map viewItem ++ l.map viewItem := by
  induction l using List.reverseRecOn with
  | nil => simp
  | append_singleton l a ih =>
    rw [runItems_snoc]
    simp only [itemStep, List.map_append, ih, List.append_assoc]
    rfl

theorem runItems_first (st : ItemLoop) (hf : st.first = true) (l : List SolutionItem) :
    (runItems inst c st l).first = l.isEmpty := by
  induction l using List.reverseRecOn with
  | nil => simpa using hf
  | append_singleton l a ih => rw [runItems_snoc]; simp [itemStep]

theorem pileHeight_snoc (l : List (Nat × Rotation)) (a : Nat × Rotation) :
    pileHeight inst (l ++ [a]) = pileHeight inst l + itemHeight inst a
      - if l = [] then 0 else (inst.itemType a.1).nestingHeight := by
  unfold pileHeight
  cases l with
  | nil => simp
  | cons b l => simp; ring

/-- Heights in a stack. -/
theorem runItems_heights (st : ItemLoop) (hf : st.first = true) (hz : st.pile.zEnd = 0)
    (hi : st.pile.items = []) (l : List SolutionItem) :
    (runItems inst c st l).pile.zEnd = pileHeight inst (l.map viewItem)
    ∧ ∀ k (hk : k < (runItems inst c st l).pile.items.length),
        (runItems inst c st l).pile.items[k].zStart
          + itemHeight inst (viewItem (runItems inst c st l).pile.items[k])
        = pileHeight inst ((l.map viewItem).take (k + 1)) := by
  induction l using List.reverseRecOn with
  | nil => simp [hz, hi, pileHeight]
  | append_singleton l a ih =>
    have hz : (runItems inst c st (l ++ [a])).pile.zEnd
        = pileHeight inst ((l ++ [a]).map viewItem) := by
      rw [runItems_snoc, List.map_append, List.map_cons, List.map_nil, pileHeight_snoc]
      simp only [itemStep, runItems_first st hf l, ih.1]
      cases l with
      | nil => simp [pileHeight, itemHeight, z_eq]
      | cons b l => simp [itemHeight, z_eq]; ring
    refine ⟨hz, ?_⟩
    intro k hk
    have hlen : (runItems inst c st l).pile.items.length = l.length := by
      have := congrArg List.length (runItems_items (inst := inst) (c := c) st l)
      simpa [hi] using this
    have hit : (runItems inst c st (l ++ [a])).pile.items
        = (runItems inst c st l).pile.items ++ [{ a with zStart :=
            (runItems inst c st (l ++ [a])).pile.zEnd - itemHeight inst (viewItem a) }] := by
      rw [runItems_snoc]
      simp only [itemStep, itemHeight, z_eq]
      congr 3
      ring
    simp only [hit, List.length_append, List.length_cons, List.length_nil] at hk
    simp only [hit]
    by_cases hkl : k < l.length
    · rw [List.getElem_append_left (by omega), List.map_append,
        List.take_append_of_le_length (by simpa using hkl)]
      exact ih.2 k (by omega)
    · have : k = l.length := by omega
      subst this
      rw [List.getElem_append_right (by omega), List.take_of_length_le (by simp)]
      simp only [hlen, Nat.sub_self, List.getElem_cons_zero, hz, viewItem]
      ring

/-- The weights of the stack and of the bin after the items of a stack. -/
theorem runItems_weights (st : ItemLoop) (l : List SolutionItem) (x : ℚ)
    (hx : x = ((st.pile.xStart + st.pile.xEnd : Int) : ℚ) / 2) :
    (runItems inst c st l).binWeight.length = st.binWeight.length
    ∧ (runItems inst c st l).binWeightWeightedSum.length = st.binWeightWeightedSum.length
    ∧ (runItems inst c st l).pile.weight.length = st.pile.weight.length
    ∧ (runItems inst c st l).pile.weightWeightedSum.length = st.pile.weightWeightedSum.length
    ∧ (∀ g, g < st.binWeight.length → (runItems inst c st l).binWeight.getD g 0
        = st.binWeight.getD g 0 + weightFrom inst g (l.map viewItem))
    ∧ (∀ g, g < st.binWeightWeightedSum.length →
        (runItems inst c st l).binWeightWeightedSum.getD g 0
        = st.binWeightWeightedSum.getD g 0 + x * weightFrom inst g (l.map viewItem))
    ∧ (∀ g, g < st.pile.weight.length → (runItems inst c st l).pile.weight.getD g 0
        = st.pile.weight.getD g 0 + weightFrom inst g (l.map viewItem))
    ∧ (∀ g, g < st.pile.weightWeightedSum.length →
        (runItems inst c st l).pile.weightWeightedSum.getD g 0
        = st.pile.weightWeightedSum.getD g 0 + x * weightFrom inst g (l.map viewItem))
    ∧ (runItems inst c st l).binProfit = st.binProfit + itemsProfit inst (l.map viewItem)
    ∧ (runItems inst c st l).pile.profit = st.pile.profit + itemsProfit inst (l.map viewItem) := by
  induction l using List.reverseRecOn with
  | nil => simp [weightFrom, itemsProfit]
  | append_singleton l a ih =>
    obtain ⟨p1, p2, -, -⟩ := runItems_place (inst := inst) (c := c) st l
    obtain ⟨i1, i2, i3, i4, i5, i6, i7, i8, i9, i10⟩ := ih
    have hw : ∀ g, weightFrom inst g ((l ++ [a]).map viewItem)
        = weightFrom inst g (l.map viewItem)
          + if g ≤ (inst.itemType a.itemTypeId).groupId then (inst.itemType a.itemTypeId).weight
            else 0 := by
      intro g; simp [weightFrom]
    have hp : itemsProfit inst ((l ++ [a]).map viewItem)
        = itemsProfit inst (l.map viewItem) + (inst.itemType a.itemTypeId).profit := by
      simp [itemsProfit]
    have hm : ((st.pile.xStart : ℚ) + ((st.pile.xEnd - st.pile.xStart : Int) : ℚ) / 2) = x := by
      rw [hx]; push_cast; ring
    rw [runItems_snoc]
    simp only [itemStep, addUpTo_length, p1, p2, hw, hp]
    refine ⟨i1, i2, i3, i4, ?_, ?_, ?_, ?_, by rw [i9]; ring, by rw [i10]; ring⟩
    · intro g hg
      rw [addUpTo_getD _ _ _ (by rw [i1]; exact hg), i5 g hg]; ring
    · intro g hg
      rw [addUpTo_getD _ _ _ (by rw [i2]; exact hg), i6 g hg, hm]
      split_ifs <;> ring
    · intro g hg
      rw [addUpTo_getD _ _ _ (by rw [i3]; exact hg), i7 g hg]; ring
    · intro g hg
      rw [addUpTo_getD _ _ _ (by rw [i4]; exact hg), i8 g hg, hm]
      split_ifs <;> ring

end PackingSolver.Stacks
