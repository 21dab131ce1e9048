import Verif.Lemmas.Guil.NodeLoop

/-! Helper lemmas: 2-cuts, numbers of copies and stacks in the loop over the nodes. -/

namespace PackingSolver.Guil

open Spec

variable {inst : Instance} {bin : SolutionBin}

/-- What the counting of 2-cuts needs to know about the tree. -/
structure Shaped (nodes : List Node) : Prop where
  fathers : Fathers nodes
  deep : ∀ i < nodes.length, 1 ≤ (nd nodes i).d → (nd nodes i).f.isSome = true
  one : ∀ m < nodes.length, ∀ i, (nd nodes m).f = some i → (nd nodes i).d = 1 → (nd nodes m).d = 2
  two : ∀ m < nodes.length, (nd nodes m).d = 2 → ∃ a, a < m ∧ (nd nodes m).f = some a
    ∧ (nd nodes a).d = 1 ∧ ∀ j, a < j → j < m → 1 < (nd nodes j).d

theorem initialNodes_depth {bt : BinType} {b : Nat} : ∀ n ∈ initialNodes bt b, n.d ≤ 0 := by
  intro n hn
  have key : ∀ (c : Bool) (l r b t : Int), n ∈ (if c then [trimNode l r b t] else []) → n.d ≤ 0 := by
    intro c l r b t h
    cases c with
    | true =>
      have : n = trimNode l r b t := by simpa using h
      rw [this]; unfold trimNode childNode; simp
    | false => simp at h
  unfold initialNodes at hn
  dsimp only at hn
  by_cases h : (bt.hardLeft || bt.hardRight || bt.hardBottom || bt.hardTop) = true
  · rw [if_pos h] at hn
    rcases List.mem_append.mp hn with hn | hn
    · rcases List.mem_append.mp hn with hn | hn
      · rw [List.mem_singleton.mp hn]
      · unfold trimNodes at hn
        simp only [List.mem_append] at hn
        rcases hn with ((((((hn | hn) | hn) | hn) | hn) | hn) | hn) | hn <;> exact key _ _ _ _ _ hn
    · rw [List.mem_singleton.mp hn]; unfold childNode; simp
  · rw [if_neg h] at hn
    rw [List.mem_singleton.mp hn]

theorem Tree.shaped {bt : BinType} {b : Nat} {nodes : List Node} (h : Tree inst bt b nodes) :
    Shaped nodes := by
  have hil := initialNodes_length bt b
  have hlow : ∀ i < base bt b, (nd nodes i).d ≤ 0 := by
    intro i hi
    rw [h.frame i hi]
    exact initialNodes_depth _ (nd_mem (by omega))
  have hbase := h.depth_base
  have habove : ∀ i < nodes.length, 1 ≤ (nd nodes i).d → base bt b < i := by
    intro i hi hd
    by_contra hc
    rcases Nat.lt_or_ge i (base bt b) with hl | hl
    · have := hlow i hl; omega
    · have : i = base bt b := by omega
      rw [this, hbase] at hd; omega
  refine ⟨h.fathers, ?_, ?_, ?_⟩
  · intro i hi hd
    obtain ⟨a, ha, _⟩ := h.later i (habove i hi hd) hi
    rw [ha]; rfl
  · intro m hm i hf hd
    have him := h.fathers m hm i hf
    have hb := habove i (by omega) (by omega)
    obtain ⟨a, ha, _, _, hd', _⟩ := h.later m (by omega) hm
    rw [hf] at ha
    cases ha
    omega
  · intro m hm hd
    obtain ⟨a, ha, _, hlt, hd', hj⟩ := h.later m (habove m hm (by omega)) hm
    refine ⟨a, hlt, ha, by omega, ?_⟩
    intro j h1 h2
    have := hj j h1 h2
    omega

/-! ### 2-cuts -/

/-- The 2-cuts counted for node `i` among the first `m` nodes. -/
def cuts2 (o : CutOrientation) (nodes : List Node) (i m : Nat) : Nat :=
  (nodes.take m).countP fun n => decide (n.f = some i) && decide (end2 o n ≠ end2 o (nd nodes i))

theorem take_succ_nd {nodes : List Node} {m : Nat} (h : m < nodes.length) :
    nodes.take (m + 1) = nodes.take m ++ [nd nodes m] := by
  rw [List.take_add_one, List.getElem?_eq_getElem h]
  unfold nd
  rw [List.getD_eq_getElem?_getD, List.getElem?_eq_getElem h]
  rfl

theorem cuts2_succ {o : CutOrientation} {nodes : List Node} {i m : Nat} (h : m < nodes.length) :
    cuts2 o nodes i (m + 1) = cuts2 o nodes i m
      + if (nd nodes m).f = some i ∧ end2 o (nd nodes m) ≠ end2 o (nd nodes i) then 1 else 0 := by
  unfold cuts2
  rw [take_succ_nd h, List.countP_append, List.countP_singleton]
  by_cases h1 : (nd nodes m).f = some i ∧ end2 o (nd nodes m) ≠ end2 o (nd nodes i)
  · rw [if_pos h1, if_pos (by simp [h1.1, h1.2])]
  · rw [if_neg h1, if_neg (by simpa using h1)]

theorem runNodes_number2 {nodes : List Node} (hs : Shaped nodes) (st : NodeLoop)
    (hmax : inst.parameters.maximumNumber2Cuts ≥ 0) (ho : bin.firstCutOrientation ≠ .any)
    (m : Nat) (hm : m ≤ nodes.length) :
    (∀ a < m, (nd nodes a).d = 1 → (∀ j, a < j → j < m → (nd nodes j).d ≠ 1) →
      (runNodes inst bin st (nodes.take m)).subplateEnd
        = end2 bin.firstCutOrientation (nd nodes a)
      ∧ (runNodes inst bin st (nodes.take m)).number2Cuts
        = (cuts2 bin.firstCutOrientation nodes a m : Int))
    ∧ ((runNodes inst bin st (nodes.take m)).sol.maximumNumber2CutsFeasible = true
      ↔ st.sol.maximumNumber2CutsFeasible = true ∧ ∀ i < m, (nd nodes i).d = 1 →
        (cuts2 bin.firstCutOrientation nodes i m : Int) ≤ inst.parameters.maximumNumber2Cuts) := by
  induction m with
  | zero => exact ⟨fun a ha => absurd ha (by omega), by simp⟩
  | succ m ih =>
    obtain ⟨ih1, ih2⟩ := ih (by omega)
    have hlt : m < nodes.length := hm
    rw [take_succ_nd hlt, runNodes_snoc, step_subplateEnd, step_number2Cuts, step_number2]
    by_cases hd1 : (nd nodes m).d = 1
    · have hst : Starts2 inst (nd nodes m) := ⟨hmax, hd1⟩
      have hc : ¬ Counts2 inst bin (runNodes inst bin st (nodes.take m)) (nd nodes m) :=
        fun h => by have := h.2.1; omega
      rw [if_pos hst, if_pos hst, if_neg hc]
      have hzero : cuts2 bin.firstCutOrientation nodes m (m + 1) = 0 := by
        unfold cuts2
        rw [List.countP_eq_zero]
        intro n hn
        obtain ⟨j, hj, he⟩ := List.getElem_of_mem hn
        rw [List.length_take] at hj
        rw [List.getElem_take] at he
        have hj' : j < nodes.length := by omega
        have hnd : nd nodes j = n := by
          unfold nd
          rw [List.getD_eq_getElem?_getD, List.getElem?_eq_getElem hj', he]; rfl
        have hf : n.f ≠ some m := by
          intro hf
          have := hs.fathers j hj' m (by rw [hnd]; exact hf)
          omega
        simp [hf]
      have hsame : ∀ i < m, (nd nodes i).d = 1 →
          cuts2 bin.firstCutOrientation nodes i (m + 1)
            = cuts2 bin.firstCutOrientation nodes i m := by
        intro i hi hd
        have hne : ¬ ((nd nodes m).f = some i ∧ end2 bin.firstCutOrientation (nd nodes m)
            ≠ end2 bin.firstCutOrientation (nd nodes i)) := by
          rintro ⟨hf, _⟩
          have := hs.one m hlt i hf hd
          omega
        rw [cuts2_succ hlt, if_neg hne]
        omega
      refine ⟨?_, ?_⟩
      · intro a ha hda hj
        rcases Nat.lt_or_ge a m with hl | hl
        · exact absurd hd1 (hj m hl (by omega))
        · have : a = m := by omega
          subst this
          rw [hzero]
          exact ⟨rfl, rfl⟩
      · rw [ih2]
        refine and_congr_right fun _ => ?_
        constructor
        · intro h i hi hd
          rcases Nat.lt_or_ge i m with hl | hl
          · rw [hsame i hl hd]; exact h i hl hd
          · have : i = m := by omega
            rw [this, hzero]; exact hmax
        · intro h i hi hd
          rw [← hsame i hi hd]; exact h i (by omega) hd
    · have hst : ¬ Starts2 inst (nd nodes m) := fun h => hd1 h.2
      rw [if_neg hst, if_neg hst]
      by_cases hd2 : (nd nodes m).d = 2
      · obtain ⟨a, ham, hfa, hda, hja⟩ := hs.two m hlt hd2
        obtain ⟨e1, e2⟩ := ih1 a ham hda (fun j h1 h2 => by have := hja j h1 h2; omega)
        have hsame : ∀ i, i ≠ a → cuts2 bin.firstCutOrientation nodes i (m + 1)
            = cuts2 bin.firstCutOrientation nodes i m := by
          intro i hi
          have hne : ¬ ((nd nodes m).f = some i ∧ end2 bin.firstCutOrientation (nd nodes m)
              ≠ end2 bin.firstCutOrientation (nd nodes i)) := by
            rintro ⟨hf, _⟩
            rw [hfa] at hf
            cases hf
            exact hi rfl
          rw [cuts2_succ hlt, if_neg hne]
          omega
        have hlast : ∀ i < m + 1, (nd nodes i).d = 1 →
            (∀ j, i < j → j < m + 1 → (nd nodes j).d ≠ 1) → i = a := by
          intro i hi hd hj
          by_contra hne
          rcases Nat.lt_or_ge i a with hl | hl
          · exact hj a hl (by omega) hda
          · rcases Nat.lt_or_ge i m with hl2 | hl2
            · have := hja i (by omega) hl2; omega
            · have : i = m := by omega
              rw [this] at hd; omega
        by_cases hen : end2 bin.firstCutOrientation (nd nodes m)
            ≠ end2 bin.firstCutOrientation (nd nodes a)
        · have hc : Counts2 inst bin (runNodes inst bin st (nodes.take m)) (nd nodes m) :=
            ⟨hmax, hd2, ho, by rw [e1]; exact hen⟩
          have hsucc : cuts2 bin.firstCutOrientation nodes a (m + 1)
              = cuts2 bin.firstCutOrientation nodes a m + 1 := by
            rw [cuts2_succ hlt, if_pos ⟨hfa, hen⟩]
          rw [if_pos hc, if_pos hc, e1, e2]
          refine ⟨?_, ?_⟩
          · intro i hi hd hj
            rw [hlast i hi hd hj, hsucc]
            exact ⟨rfl, by push_cast; ring⟩
          · rw [Bool.and_eq_true, ih2, and_assoc]
            refine and_congr_right fun _ => ?_
            constructor
            · rintro ⟨h1, h2⟩ i hi hd
              have h2' : ¬ ((cuts2 bin.firstCutOrientation nodes a m : Int) + 1
                > inst.parameters.maximumNumber2Cuts) := by simpa using h2
              by_cases hia : i = a
              · rw [hia, hsucc]; push_cast; omega
              · rw [hsame i hia]
                rcases Nat.lt_or_ge i m with hl | hl
                · exact h1 i hl hd
                · have : i = m := by omega
                  rw [this] at hd; omega
            · intro h
              have ha := h a (by omega) hda
              rw [hsucc] at ha
              push_cast at ha
              have h2' : ¬ ((cuts2 bin.firstCutOrientation nodes a m : Int) + 1
                > inst.parameters.maximumNumber2Cuts) := by omega
              refine ⟨?_, by simpa using h2'⟩
              intro i hi hd
              by_cases hia : i = a
              · rw [hia]; omega
              · rw [← hsame i hia]; exact h i (by omega) hd
        · have hc : ¬ Counts2 inst bin (runNodes inst bin st (nodes.take m)) (nd nodes m) := by
            intro h
            have := h.2.2.2
            rw [e1] at this
            exact hen this
          have hsame' : ∀ i, cuts2 bin.firstCutOrientation nodes i (m + 1)
              = cuts2 bin.firstCutOrientation nodes i m := by
            intro i
            by_cases hia : i = a
            · have hne : ¬ ((nd nodes m).f = some i ∧ end2 bin.firstCutOrientation (nd nodes m)
                  ≠ end2 bin.firstCutOrientation (nd nodes i)) := by
                rintro ⟨_, h⟩
                rw [hia] at h
                exact hen h
              rw [cuts2_succ hlt, if_neg hne]
              omega
            · exact hsame i hia
          rw [if_neg hc, if_neg hc]
          refine ⟨?_, ?_⟩
          · intro i hi hd hj
            rw [hlast i hi hd hj, hsame' a]
            exact ⟨e1, e2⟩
          · rw [ih2]
            refine and_congr_right fun _ => ?_
            constructor
            · intro h i hi hd
              rw [hsame']
              rcases Nat.lt_or_ge i m with hl | hl
              · exact h i hl hd
              · have : i = m := by omega
                rw [this] at hd; omega
            · intro h i hi hd
              rw [← hsame']; exact h i (by omega) hd
      · have hc : ¬ Counts2 inst bin (runNodes inst bin st (nodes.take m)) (nd nodes m) :=
          fun h => hd2 h.2.1
        have hsame : ∀ i, (nd nodes i).d = 1 → cuts2 bin.firstCutOrientation nodes i (m + 1)
            = cuts2 bin.firstCutOrientation nodes i m := by
          intro i hd
          have hne : ¬ ((nd nodes m).f = some i ∧ end2 bin.firstCutOrientation (nd nodes m)
              ≠ end2 bin.firstCutOrientation (nd nodes i)) := by
            rintro ⟨hf, _⟩
            exact hd2 (hs.one m hlt i hf hd)
          rw [cuts2_succ hlt, if_neg hne]
          omega
        rw [if_neg hc, if_neg hc]
        refine ⟨?_, ?_⟩
        · intro i hi hd hj
          rcases Nat.lt_or_ge i m with hl | hl
          · rw [hsame i hd]
            exact ih1 i hl hd (fun j h1 h2 => hj j h1 (by omega))
          · have : i = m := by omega
            rw [this] at hd; omega
        · rw [ih2]
          refine and_congr_right fun _ => ?_
          constructor
          · intro h i hi hd
            rw [hsame i hd]
            rcases Nat.lt_or_ge i m with hl | hl
            · exact h i hl hd
            · have : i = m := by omega
              rw [this] at hd; omega
          · intro h i hi hd
            rw [← hsame i hd]; exact h i (by omega) hd

/-- Without a limit, or without an orientation, 2-cuts are not limited. -/
theorem runNodes_number2_none (st : NodeLoop) (l : List Node)
    (h : ¬ (inst.parameters.maximumNumber2Cuts ≥ 0 ∧ bin.firstCutOrientation ≠ .any)) :
    (runNodes inst bin st l).sol.maximumNumber2CutsFeasible
      = st.sol.maximumNumber2CutsFeasible := by
  induction l using List.reverseRecOn with
  | nil => rfl
  | append_singleton l a ih =>
    have hc : ¬ Counts2 inst bin (runNodes inst bin st l) a := fun hc => h ⟨hc.1, hc.2.2.1⟩
    rw [runNodes_snoc, step_number2, if_neg hc, ih]

/-! ### Numbers of copies -/

theorem addAt_getD (l : List Int) (i j : Nat) (d : Int) (hj : j < l.length) :
    (addAt l i d).getD j 0 = l.getD j 0 + if i = j then d else 0 := Rect.addAt_getD l i j d hj

theorem addAt_length (l : List Int) (i : Nat) (d : Int) : (addAt l i d).length = l.length :=
  Rect.addAt_length l i d

theorem runNodes_itemCopies_length (st : NodeLoop) (l : List Node) :
    (runNodes inst bin st l).sol.itemCopies.length = st.sol.itemCopies.length := by
  induction l using List.reverseRecOn with
  | nil => rfl
  | append_singleton l a ih =>
    rw [runNodes_snoc, step_itemCopies]
    by_cases hc : a.counted = true
    · rw [if_pos hc, addAt_length, ih]
    · rw [if_neg hc, ih]

theorem runNodes_itemCopies (st : NodeLoop) (l : List Node) (i : Nat)
    (hi : i < st.sol.itemCopies.length) :
    (runNodes inst bin st l).sol.itemCopies.getD i 0
      = st.sol.itemCopies.getD i 0 + bin.copies * ((itemsOf l).count i : Int) := by
  induction l using List.reverseRecOn with
  | nil => simp [itemsOf]
  | append_singleton l a ih =>
    rw [runNodes_snoc, step_itemCopies, itemsOf_snoc, List.count_append]
    by_cases hc : a.counted = true
    · rw [if_pos hc, if_pos hc, addAt_getD _ _ _ _ (by rw [runNodes_itemCopies_length]; exact hi), ih,
        List.count_singleton]
      by_cases he : a.itemTypeId.toNat = i
      · rw [if_pos he, if_pos (by simpa using he)]; push_cast; ring
      · rw [if_neg he, if_neg (by simpa using he)]; push_cast; ring
    · rw [if_neg hc, if_neg hc, ih]; simp

theorem runNodes_copiesFeasible (st : NodeLoop) (l : List Node)
    (hn : st.sol.itemCopies.length = inst.numberOfItemTypes) (hc : 0 ≤ bin.copies)
    (hl : ∀ i ∈ itemsOf l, i < inst.numberOfItemTypes)
    (h0 : st.sol.itemCopiesFeasible = true ↔ ∀ i < inst.numberOfItemTypes,
      st.sol.itemCopies.getD i 0 ≤ (inst.itemType i).copies) :
    (runNodes inst bin st l).sol.itemCopiesFeasible = true ↔ ∀ i < inst.numberOfItemTypes,
      (runNodes inst bin st l).sol.itemCopies.getD i 0 ≤ (inst.itemType i).copies := by
  induction l using List.reverseRecOn with
  | nil => exact h0
  | append_singleton l a ih =>
    have ih := ih fun i hi => hl i (by rw [itemsOf_snoc]; exact List.mem_append_left _ hi)
    rw [runNodes_snoc, step_itemCopies, step_itemCopiesFeasible]
    by_cases hct : a.counted = true
    · rw [if_pos hct, if_pos hct]
      have hid : a.itemTypeId.toNat < inst.numberOfItemTypes :=
        hl _ (by rw [itemsOf_snoc, if_pos hct]; simp)
      have hlen := runNodes_itemCopies_length (inst := inst) (bin := bin) st l
      have hget : ∀ i < inst.numberOfItemTypes,
          (addAt (runNodes inst bin st l).sol.itemCopies a.itemTypeId.toNat bin.copies).getD i 0
            = (runNodes inst bin st l).sol.itemCopies.getD i 0
              + if a.itemTypeId.toNat = i then bin.copies else 0 := by
        intro i hi
        exact addAt_getD _ _ _ _ (by omega)
      by_cases hgt : (addAt (runNodes inst bin st l).sol.itemCopies a.itemTypeId.toNat
          bin.copies).getD a.itemTypeId.toNat 0 > (inst.itemType a.itemTypeId.toNat).copies
      · rw [if_pos hgt]
        refine ⟨fun h => by simp at h, fun h => ?_⟩
        have := h _ hid
        omega
      · rw [if_neg hgt, ih]
        constructor
        · intro h i hi
          by_cases he : a.itemTypeId.toNat = i
          · subst he; omega
          · rw [hget i hi, if_neg he]
            have := h i hi
            omega
        · intro h i hi
          have := h i hi
          rw [hget i hi] at this
          split_ifs at this <;> omega
    · rw [if_neg hct, if_neg hct]
      exact ih

/-! ### Stacks -/

theorem runNodes_stacks (st : NodeLoop) (l : List Node) :
    (runNodes inst bin st l).sol.stacksFeasible = true ↔ st.sol.stacksFeasible = true
      ∧ ∀ first n rest, l = first ++ n :: rest →
        stackBroken inst (runNodes inst bin st (first ++ [n])).sol.itemCopies n = false := by
  induction l using List.reverseRecOn with
  | nil => simp
  | append_singleton l a ih =>
    rw [runNodes_snoc, step_stacks, Bool.and_eq_true, ih, and_assoc]
    refine and_congr_right fun _ => ?_
    constructor
    · rintro ⟨h1, h2⟩ first n rest he
      rcases List.eq_nil_or_concat rest with hr | ⟨rest', x, hr⟩
      · rw [hr] at he
        obtain ⟨e1, e2⟩ := List.append_inj' he rfl
        have e3 : a = n := by simpa using e2
        rw [← e1, ← e3, runNodes_snoc]
        simpa using h2
      · rw [hr, List.concat_eq_append, ← List.cons_append, ← List.append_assoc] at he
        obtain ⟨e1, e2⟩ := List.append_inj' he rfl
        exact h1 first n rest' e1
    · intro h
      refine ⟨fun first n rest he => h first n (rest ++ [a]) (by rw [he]; simp), ?_⟩
      have := h l a [] rfl
      rw [runNodes_snoc] at this
      rw [this]
      rfl

end PackingSolver.Guil
