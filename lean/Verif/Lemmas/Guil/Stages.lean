import Verif.Lemmas.Guil.Build
import Verif.Spec.GuillotineStages

/-!
# Lemmas: stages of guillotine solutions, and when `build` is defined
-/

namespace PackingSolver.Guil

open Spec

variable {inst : Instance}

theorem whole_iff (nodes : List Node) (n : Node) :
    sameAsParent nodes n = decide (Whole nodes n) := by
  rw [Bool.eq_iff_iff, sameAsParent_iff, decide_eq_true_eq]
  exact Iff.rfl

theorem stagesReal_max (all : List Node) : ∀ (l : List Node) (m : Int), 0 ≤ m →
    (m ≤ l.foldl (fun m n => if sameAsParent all n then m else max m n.d) m)
    ∧ (∀ x ∈ (l.filter fun n => !decide (Whole all n)).map (·.d),
        x ≤ l.foldl (fun m n => if sameAsParent all n then m else max m n.d) m)
    ∧ (l.foldl (fun m n => if sameAsParent all n then m else max m n.d) m = m
      ∨ l.foldl (fun m n => if sameAsParent all n then m else max m n.d) m
        ∈ (l.filter fun n => !decide (Whole all n)).map (·.d)) := by
  intro l
  induction l with
  | nil => intro m _; exact ⟨le_refl _, by simp, .inl rfl⟩
  | cons a l ih =>
    intro m hm
    rw [List.foldl_cons, List.filter_cons]
    by_cases h : sameAsParent all a = true
    · have h' : ¬ (!decide (Whole all a)) = true := by rw [← whole_iff, h]; simp
      rw [if_pos h, if_neg h']
      exact ih m hm
    · have h' : (!decide (Whole all a)) = true := by
        rw [← whole_iff]
        revert h
        cases sameAsParent all a <;> simp
      rw [if_neg h, if_pos h', List.map_cons]
      obtain ⟨h1, h2, h3⟩ := ih (max m a.d) (le_trans hm (le_max_left _ _))
      refine ⟨le_trans (le_max_left _ _) h1, ?_, ?_⟩
      · intro x hx
        rcases List.mem_cons.mp hx with rfl | hx
        · exact le_trans (le_max_right _ _) h1
        · exact h2 x hx
      · rcases h3 with h3 | h3
        · rw [h3]
          rcases le_total m a.d with hle | hle
          · rw [max_eq_right hle]; right; exact List.mem_cons_self ..
          · rw [max_eq_left hle]; left; rfl
        · right; exact List.mem_cons_of_mem _ h3

theorem childCounts_eq (nodes : List Node) (n : Node) :
    childCounts nodes n = (((pieces nodes n).length : Int), ((itemPieces nodes n).length : Int)) := by
  unfold childCounts itemPieces pieces
  have key : ∀ (l : List Nat) (c : Int × Int), l.foldl (fun c i =>
      let child := nodes.getD i default
      if child.itemTypeId = -3 then c
      else (c.1 + 1, if child.itemTypeId ≥ 0 then c.2 + 1 else c.2)) c
      = (c.1 + ((((l.map fun i => nodes.getD i default).filter
            fun c => decide (c.itemTypeId ≠ -3)).length : Nat) : Int),
          c.2 + (((((l.map fun i => nodes.getD i default).filter
            fun c => decide (c.itemTypeId ≠ -3)).filter
              fun c => decide (0 ≤ c.itemTypeId)).length : Nat) : Int)) := by
    intro l
    induction l with
    | nil => intro c; simp
    | cons a l ih =>
      intro c
      rw [List.foldl_cons, ih, List.map_cons, List.filter_cons]
      generalize nodes.getD a default = x
      dsimp only
      by_cases h3 : x.itemTypeId = -3
      · rw [if_pos h3, if_neg (show ¬ decide (x.itemTypeId ≠ -3) = true by simpa using h3)]
      · rw [if_neg h3, if_pos (show decide (x.itemTypeId ≠ -3) = true from decide_eq_true h3),
          List.filter_cons]
        by_cases h0 : 0 ≤ x.itemTypeId
        · rw [if_pos h0, if_pos (by simpa using h0)]
          simp only [List.length_cons, Nat.cast_add, Nat.cast_one]
          ext <;> dsimp only <;> omega
        · rw [if_neg (by omega), if_neg (by simpa using h0)]
          simp only [List.length_cons, Nat.cast_add, Nat.cast_one]
          ext <;> dsimp only
          omega
  rw [key]
  simp

/-- One iteration of the second staging pass on a node of the last stage. -/
theorem stageStep_in {nodes : List Node} {real : Int} (s : StageLoop) {a : Node}
    (hc : ¬ (a.itemTypeId ≠ -2 ∨ a.d ≠ real - 1)) :
    (stageStep nodes real s a).found = true
    ∧ ((stageStep nodes real s a).allNonExact = true ↔ s.allNonExact = true ∧ TrimsOne nodes a)
    ∧ ((stageStep nodes real s a).allRoadef = true
        ↔ s.allRoadef = true ∧ (TrimsOne nodes a ∨ SplitsTwo nodes a))
    ∧ ((stageStep nodes real s a).anyRoadef = true
        ↔ s.anyRoadef = true ∨ (¬ TrimsOne nodes a ∧ SplitsTwo nodes a)) := by
  have hT : TrimsOne nodes a ↔ (childCounts nodes a).2 = 1 ∧ (childCounts nodes a).1 ≤ 2 := by
    rw [childCounts_eq]; unfold TrimsOne; dsimp only; omega
  have hS : SplitsTwo nodes a ↔ (childCounts nodes a).2 ≥ 2 ∧ (childCounts nodes a).1 ≤ 3 := by
    rw [childCounts_eq]; unfold SplitsTwo; dsimp only; omega
  unfold stageStep
  rw [if_neg hc]
  dsimp only
  rw [hT, hS]
  by_cases h1 : (childCounts nodes a).2 = 1 ∧ (childCounts nodes a).1 ≤ 2
  · rw [if_pos h1]
    simp [h1]
  · rw [if_neg h1]
    by_cases h2 : (childCounts nodes a).2 ≥ 2 ∧ (childCounts nodes a).1 ≤ 3
    · rw [if_pos h2]
      simp only [h1, h2, and_false, and_self, or_true, and_true, not_false_eq_true,
        Bool.false_eq_true]
    · rw [if_neg h2]
      simp only [h1, h2, and_false, or_false, Bool.false_eq_true, and_self]

/-- The second staging pass. -/
theorem stage_fold (nodes : List Node) (real : Int) : ∀ (l : List Node) (s : StageLoop),
    let r := l.foldl (stageStep nodes real) s
    let m := l.filter fun n => decide (n.itemTypeId = -2) && decide (n.d = real - 1)
    (r.found = true ↔ s.found = true ∨ m ≠ [])
    ∧ (r.allNonExact = true ↔ s.allNonExact = true ∧ ∀ n ∈ m, TrimsOne nodes n)
    ∧ (r.allRoadef = true ↔ s.allRoadef = true
        ∧ ∀ n ∈ m, TrimsOne nodes n ∨ SplitsTwo nodes n)
    ∧ (r.anyRoadef = true ↔ s.anyRoadef = true
        ∨ ∃ n ∈ m, ¬ TrimsOne nodes n ∧ SplitsTwo nodes n) := by
  intro l
  induction l with
  | nil => intro s; simp
  | cons a l ih =>
    intro s
    have := ih (stageStep nodes real s a)
    dsimp only at this ⊢
    obtain ⟨i1, i2, i3, i4⟩ := this
    rw [List.foldl_cons, List.filter_cons]
    by_cases hc : a.itemTypeId ≠ -2 ∨ a.d ≠ real - 1
    · have hs : stageStep nodes real s a = s := by unfold stageStep; rw [if_pos hc]
      have hf : ¬ (decide (a.itemTypeId = -2) && decide (a.d = real - 1)) = true := by
        rw [Bool.and_eq_true, decide_eq_true_eq, decide_eq_true_eq]
        rintro ⟨e1, e2⟩
        rcases hc with hc | hc
        · exact hc e1
        · exact hc e2
      rw [if_neg hf, hs]
      rw [hs] at i1 i2 i3 i4
      exact ⟨i1, i2, i3, i4⟩
    · have hf : (decide (a.itemTypeId = -2) && decide (a.d = real - 1)) = true := by
        push Not at hc
        rw [Bool.and_eq_true, decide_eq_true_eq, decide_eq_true_eq]
        exact hc
      rw [if_pos hf]
      obtain ⟨s1, s2, s3, s4⟩ := stageStep_in (nodes := nodes) s hc
      refine ⟨?_, ?_, ?_, ?_⟩
      · rw [i1, s1]
        exact ⟨fun _ => .inr (List.cons_ne_nil _ _), fun _ => .inl rfl⟩
      · rw [i2, s2, List.forall_mem_cons, and_assoc]
      · rw [i3, s3, List.forall_mem_cons, and_assoc]
      · rw [i4, s4, or_assoc]
        apply or_congr_right
        simp only [List.mem_cons, exists_eq_or_imp]

/-- The staging attributes of a bin. -/
theorem staged_stages {b b' : SolutionBin} (hf : FreshBin b) (h : Staged inst b b') :
    IsMaxWithZero (cutDepths b'.nodes) b'.numberOfStagesReal
    ∧ (LastStageFree inst.parameters.cutType b'.nodes b'.numberOfStagesReal →
        b'.numberOfStages = b'.numberOfStagesReal - 1)
    ∧ (¬ LastStageFree inst.parameters.cutType b'.nodes b'.numberOfStagesReal →
        b'.numberOfStages = b'.numberOfStagesReal) := by
  obtain ⟨c, rfl⟩ := h
  obtain ⟨_, f2, f3, f4, _⟩ := hf
  have hreal : (stageBin inst { b with resourceConsumption := c }).numberOfStagesReal
      = stagesReal b.nodes 0 := by
    show stagesReal b.nodes b.numberOfStagesReal = _
    rw [f2]
  have hnodes : (stageBin inst { b with resourceConsumption := c }).nodes = b.nodes := rfl
  rw [hreal, hnodes]
  obtain ⟨m1, m2, m3⟩ := stagesReal_max b.nodes b.nodes 0 (le_refl _)
  refine ⟨⟨m1, m2, m3⟩, ?_⟩
  have hst : (stageBin inst { b with resourceConsumption := c }).numberOfStages
      = (let real := stagesReal b.nodes 0
        let s := b.nodes.foldl (stageStep b.nodes real) {}
        let nonExact := if real > 0 ∧ s.found then s.allNonExact else false
        let roadef := if real > 0 ∧ s.found then s.allRoadef && s.anyRoadef else false
        let extra := (decide (inst.parameters.cutType = .nonExact) && nonExact)
          || (decide (inst.parameters.cutType = .roadef2018) && (nonExact || roadef))
        if extra then real - 1 else real) := by
    unfold stageBin
    dsimp only
    rw [f2, f3, f4]
  rw [hst]
  dsimp only
  obtain ⟨k1, k2, k3, k4⟩ := stage_fold b.nodes (stagesReal b.nodes 0) b.nodes {}
  generalize stagesReal b.nodes 0 = real at *
  generalize b.nodes.foldl (stageStep b.nodes real) {} = r at *
  have hL : (b.nodes.filter fun n => decide (n.itemTypeId = -2) && decide (n.d = real - 1))
      = lastCut b.nodes real := rfl
  rw [hL] at k1 k2 k3 k4
  simp only [Bool.false_eq_true, false_or, true_and] at k1 k2 k3 k4
  have hkey : ((decide (inst.parameters.cutType = .nonExact)
        && (if real > 0 ∧ r.found = true then r.allNonExact else false))
      || (decide (inst.parameters.cutType = .roadef2018)
        && ((if real > 0 ∧ r.found = true then r.allNonExact else false)
          || (if real > 0 ∧ r.found = true then r.allRoadef && r.anyRoadef else false)))) = true
      ↔ LastStageFree inst.parameters.cutType b.nodes real := by
    unfold LastStageFree
    by_cases hc : real > 0 ∧ r.found = true
    · rw [if_pos hc, if_pos hc]
      have hne := k1.mp hc.2
      simp only [Bool.or_eq_true, Bool.and_eq_true, decide_eq_true_eq]
      rw [k2, k3, k4]
      constructor
      · rintro (⟨h1, h2⟩ | ⟨h1, h2 | ⟨h2, _⟩⟩)
        · exact ⟨hc.1, hne, .inl ⟨h1, h2⟩⟩
        · exact ⟨hc.1, hne, .inr ⟨h1, fun n hn => .inl (h2 n hn)⟩⟩
        · exact ⟨hc.1, hne, .inr ⟨h1, h2⟩⟩
      · rintro ⟨_, _, ⟨h1, h2⟩ | ⟨h1, h2⟩⟩
        · exact .inl ⟨h1, h2⟩
        · right
          refine ⟨h1, ?_⟩
          by_cases hall : ∀ n ∈ lastCut b.nodes real, TrimsOne b.nodes n
          · exact .inl hall
          · right
            push Not at hall
            obtain ⟨n, hn, hnt⟩ := hall
            exact ⟨h2, n, hn, hnt, (h2 n hn).resolve_left hnt⟩
    · rw [if_neg hc, if_neg hc]
      constructor
      · intro h
        rcases Bool.or_eq_true _ _ ▸ h with h | h <;> simp at h
      · rintro ⟨h1, h2, _⟩
        exact absurd ⟨h1, k1.mpr h2⟩ hc
  constructor
  · intro h
    rw [if_pos (hkey.mpr h)]
  · intro h
    rw [if_neg (fun hh => h (hkey.mp hh))]

/-! ### When `build` is defined -/

theorem initialNodes_children (bt : BinType) (b : Nat) :
    ∀ n ∈ initialNodes bt b, n.children = [] := by
  intro n hn
  obtain ⟨root, tail, e, _, h2, _, h4⟩ := initialNodes_cons bt b
  rw [e] at hn
  rcases List.mem_cons.mp hn with rfl | hn
  · exact h2
  · exact (h4 n hn).2.1

theorem inRange_of {s : Solution} {k : Nat} (ht : TablesOk inst) (hk : k < s.bins.length)
    (h : DoneBin inst (s.bins.getD k default)) : s.inRange inst k = true := by
  unfold Solution.inRange
  dsimp only
  generalize hbin : s.bins.getD k default = bin at *
  simp only [Bool.and_eq_true, decide_eq_true_eq, List.all_eq_true]
  refine ⟨⟨⟨hk, h.type_lt⟩, ?_⟩, ?_⟩
  · by_cases ho : inst.objective = .binPackingCuttingCost
    · simp [ho, ht.costs ho]
    · simp [ho]
  · intro n hn
    obtain ⟨j, hj, rfl⟩ := mem_nd hn
    refine ⟨⟨?_, ?_⟩, ?_⟩
    · cases hf : (nd bin.nodes j).f with
      | none => rfl
      | some f =>
        have := h.tree.fathers j hj f hf
        simp only [decide_eq_true_eq]
        omega
    · intro c hc
      by_cases hb : base (inst.binType bin.binTypeId) bin.binTypeId ≤ j
      · rw [h.tree.kids j hb hj] at hc
        exact List.mem_range.mp (List.mem_filter.mp hc).1
      · have hl := initialNodes_length (inst.binType bin.binTypeId) bin.binTypeId
        have := h.tree.frame j (by omega)
        rw [this, initialNodes_children _ _ _ (nd_mem (by omega))] at hc
        cases hc
    · by_cases h0 : (nd bin.nodes j).itemTypeId < 0
      · rw [Bool.or_eq_true, Bool.or_eq_true]
        exact .inl (.inl (decide_eq_true h0))
      · cases hf : (nd bin.nodes j).f with
        | none =>
          have hd : (nd bin.nodes j).d < 1 := by
            by_contra hcon
            have := h.tree.shaped.deep j hj (by omega)
            rw [hf] at this
            cases this
          rw [Bool.or_eq_true, Bool.or_eq_true]
          exact .inl (.inr (by simp [hd]))
        | some f =>
          rw [Bool.or_eq_true]
          right
          obtain ⟨_, i, hi, he, _⟩ := h.tree.items j hj (by rw [hf]; rfl) (by omega)
          rw [he, Int.toNat_natCast]
          simp only [Bool.and_eq_true, decide_eq_true_eq, List.all_eq_true]
          refine ⟨⟨⟨hi, ?_⟩, ?_⟩, ?_⟩
          · have := ht.resourceRows i hi
            have := h.type_lt
            omega
          · intro r hr
            exact ht.resourceIds i hi _ h.type_lt r hr
          · by_cases hp : (inst.itemType i).stackPos > 0
            · rw [Bool.or_eq_true]
              right
              obtain ⟨a1, a2, a3, a4, a5⟩ := ht.predecessors i hi hp
              simp only [Bool.and_eq_true, decide_eq_true_eq]
              exact ⟨⟨⟨⟨a1, a2⟩, a3⟩, a4⟩, a5⟩
            · simp [hp]

/-- The flag of the minimum waste length of one call. -/
theorem updateNodes_waste (s : Solution) (k : Nat) :
    (s.updateNodes inst k).minimumWasteLengthFeasible = true
      ↔ s.minimumWasteLengthFeasible = true
        ∧ WasteOk inst (plateOf (s.bins.getD k default)) := by
  rw [wasteOk_iff]
  show (endLoop inst s (s.bins.getD k default)).sol.minimumWasteLengthFeasible = true ↔ _
  rw [runNodes_flag (fun s => s.minimumWasteLengthFeasible) _ (fun st n => step_waste st n)]
  exact Iff.rfl

theorem build_steps_cases {s : Solution} {n : Nat} (ht : TablesOk inst) (hn : n ≤ s.bins.length)
    (hdone : ∀ bin ∈ s.bins, DoneBin inst bin) (hw : s.minimumWasteLengthFeasible = true) :
    ((∃ s', (List.range n).foldlM (fun s pos => Solution.updateIndicators inst s pos) s = .ok s'
        ∧ s'.minimumWasteLengthFeasible = true)
      ∧ ∀ i < n, WasteOk inst (plateOf (s.bins.getD i default)))
    ∨ ((List.range n).foldlM (fun s pos => Solution.updateIndicators inst s pos) s = .error .exit
      ∧ ∃ i < n, ¬ WasteOk inst (plateOf (s.bins.getD i default))) := by
  induction n with
  | zero => exact .inl ⟨⟨s, rfl, hw⟩, by intro i hi; omega⟩
  | succ n ih =>
    rw [List.range_succ, List.foldlM_append]
    rcases ih (by omega) with ⟨⟨s1, e1, w1⟩, hall⟩ | ⟨e1, i, hi, hnw⟩
    · rw [e1]
      obtain ⟨i1, i2, i3, i4⟩ := build_steps e1
      have hget := i4 n (le_refl _)
      have hmem : s.bins.getD n default ∈ s.bins := by
        rw [List.getD_eq_getElem?_getD, List.getElem?_eq_getElem (by omega)]
        exact List.getElem_mem _
      have hr : s1.inRange inst n = true :=
        inRange_of ht (by omega) (by rw [hget]; exact hdone _ hmem)
      have hwn := updateNodes_waste (inst := inst) s1 n
      rw [hget] at hwn
      have hstep : (List.foldlM (fun s pos => Solution.updateIndicators inst s pos) s1 [n])
          = Solution.updateIndicators inst s1 n := by
        rw [List.foldlM_cons]
        cases Solution.updateIndicators inst s1 n <;> rfl
      by_cases hok : WasteOk inst (plateOf (s.bins.getD n default))
      · left
        have hflag := hwn.mpr ⟨w1, hok⟩
        refine ⟨⟨(s1.updateNodes inst n).updateFlags inst s1.waste, ?_, hflag⟩, ?_⟩
        · show List.foldlM (fun s pos => Solution.updateIndicators inst s pos) s1 [n] = _
          rw [hstep]
          unfold Solution.updateIndicators
          rw [if_pos hr]
          dsimp only
          rw [if_neg (by rw [hflag]; simp)]
        · intro i hi
          rcases Nat.lt_succ_iff_lt_or_eq.mp hi with h | rfl
          · exact hall i h
          · exact hok
      · right
        refine ⟨?_, n, by omega, hok⟩
        have hflag : (s1.updateNodes inst n).minimumWasteLengthFeasible = false := by
          cases hh : (s1.updateNodes inst n).minimumWasteLengthFeasible with
          | false => rfl
          | true => exact absurd (hwn.mp hh).2 hok
        show List.foldlM (fun s pos => Solution.updateIndicators inst s pos) s1 [n] = _
        rw [hstep]
        unfold Solution.updateIndicators
        rw [if_pos hr]
        dsimp only
        rw [if_pos (by rw [hflag]; rfl)]
    · right
      rw [e1]
      exact ⟨rfl, i, by omega, hnw⟩

end PackingSolver.Guil
