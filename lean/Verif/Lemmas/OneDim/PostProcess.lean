import Verif.Model.OneDim.PostProcess
import Verif.Lemmas.OneDim.Positions
import Mathlib.Algebra.Order.Ring.Int
import Mathlib.Tactic.Abel

/-! Helper lemmas: grouping bins and enforcing the order. -/

namespace PackingSolver.OneDim

open OneDim.Spec

namespace PostLemmas

variable {inst : Instance}

/-- The listed bin at a position. -/
abbrev at' (s : Solution) (pos : Nat) : SolutionBin := s.bins.getD pos default

theorem mapId_nil (i : Nat) : mapId [] i = i := rfl

theorem relabel_nil (i : Nat) : relabel [] i = some i := rfl

theorem relabelItems_nil (items : List SolutionItem) : relabelItems [] items = some items := by
  unfold relabelItems
  induction items with
  | nil => rfl
  | cons a l ih =>
    rw [List.mapM_cons, ih]
    simp [relabel_nil]

theorem relabelBin_nil (b : PackedBin) : relabelBin [] [] b = b := by
  unfold relabelBin
  rw [show mapId [] = id from funext fun i => mapId_nil i]
  simp

/-- Appending a bin of a well-typed solution succeeds. -/
theorem appendBin_progress {s other : Solution} {pos : Nat} {copies : Int}
    (hg : Good inst s) (ho : WellTyped inst (packingOf other)) (hpos : pos < other.bins.length)
    (hc : 0 ≤ copies) :
    ∃ s', s.appendBin inst other pos copies [] [] = .ok s' ∧ Good inst s'
      ∧ packingOf s' = packingOf s ++ [{ viewBin (at' other pos) with copies := copies }]
      ∧ (inst.objective = .binPacking → s.binTypeOrderFeasible = true →
          OrderOk inst (packingOf s') → s'.binTypeOrderFeasible = true) := by
  have hd : at' other pos = other.bins[pos] := List.getD_eq_getElem _ _ hpos
  have hw : viewBin (at' other pos) ∈ packingOf other := by
    rw [hd]; exact List.mem_map.mpr ⟨_, List.getElem_mem hpos, rfl⟩
  have ht := ho _ hw
  obtain ⟨s', hs'⟩ : ∃ s', s.appendBin inst other pos copies [] [] = .ok s' := by
    unfold Solution.appendBin
    rw [List.getElem?_eq_getElem hpos]
    simp only [List.isEmpty_nil, Bool.not_true, Bool.false_and, Bool.false_eq_true, if_false,
      relabel_nil, relabelItems_nil]
    unfold Solution.pushBin Solution.updateIndicators
    rw [if_pos]
    · exact ⟨_, rfl⟩
    · simp only [Solution.inRange, Bool.and_eq_true, decide_eq_true_eq, List.all_eq_true]
      have hget : (s.bins ++ [(⟨other.bins[pos].binTypeId, copies,
          other.bins[pos].items, 0, 0, -1, .fin (-1), []⟩ : SolutionBin)]).getD s.bins.length default
          = ⟨other.bins[pos].binTypeId, copies, other.bins[pos].items, 0, 0, -1,
            .fin (-1), []⟩ := by
        simp [List.getD_eq_getElem?_getD]
      rw [hget]
      rw [hd] at ht
      refine ⟨⟨by simp, ht.1⟩, fun it hit => ht.2.2 it.itemTypeId ?_⟩
      exact List.mem_map.mpr ⟨it, hit, rfl⟩
  obtain ⟨-, hg', hv⟩ := appendBin_ok hg hc hs'
  have hv' : packingOf s' = packingOf s ++ [{ viewBin (at' other pos) with copies := copies }] := by
    rw [relabelBin_nil] at hv; exact hv
  refine ⟨s', hs', hg', hv', ?_⟩
  intro hobj hf hord
  have h := hs'
  unfold Solution.appendBin at h
  rw [List.getElem?_eq_getElem hpos] at h
  simp only [List.isEmpty_nil, Bool.not_true, Bool.false_and, Bool.false_eq_true, if_false,
    relabel_nil, relabelItems_nil] at h
  unfold Solution.pushBin Solution.updateIndicators at h
  split_ifs at h with hr
  cases h
  refine (order_step _ (by exact hg'.indic) hobj).mpr ⟨hf, fun _ => hord⟩

/-- Appending empty bins of an existing type succeeds. -/
theorem appendEmptyBin_progress {s : Solution} {t : Nat} {copies : Int}
    (hg : Good inst s) (ht : t < inst.numberOfBinTypes) (hc : 0 ≤ copies) :
    ∃ s', s.appendEmptyBin inst t copies = .ok s' ∧ Good inst s'
      ∧ packingOf s' = packingOf s ++ [⟨t, copies, []⟩]
      ∧ (inst.objective = .binPacking → s.binTypeOrderFeasible = true →
          OrderOk inst (packingOf s') → s'.binTypeOrderFeasible = true) := by
  obtain ⟨s', hs'⟩ : ∃ s', s.appendEmptyBin inst t copies = .ok s' := by
    unfold Solution.appendEmptyBin Solution.pushBin Solution.updateIndicators
    rw [if_pos]
    · exact ⟨_, rfl⟩
    · simp only [Solution.inRange, Bool.and_eq_true, decide_eq_true_eq, List.all_eq_true]
      have hget : (s.bins ++ [({ binTypeId := t, copies := copies } : SolutionBin)]).getD
          s.bins.length default = { binTypeId := t, copies := copies } := by
        simp [List.getD_eq_getElem?_getD]
      rw [hget]
      exact ⟨⟨by simp, ht⟩, by simp⟩
  obtain ⟨hg', hv⟩ := appendEmptyBin_ok hg hc hs'
  refine ⟨s', hs', hg', hv, ?_⟩
  intro hobj hf hord
  have h := hs'
  unfold Solution.appendEmptyBin Solution.pushBin Solution.updateIndicators at h
  split_ifs at h with hr
  cases h
  exact (order_step _ (by exact hg'.indic) hobj).mpr ⟨hf, fun _ => hord⟩

/-! ### Groups -/

/-- The bins listed by a list of groups. -/
def groupView (s : Solution) (gs : List (Nat × Int)) : Packing :=
  gs.map fun g => { viewBin (at' s g.1) with copies := g.2 }

/-- Weighted sum of a function of the content of the bins. -/
def wsum {M : Type} [AddCommMonoid M] (w : Int → Nat → List Nat → M) (p : Packing) : M :=
  (p.map fun b => w b.copies b.binTypeId b.items).sum

theorem addToGroup_sum {M : Type} [AddCommMonoid M] (w : Int → Nat → List Nat → M)
    (hw : ∀ a b t l, w (a + b) t l = w a t l + w b t l) (s : Solution) (bin : SolutionBin)
    (gs gs' : List (Nat × Int)) (h : addToGroup s bin gs = some gs') :
    wsum w (groupView s gs')
      = wsum w (groupView s gs) + w bin.copies bin.binTypeId (ids bin.items) := by
  induction gs generalizing gs' with
  | nil => simp [addToGroup] at h
  | cons g gs ih =>
    unfold addToGroup at h
    split_ifs at h with hs
    · cases h
      simp only [sameBin, Bool.and_eq_true, decide_eq_true_eq] at hs
      simp only [wsum, groupView, List.map_cons, List.sum_cons, hw]
      rw [hs.1, hs.2]
      abel
    · obtain ⟨gs1, h1, rfl⟩ := Option.map_eq_some_iff.mp h
      have := ih gs1 h1
      simp only [wsum, groupView, List.map_cons, List.sum_cons] at this ⊢
      rw [this]
      abel

theorem addToGroup_fst (s : Solution) (bin : SolutionBin)
    (gs gs' : List (Nat × Int)) (h : addToGroup s bin gs = some gs') :
    gs'.map Prod.fst = gs.map Prod.fst := by
  induction gs generalizing gs' with
  | nil => simp [addToGroup] at h
  | cons g gs ih =>
    unfold addToGroup at h
    split_ifs at h with hs
    · cases h; rfl
    · obtain ⟨gs1, h1, rfl⟩ := Option.map_eq_some_iff.mp h
      simp [ih gs1 h1]

theorem addToGroup_none (s : Solution) (bin : SolutionBin) (gs : List (Nat × Int))
    (h : addToGroup s bin gs = none) : ∀ g ∈ gs, sameBin (at' s g.1) bin = false := by
  induction gs with
  | nil => simp
  | cons g gs ih =>
    unfold addToGroup at h
    split_ifs at h with hs
    rw [Option.map_eq_none_iff] at h
    intro x hx
    rcases List.mem_cons.mp hx with rfl | hx
    · simpa using hs
    · exact ih h x hx

theorem addToGroup_some_mem (s : Solution) (bin : SolutionBin) (gs gs' : List (Nat × Int))
    (h : addToGroup s bin gs = some gs') : ∃ g ∈ gs, sameBin (at' s g.1) bin = true := by
  induction gs generalizing gs' with
  | nil => simp [addToGroup] at h
  | cons g gs ih =>
    unfold addToGroup at h
    split_ifs at h with hs
    · exact ⟨g, by simp, hs⟩
    · obtain ⟨gs1, h1, rfl⟩ := Option.map_eq_some_iff.mp h
      obtain ⟨x, hx, he⟩ := ih gs1 h1
      exact ⟨x, by simp [hx], he⟩

theorem addToGroup_nonneg (s : Solution) (bin : SolutionBin) (hb : 0 ≤ bin.copies)
    (gs gs' : List (Nat × Int)) (h : addToGroup s bin gs = some gs') (hg : ∀ g ∈ gs, 0 ≤ g.2) :
    ∀ g ∈ gs', 0 ≤ g.2 := by
  induction gs generalizing gs' with
  | nil => simp [addToGroup] at h
  | cons g gs ih =>
    unfold addToGroup at h
    have h0 := hg g (by simp)
    split_ifs at h with hs
    · cases h
      intro x hx
      rcases List.mem_cons.mp hx with rfl | hx
      · dsimp only; omega
      · exact hg x (by simp [hx])
    · obtain ⟨gs1, h1, rfl⟩ := Option.map_eq_some_iff.mp h
      intro x hx
      rcases List.mem_cons.mp hx with rfl | hx
      · exact h0
      · exact ih gs1 h1 (fun y hy => hg y (by simp [hy])) x hx

/-- Invariant of the grouping loop. -/
structure Groups (s : Solution) (n : Nat) (gs : List (Nat × Int)) : Prop where
  lt : ∀ g ∈ gs, g.1 < n
  nonneg : ∀ g ∈ gs, 0 ≤ g.2
  distinct : gs.Pairwise fun g g' => sameBin (at' s g.1) (at' s g'.1) = false
  covers : ∀ pos, pos < n → ∃ g ∈ gs, sameBin (at' s g.1) (at' s pos) = true

theorem groups_loop (s : Solution) (hc : ∀ b ∈ s.bins, 0 ≤ b.copies) (n : Nat)
    (hn : n ≤ s.bins.length) : Groups s n ((List.range n).foldl (groupStep s) []) := by
  induction n with
  | zero => exact ⟨by simp, by simp, by simp, by simp⟩
  | succ n ih =>
    rw [List.range_succ, List.foldl_append]
    simp only [List.foldl_cons, List.foldl_nil]
    have ih := ih (by omega)
    generalize (List.range n).foldl (groupStep s) [] = gs at ih ⊢
    have hcn : 0 ≤ (at' s n).copies := by
      rw [show at' s n = s.bins[n] from List.getD_eq_getElem _ _ (by omega)]
      exact hc _ (List.getElem_mem _)
    unfold groupStep
    dsimp only
    cases h : addToGroup s (s.bins.getD n default) gs with
    | none =>
      have hnone := addToGroup_none _ _ _ h
      simp only [Option.getD_none]
      refine ⟨?_, ?_, ?_, ?_⟩
      · rw [forall_mem_snoc]
        exact ⟨fun g hg => Nat.lt_succ_of_lt (ih.lt g hg), Nat.lt_succ_self n⟩
      · rw [forall_mem_snoc]; exact ⟨ih.nonneg, hcn⟩
      · rw [List.pairwise_append]
        refine ⟨ih.distinct, by simp, fun g hg g' hg' => ?_⟩
        rw [List.mem_singleton.mp hg']
        exact hnone g hg
      · intro pos hpos
        rcases Nat.lt_succ_iff_lt_or_eq.mp hpos with hlt | rfl
        · obtain ⟨g, hg, he⟩ := ih.covers pos hlt
          exact ⟨g, by simp [hg], he⟩
        · exact ⟨(pos, (at' s pos).copies), by simp, by simp [sameBin]⟩
    | some gs' =>
      simp only [Option.getD_some]
      have hfst := addToGroup_fst _ _ _ _ h
      have hmem : ∀ {P : Nat → Prop}, (∀ g ∈ gs', P g.1) ↔ ∀ g ∈ gs, P g.1 := by
        intro P
        rw [← List.forall_mem_map (f := Prod.fst), hfst, List.forall_mem_map]
      have hex : ∀ {P : Nat → Prop}, (∃ g ∈ gs, P g.1) → ∃ g ∈ gs', P g.1 := by
        rintro P ⟨g, hg, hP⟩
        have h1 : g.1 ∈ gs'.map Prod.fst := by rw [hfst]; exact List.mem_map.mpr ⟨g, hg, rfl⟩
        obtain ⟨g', hg', he⟩ := List.mem_map.mp h1
        exact ⟨g', hg', by rw [he]; exact hP⟩
      refine ⟨?_, addToGroup_nonneg _ _ hcn _ _ h ih.nonneg, ?_, ?_⟩
      · exact (hmem (P := fun k => k < n + 1)).mpr fun g hg => Nat.lt_succ_of_lt (ih.lt g hg)
      · have h1 := ih.distinct
        have h2 : (gs.map Prod.fst).Pairwise
            fun a b => sameBin (at' s a) (at' s b) = false := by
          rw [List.pairwise_map]; exact h1
        rw [← hfst, List.pairwise_map] at h2
        exact h2
      · intro pos hpos
        rcases Nat.lt_succ_iff_lt_or_eq.mp hpos with hlt | rfl
        · exact hex (P := fun k => sameBin (at' s k) (at' s pos) = true) (ih.covers pos hlt)
        · exact hex (P := fun k => sameBin (at' s k) (at' s pos) = true)
            (addToGroup_some_mem _ _ _ _ h)

theorem groups_sum {M : Type} [AddCommMonoid M] (w : Int → Nat → List Nat → M)
    (hw : ∀ a b t l, w (a + b) t l = w a t l + w b t l) (s : Solution) :
    wsum w (groupView s (binGroups s)) = wsum w (packingOf s) := by
  unfold binGroups
  have key : ∀ n, n ≤ s.bins.length →
      wsum w (groupView s ((List.range n).foldl (groupStep s) []))
        = wsum w ((packingOf s).take n) := by
    intro n hn
    induction n with
    | zero => simp [wsum, groupView]
    | succ n ih =>
      rw [List.range_succ, List.foldl_append]
      simp only [List.foldl_cons, List.foldl_nil]
      have ih := ih (by omega)
      generalize (List.range n).foldl (groupStep s) [] = gs at ih ⊢
      have hlen : n < (packingOf s).length := by simp [packingOf]; omega
      have hget : (packingOf s)[n] = viewBin (at' s n) := by
        simp only [packingOf, List.getElem_map]
        rw [show at' s n = s.bins[n]'(by omega) from List.getD_eq_getElem _ _ (by omega)]
      have hr : wsum w ((packingOf s).take (n + 1))
          = wsum w ((packingOf s).take n)
            + w (at' s n).copies (at' s n).binTypeId (ids (at' s n).items) := by
        rw [List.take_succ_eq_append_getElem hlen, hget]
        simp [wsum]
      rw [hr, ← ih]
      unfold groupStep
      dsimp only
      cases h : addToGroup s (s.bins.getD n default) gs with
      | none => simp [wsum, groupView]
      | some gs' =>
        simp only [Option.getD_some]
        exact addToGroup_sum w hw _ _ _ _ h
  have := key s.bins.length (le_refl _)
  rwa [List.take_of_length_le (by simp [packingOf])] at this

/-- Appending listed bins one by one. -/
theorem appendList_progress {s other : Solution} (gs : List (Nat × Int)) (hg : Good inst s)
    (ho : WellTyped inst (packingOf other)) (hlt : ∀ g ∈ gs, g.1 < other.bins.length)
    (hc : ∀ g ∈ gs, 0 ≤ g.2) :
    ∃ s', gs.foldlM (fun n g => n.appendBin inst other g.1 g.2 [] []) s = .ok s' ∧ Good inst s'
      ∧ packingOf s' = packingOf s ++ groupView other gs
      ∧ (inst.objective = .binPacking → s.binTypeOrderFeasible = true →
          (∀ k, k ≤ gs.length → OrderOk inst (packingOf s ++ groupView other (gs.take k))) →
          s'.binTypeOrderFeasible = true) := by
  induction gs generalizing s with
  | nil => exact ⟨s, rfl, hg, by simp [groupView], fun _ h _ => h⟩
  | cons g gs ih =>
    obtain ⟨s1, h1, hg1, hv1, ho1⟩ := appendBin_progress hg ho (hlt g (by simp)) (hc g (by simp))
    obtain ⟨s2, h2, hg2, hv2, ho2⟩ := ih hg1 (fun x hx => hlt x (by simp [hx]))
      (fun x hx => hc x (by simp [hx]))
    refine ⟨s2, foldlM_cons_ok.mpr ⟨s1, h1, h2⟩, hg2, ?_, ?_⟩
    · rw [hv2, hv1]
      simp [groupView]
    · intro hobj hf hord
      refine ho2 hobj (ho1 hobj hf ?_) fun k hk => ?_
      · rw [hv1]
        have := hord 1 (by simp)
        simpa [groupView] using this
      · rw [hv1]
        have := hord (k + 1) (by simpa using hk)
        simpa [groupView] using this

theorem mapM_pairs {s other : Solution} (l : List Nat) :
    l.foldlM (fun n pos => n.appendBin inst other pos 1 [] []) s
      = (l.map fun pos => (pos, (1 : Int))).foldlM
          (fun n g => n.appendBin inst other g.1 g.2 [] []) s := by
  induction l generalizing s with
  | nil => rfl
  | cons a l ih =>
    rw [List.map_cons, List.foldlM_cons, List.foldlM_cons]
    congr 1
    funext x
    exact ih

/-! ### Enforcing the order -/

/-- The bins of type `t` in the enforced solution. -/
def block (inst : Instance) (s : Solution) (last t : Nat) : Packing :=
  let target : Int := if t < last then (inst.binType t).copies else (binPositions s t).length
  groupView s (((binPositions s t).take target.toNat).map fun pos => (pos, (1 : Int)))
    ++ if target > (binPositions s t).length then [⟨t, target - (binPositions s t).length, []⟩]
       else []

theorem mem_binPositions {s : Solution} {t pos : Nat} (h : pos ∈ binPositions s t) :
    pos < s.bins.length ∧ (at' s pos).binTypeId = t := by
  unfold binPositions at h
  obtain ⟨p, hp, hm⟩ := List.mem_flatMap.mp h
  split_ifs at hm with ht
  · rw [List.eq_of_mem_replicate hm]
    exact ⟨List.mem_range.mp hp, ht⟩
  · simp at hm

theorem w_nat {M : Type} [AddCommGroup M] {w : Int → Nat → List Nat → M}
    (hw : ∀ a b t l, w (a + b) t l = w a t l + w b t l) (n t : Nat) (l : List Nat) :
    w (n : Int) t l = n • w 1 t l := by
  have h0 : w 0 t l = 0 := by
    have := hw 0 0 t l
    rw [add_zero] at this
    exact left_eq_add.mp this
  induction n with
  | zero => simpa using h0
  | succ n ih => rw [Nat.cast_succ, hw, ih, succ_nsmul]

theorem positions_sum {M : Type} [AddCommGroup M] (f : Nat → M) (s : Solution) (t : Nat) :
    ((binPositions s t).map f).sum = ∑ pos ∈ Finset.range s.bins.length,
      if (at' s pos).binTypeId = t then (at' s pos).copies.toNat • f pos else 0 := by
  unfold binPositions
  generalize s.bins.length = n
  induction n with
  | zero => simp
  | succ n ih =>
    rw [List.range_succ, List.flatMap_append, List.map_append, List.sum_append, ih,
      Finset.sum_range_succ]
    congr 1
    simp only [List.flatMap_cons, List.flatMap_nil, List.append_nil]
    split_ifs <;> simp

theorem packing_sum {M : Type} [AddCommGroup M] (w : Int → Nat → List Nat → M) (s : Solution) :
    wsum w (packingOf s) = ∑ pos ∈ Finset.range s.bins.length,
      w (at' s pos).copies (at' s pos).binTypeId (ids (at' s pos).items) := by
  unfold wsum packingOf at'
  rw [List.map_map]
  generalize s.bins = l
  induction l using List.reverseRecOn with
  | nil => simp
  | append_singleton l a ih =>
    rw [List.map_append, List.sum_append, ih, List.length_append, List.length_singleton,
      Finset.sum_range_succ]
    congr 1
    · refine Finset.sum_congr rfl fun i hi => ?_
      rw [List.getD_append _ _ _ _ (Finset.mem_range.mp hi)]
    · simp [List.getD_eq_getElem?_getD]

theorem positions_length {s : Solution} (hc : ∀ b ∈ s.bins, 0 ≤ b.copies) (t : Nat) :
    ((binPositions s t).length : Int) = Spec.binCopies (packingOf s) t := by
  have h1 := positions_sum (fun _ => (1 : Int)) s t
  have h2 := packing_sum (fun c u _ => if u = t then c else 0) s
  have h3 : wsum (fun c u _ => if u = t then c else (0 : Int)) (packingOf s)
      = Spec.binCopies (packingOf s) t := rfl
  rw [← h3, h2]
  rw [List.map_const', List.sum_replicate] at h1
  simp only [nsmul_eq_mul, mul_one] at h1
  rw [h1]
  refine Finset.sum_congr rfl fun pos hpos => ?_
  have hlt := Finset.mem_range.mp hpos
  have : 0 ≤ (at' s pos).copies := by
    rw [show at' s pos = s.bins[pos] from List.getD_eq_getElem _ _ hlt]
    exact hc _ (List.getElem_mem hlt)
  split_ifs
  · omega
  · rfl

theorem groupView_ones_sum {M : Type} [AddCommGroup M] (w : Int → Nat → List Nat → M)
    (s : Solution) (l : List Nat) :
    wsum w (groupView s (l.map fun pos => (pos, (1 : Int))))
      = (l.map fun pos => w 1 (at' s pos).binTypeId (ids (at' s pos).items)).sum := by
  simp [wsum, groupView, List.map_map, Function.comp_def]

theorem wsum_append {M : Type} [AddCommGroup M] (w : Int → Nat → List Nat → M) (p q : Packing) :
    wsum w (p ++ q) = wsum w p + wsum w q := by
  simp [wsum]

/-- A block of the enforced solution keeps every total that empty bins do not change. -/
theorem block_sum {M : Type} [AddCommGroup M] (w : Int → Nat → List Nat → M)
    (hw : ∀ a b t l, w (a + b) t l = w a t l + w b t l) (h0 : ∀ a t, w a t [] = 0)
    {s : Solution} (hc : ∀ b ∈ s.bins, 0 ≤ b.copies) (last t : Nat)
    (hle : t < last → Spec.binCopies (packingOf s) t ≤ (inst.binType t).copies) :
    wsum w (block inst s last t) = ∑ pos ∈ Finset.range s.bins.length,
      if (at' s pos).binTypeId = t then
        w (at' s pos).copies (at' s pos).binTypeId (ids (at' s pos).items) else 0 := by
  unfold block
  dsimp only
  have htake : (binPositions s t).take
      (if t < last then (inst.binType t).copies else ((binPositions s t).length : Int)).toNat
      = binPositions s t := by
    apply List.take_of_length_le
    split_ifs with h
    · have := hle h
      rw [← positions_length hc] at this
      omega
    · omega
  have hempty : ∀ (P : Prop) [Decidable P] (c : Int),
      wsum w (if P then [⟨t, c, []⟩] else []) = 0 := by
    intro P _ c
    split_ifs <;> simp [wsum, h0]
  rw [wsum_append, hempty, add_zero, htake, groupView_ones_sum, positions_sum]
  refine Finset.sum_congr rfl fun pos hpos => ?_
  have hlt := Finset.mem_range.mp hpos
  have hn : 0 ≤ (at' s pos).copies := by
    rw [show at' s pos = s.bins[pos] from List.getD_eq_getElem _ _ hlt]
    exact hc _ (List.getElem_mem hlt)
  split_ifs
  · rw [← w_nat hw, Int.toNat_of_nonneg hn]
  · rfl

theorem block_binCopies {s : Solution} (last t u : Nat)
    (hn : t < last → 0 ≤ (inst.binType t).copies) :
    Spec.binCopies (block inst s last t) u
      = if t = u then (if t < last then (inst.binType t).copies else (binPositions s t).length)
        else 0 := by
  unfold block
  dsimp only
  set target : Int := if t < last then (inst.binType t).copies else (binPositions s t).length
    with ht
  have hpos : 0 ≤ target := by rw [ht]; split_ifs with h; exacts [hn h, by omega]
  have h1 : ∀ l : List Nat, (∀ pos ∈ l, (at' s pos).binTypeId = t) →
      Spec.binCopies (groupView s (l.map fun pos => (pos, (1 : Int)))) u
        = if t = u then (l.length : Int) else 0 := by
    intro l hl
    unfold Spec.binCopies groupView
    rw [List.map_map, List.map_map]
    rw [List.map_congr_left (g := fun _ => if t = u then (1 : Int) else 0)
      (fun pos hp => by simp only [Function.comp]; rw [hl pos hp])]
    rw [List.map_const', List.sum_replicate]
    split_ifs <;> simp
  have happ : ∀ p q : Packing, Spec.binCopies (p ++ q) u = Spec.binCopies p u + Spec.binCopies q u := by
    intro p q; simp [Spec.binCopies]
  rw [happ, h1 _ fun pos hp => (mem_binPositions (List.mem_of_mem_take hp)).2,
    List.length_take]
  by_cases hu : t = u
  · subst hu
    simp only [if_true]
    split_ifs with h
    · simp only [Spec.binCopies, List.map_cons, List.map_nil, List.sum_cons, List.sum_nil, if_true]
      omega
    · simp only [Spec.binCopies, List.map_nil, List.sum_nil]
      omega
  · simp only [if_neg hu]
    split_ifs <;> simp [Spec.binCopies, hu]

theorem block_types {s : Solution} {last t : Nat} {b : PackedBin}
    (hb : b ∈ block inst s last t) : b.binTypeId = t ∧ 0 ≤ b.copies := by
  unfold block at hb
  dsimp only at hb
  rcases List.mem_append.mp hb with hb | hb
  · unfold groupView at hb
    rw [List.map_map] at hb
    obtain ⟨pos, hp, rfl⟩ := List.mem_map.mp hb
    exact ⟨(mem_binPositions (List.mem_of_mem_take hp)).2, by simp⟩
  · generalize (if t < last then (inst.binType t).copies else
      ((binPositions s t).length : Int)) = target at hb
    by_cases h : target > (binPositions s t).length
    · rw [if_pos h] at hb
      rw [List.mem_singleton.mp hb]
      exact ⟨rfl, by dsimp only; omega⟩
    · rw [if_neg h] at hb
      simp at hb

/-- The order holds when the last type starts after all the previous ones are used
up. -/
theorem orderOk_append {p q : Packing} {t : Nat}
    (h1 : ∀ u, u < t → Spec.binCopies p u = (inst.binType u).copies)
    (h2 : ∀ u, t < u → Spec.binCopies p u = 0) (hq : ∀ b ∈ q, b.binTypeId = t) :
    OrderOk inst (p ++ q) := by
  have h0 : ∀ u, u ≠ t → Spec.binCopies q u = 0 := by
    intro u hu
    unfold Spec.binCopies
    apply List.sum_eq_zero
    intro x hx
    obtain ⟨b, hb, rfl⟩ := List.mem_map.mp hx
    rw [hq b hb, if_neg (Ne.symm hu)]
  have happ : ∀ u, Spec.binCopies (p ++ q) u = Spec.binCopies p u + Spec.binCopies q u := by
    intro u; simp [Spec.binCopies]
  intro a u hau _ hpos
  rw [happ] at hpos ⊢
  rcases Nat.lt_trichotomy u t with h | h | h
  · rw [h1 a (by omega), h0 a (by omega), add_zero]
  · subst h; rw [h1 a hau, h0 a (by omega), add_zero]
  · rw [h2 u h, h0 u (by omega)] at hpos
    exact absurd hpos (by decide)

/-- The enforced packing up to type `k`. -/
def blocks (inst : Instance) (s : Solution) (last k : Nat) : Packing :=
  (List.range k).flatMap (block inst s last)

theorem blocks_succ (s : Solution) (last k : Nat) :
    blocks inst s last (k + 1) = blocks inst s last k ++ block inst s last k := by
  simp [blocks, List.range_succ]

theorem blocks_binCopies {s : Solution} (last k u : Nat)
    (hn : ∀ t, t < last → 0 ≤ (inst.binType t).copies) :
    Spec.binCopies (blocks inst s last k) u = if u < k then
      (if u < last then (inst.binType u).copies else (binPositions s u).length) else 0 := by
  induction k with
  | zero => simp [blocks, Spec.binCopies]
  | succ k ih =>
    have happ : ∀ p q : Packing,
        Spec.binCopies (p ++ q) u = Spec.binCopies p u + Spec.binCopies q u := by
      intro p q; simp [Spec.binCopies]
    rw [blocks_succ, happ, ih, block_binCopies _ _ _ (hn k)]
    rcases Nat.lt_trichotomy u k with h | h | h
    · rw [if_pos h, if_neg (show ¬k = u by omega), if_pos (show u < k + 1 by omega), add_zero]
    · subst h
      rw [if_neg (show ¬u < u by omega), if_pos rfl, if_pos (show u < u + 1 by omega), zero_add]
    · rw [if_neg (show ¬u < k by omega), if_neg (show ¬k = u by omega),
        if_neg (show ¬u < k + 1 by omega), add_zero]

theorem enforce_loop {s : Solution} (hs : Good inst s) (last : Nat)
    (hlast : last < inst.numberOfBinTypes) (hn : ∀ t, t < last → 0 ≤ (inst.binType t).copies)
    (k : Nat) (hk : k ≤ last + 1) :
    ∃ s', (List.range k).foldlM (enforceStep inst s last) (Solution.init inst) = .ok s'
      ∧ Good inst s' ∧ packingOf s' = blocks inst s last k
      ∧ s'.binTypeOrderFeasible = true := by
  induction k with
  | zero => exact ⟨_, rfl, good_init inst, rfl, rfl⟩
  | succ k ih =>
    obtain ⟨s1, h1, hg1, hv1, hf1⟩ := ih (by omega)
    have hsnoc : ∀ s2, enforceStep inst s last s1 k = .ok s2 →
        (List.range (k + 1)).foldlM (enforceStep inst s last) (Solution.init inst) = .ok s2 := by
      intro s2 h2
      rw [List.range_succ]
      exact foldlM_snoc_ok.mpr ⟨s1, h1, h2⟩
    set target : Int := if k < last then (inst.binType k).copies else (binPositions s k).length
      with ht
    set gs := ((binPositions s k).take target.toNat).map fun pos => (pos, (1 : Int)) with hgs
    have hb : ∀ u, u < k → Spec.binCopies (blocks inst s last k) u = (inst.binType u).copies := by
      intro u hu
      rw [blocks_binCopies _ _ _ hn, if_pos hu, if_pos (by omega)]
    have hb0 : ∀ u, k < u → Spec.binCopies (blocks inst s last k) u = 0 := by
      intro u hu
      rw [blocks_binCopies _ _ _ hn, if_neg (by omega)]
    obtain ⟨s2, h2, hg2, hv2, hf2⟩ := appendList_progress (s := s1) (other := s) gs hg1 hs.typed
      (by
        intro g hg
        obtain ⟨pos, hp, rfl⟩ := List.mem_map.mp hg
        exact (mem_binPositions (List.mem_of_mem_take hp)).1)
      (by
        intro g hg
        obtain ⟨pos, hp, rfl⟩ := List.mem_map.mp hg
        exact zero_le_one)
    have hblock : block inst s last k = groupView s gs
        ++ if target > (binPositions s k).length then
            [⟨k, target - (binPositions s k).length, []⟩] else [] := rfl
    have hflag2 : s2.binTypeOrderFeasible = true := by
      by_cases hobj : inst.objective = .binPacking
      · refine hf2 hobj hf1 fun j _ => ?_
        rw [hv1]
        refine orderOk_append hb hb0 fun b hb' => ?_
        have hb2 : b ∈ groupView s gs := by
          unfold groupView at hb' ⊢
          rw [List.map_take] at hb'
          exact List.mem_of_mem_take hb'
        exact (block_types (inst := inst) (last := last)
          (by rw [hblock]; exact List.mem_append_left _ hb2)).1
      · exact hg2.order_other hobj
    have hrun : ((binPositions s k).take target.toNat).foldlM
        (fun n pos => n.appendBin inst s pos 1 [] []) s1 = .ok s2 := by
      rw [mapM_pairs]; exact h2
    by_cases hgt : target > (binPositions s k).length
    · obtain ⟨s3, h3, hg3, hv3, hf3⟩ := appendEmptyBin_progress (s := s2) (t := k)
        (copies := target - (binPositions s k).length) hg2 (by omega) (by omega)
      have hview : packingOf s3 = blocks inst s last (k + 1) := by
        rw [hv3, hv2, hv1, blocks_succ, hblock, if_pos hgt, List.append_assoc]
      refine ⟨s3, hsnoc s3 ?_, hg3, hview, ?_⟩
      · unfold enforceStep
        refine bind_ok.mpr ⟨s2, hrun, ?_⟩
        rw [if_pos hgt]
        exact h3
      · by_cases hobj : inst.objective = .binPacking
        · refine hf3 hobj hflag2 ?_
          rw [hview, blocks_succ]
          exact orderOk_append hb hb0 fun b hb' => (block_types hb').1
        · exact hg3.order_other hobj
    · refine ⟨s2, hsnoc s2 ?_, hg2, ?_, hflag2⟩
      · unfold enforceStep
        refine bind_ok.mpr ⟨s2, hrun, ?_⟩
        rw [if_neg hgt]
      · rw [hv2, hv1, blocks_succ, hblock, if_neg hgt, List.append_nil]

theorem lastUsed_spec' (s : Solution) :
    (∀ b ∈ s.bins, (b.binTypeId : Int) ≤ lastUsedBinType s) ∧ -1 ≤ lastUsedBinType s
      ∧ (lastUsedBinType s = -1 ∨ ∃ b ∈ s.bins, (b.binTypeId : Int) = lastUsedBinType s) := by
  unfold lastUsedBinType
  generalize s.bins = l
  induction l using List.reverseRecOn with
  | nil => simp
  | append_singleton l a ih =>
    rw [List.foldl_append]
    simp only [List.foldl_cons, List.foldl_nil]
    obtain ⟨h1, h2, h3⟩ := ih
    refine ⟨?_, by omega, ?_⟩
    · rw [forall_mem_snoc]
      exact ⟨fun b hb => le_trans (h1 b hb) (le_max_left _ _), le_max_right _ _⟩
    · rcases le_total (l.foldl (fun m b => max m (b.binTypeId : Int)) (-1)) a.binTypeId with h | h
      · exact .inr ⟨a, by simp, by rw [max_eq_right h]⟩
      · rw [max_eq_left h]
        rcases h3 with h3 | ⟨b, hb, he⟩
        · exact .inl h3
        · exact .inr ⟨b, by simp [hb], he⟩

theorem blocks_sum {M : Type} [AddCommGroup M] (w : Int → Nat → List Nat → M)
    (hw : ∀ a b t l, w (a + b) t l = w a t l + w b t l) (h0 : ∀ a t, w a t [] = 0)
    {s : Solution} (hc : ∀ b ∈ s.bins, 0 ≤ b.copies) (last : Nat)
    (hlast : ∀ b ∈ s.bins, b.binTypeId ≤ last)
    (hle : ∀ t, t < last → Spec.binCopies (packingOf s) t ≤ (inst.binType t).copies) :
    wsum w (blocks inst s last (last + 1)) = wsum w (packingOf s) := by
  have key : ∀ k, wsum w (blocks inst s last k) = ∑ t ∈ Finset.range k,
      ∑ pos ∈ Finset.range s.bins.length, if (at' s pos).binTypeId = t then
        w (at' s pos).copies (at' s pos).binTypeId (ids (at' s pos).items) else 0 := by
    intro k
    induction k with
    | zero => simp [blocks, wsum]
    | succ k ih =>
      rw [blocks_succ, wsum_append, ih, Finset.sum_range_succ, block_sum w hw h0 hc last k (hle k)]
  rw [key, Finset.sum_comm, packing_sum]
  refine Finset.sum_congr rfl fun pos hpos => ?_
  have hlt := Finset.mem_range.mp hpos
  have hb : (at' s pos).binTypeId ≤ last := by
    rw [show at' s pos = s.bins[pos] from List.getD_eq_getElem _ _ hlt]
    exact hlast _ (List.getElem_mem hlt)
  rw [Finset.sum_ite_eq, if_pos (Finset.mem_range.mpr (by omega))]

end PostLemmas

end PackingSolver.OneDim
