import Verif.Lemmas.Stacks.Indicators
import Verif.Lemmas.Except

/-! Helper lemmas: every history of API calls keeps the indicators exact. -/

namespace PackingSolver.Stacks

open Spec
open PackingSolver.Box (Rotation)
open PackingSolver.OneDim (forall_mem_snoc)

/-- The items of a bin have existing types, and their groups exist. -/
def BinTyped (inst : Instance) (b : PackedBin) : Prop :=
  b.binTypeId < inst.numberOfBinTypes ∧ ∀ i ∈ binItems b, i.1 < inst.numberOfItemTypes
    ∧ (inst.itemType i.1).groupId < inst.numberOfGroups

/-- What holds of a solution all of whose bins have been processed. -/
structure Good (inst : Instance) (s : Solution) : Prop where
  indic : Indic inst s (binsView s.bins)
  extents : Extents inst s (binsView s.bins)
  typed : ∀ b ∈ binsView s.bins, BinTyped inst b
  callback : s.bins ≠ [] → s.callbackFeasible = inst.callback (binsView s.bins)
  bins : ∀ b ∈ s.bins, BinGood inst b
  feasible : s.bins ≠ [] → (s.feasible = true ↔ feasibleTotalWeight inst s.bins = true
        ∧ feasibleAxleWeights inst s.bins = .ok true ∧ s.callbackFeasible = true
        ∧ s.itemCopiesFeasible = true ∧ s.numberOfInfeasibleItemCopiesMin = 0)
  feasible_nil : s.bins = [] → (s.feasible = true ↔ s.numberOfInfeasibleItemCopiesMin = 0)

theorem extents_nil (inst : Instance) (s : Solution) (hx : s.xMax = 0) (hy : s.yMax = 0) :
    Extents inst s [] :=
  ⟨by simp [OneDim.Spec.IsMaxWithZero, lastPiles, hx],
    by simp [OneDim.Spec.IsMaxWithZero, lastPiles, hy], by intro q b h; simp at h⟩

theorem good_init (inst : Instance) : Good inst (Solution.init inst) :=
  ⟨indic_init inst, extents_nil _ _ rfl rfl, by simp [Solution.init, binsView],
    by simp [Solution.init], by simp [Solution.init], by simp [Solution.init],
    by intro _; simp [Solution.init]⟩

theorem inRange_spec {inst : Instance} {s : Solution} {k : Nat} :
    s.inRange inst k = true ↔ k < s.bins.length
      ∧ (∀ b ∈ s.bins, b.binTypeId < inst.numberOfBinTypes)
      ∧ ∀ i ∈ binItems (viewBin (s.bins.getD k default)), i.1 < inst.numberOfItemTypes
        ∧ (inst.itemType i.1).groupId < inst.numberOfGroups := by
  rw [binItems_view]
  simp only [Solution.inRange, Bool.and_eq_true, decide_eq_true_eq, List.all_eq_true,
    List.mem_flatMap, List.mem_map, forall_exists_index, and_imp, and_assoc]
  refine and_congr_right fun _ => and_congr_right fun _ => ?_
  constructor
  · rintro h i p hp it hit rfl
    exact h p hp it hit
  · intro h p hp it hit
    exact h (viewItem it) p hp it hit rfl

/-- Appending a bin. -/
theorem good_pushBin {inst : Instance} {s s' : Solution} (hg : Good inst s) (bin : SolutionBin)
    (h : s.pushBin inst bin = .ok s') :
    Good inst s' ∧ binsView s'.bins = binsView s.bins ++ [viewBin bin] := by
  unfold Solution.pushBin at h
  obtain ⟨hr, f, hs', hf⟩ := updateIndicators_ok h
  set s1 : Solution := { s with bins := s.bins ++ [bin] } with hs1
  have hget : s1.bins.getD s.bins.length default = bin := by
    simp [hs1, List.getD_eq_getElem?_getD]
  obtain ⟨-, ht, hit⟩ := inRange_spec.mp hr
  rw [hget] at hit
  have hlt : s.bins.length < s1.bins.length := by simp [hs1]
  have hview : binsView s'.bins = binsView s.bins ++ [viewBin bin] := by
    rw [hs']; dsimp only
    rw [upd_view]
    simp [hs1, binsView]
  have hlen : s'.bins.length = s.bins.length + 1 := by
    have := congrArg List.length hview; simpa [binsView] using this
  have hind : Indic inst s' (binsView s.bins ++ [viewBin bin]) := by
    have := indic_step (inst := inst) (s := s1) s.bins.length (hg.indic.withBins _ s.feasible)
    rw [hget] at this
    rw [hs']
    exact this.withBins _ _
  have hext : Extents inst s' (binsView s.bins ++ [viewBin bin]) := by
    have := extents_step (inst := inst) (s := s1) s.bins.length (hg.indic.withBins _ s.feasible)
      (by simp [hs1])
    rw [hget] at this
    rw [hs']
    exact ⟨this.xMax, this.yMax, this.volume⟩
  refine ⟨⟨by rw [hview]; exact hind, by rw [hview]; exact hext, ?_, ?_, ?_, ?_, ?_⟩, hview⟩
  · rw [hview, forall_mem_snoc]
    exact ⟨hg.typed, ht bin (by simp [hs1]), hit⟩
  · intro _; rw [hs']; rfl
  · intro b hb
    obtain ⟨n, hn, rfl⟩ := List.getElem_of_mem hb
    rw [← List.getD_eq_getElem _ default hn, hs']
    dsimp only
    by_cases hnk : n = s.bins.length
    · subst hnk
      exact (upd_bin_good inst s1 _ hlt).2
    · rw [upd_bin_other inst s1 _ _ hnk]
      have hn' : n < s.bins.length := by omega
      have : s1.bins.getD n default = s.bins[n] := by
        simp [hs1, List.getD_eq_getElem?_getD, List.getElem?_append_left hn', hn']
      rw [this]
      exact hg.bins _ (List.getElem_mem _)
  · intro _
    have : s'.feasible = f := by rw [hs']
    rw [this]; exact hf
  · intro e; rw [e] at hlen; simp at hlen

theorem relabel_some {m : List Nat} {i j : Nat} (h : relabel m i = some j) :
    j = mapId m i := by
  unfold relabel at h
  unfold mapId
  split_ifs at h ⊢ with h1
  · simpa using h.symm
  · simp [List.getD_eq_getElem?_getD, h]

theorem relabelItems_eq {m : List Nat} (items items' : List SolutionItem)
    (h : relabelItems m items = some items') :
    items' = items.map fun i => { i with itemTypeId := mapId m i.itemTypeId } := by
  unfold relabelItems at h
  induction items generalizing items' with
  | nil => simp at h; subst h; rfl
  | cons a l ih =>
    rw [List.mapM_cons] at h
    simp only [Option.bind_eq_bind, Option.bind_eq_some_iff, Option.map_eq_some_iff,
      Option.pure_def, Option.some.injEq] at h
    obtain ⟨x, ⟨j, hj, rfl⟩, y, hy, rfl⟩ := h
    rw [List.map_cons, ih y hy, relabel_some hj]

theorem relabelPiles_eq {m : List Nat} (l l' : List SolutionStack)
    (h : relabelPiles m l = some l') :
    l' = l.map fun p => { xStart := p.xStart
                          xEnd := p.xEnd
                          yStart := p.yStart
                          yEnd := p.yEnd
                          items := p.items.map fun i =>
                            { i with itemTypeId := mapId m i.itemTypeId } } := by
  unfold relabelPiles at h
  induction l generalizing l' with
  | nil => simp at h; subst h; rfl
  | cons a l ih =>
    rw [List.mapM_cons] at h
    simp only [Option.bind_eq_bind, Option.bind_eq_some_iff, Option.map_eq_some_iff,
      Option.pure_def, Option.some.injEq] at h
    obtain ⟨x, ⟨j, hj, rfl⟩, y, hy, rfl⟩ := h
    rw [List.map_cons, ih y hy, relabelItems_eq _ _ hj]

theorem appendBin_ok {inst : Instance} {s s' other : Solution} {pos : Nat} {copies : Int}
    {mb mi : List Nat} (hg : Good inst s)
    (h : s.appendBin inst other pos copies mb mi = .ok s') :
    pos < other.bins.length ∧ Good inst s' ∧ binsView s'.bins = binsView s.bins
      ++ [relabelBin mb mi { viewBin (other.bins.getD pos default) with copies := copies }] := by
  unfold Solution.appendBin at h
  cases hb : other.bins[pos]? with
  | none => rw [hb] at h; simp at h
  | some bin =>
    rw [hb] at h
    have hlt : pos < other.bins.length := by
      by_contra hge
      rw [List.getElem?_eq_none (by omega)] at hb; simp at hb
    have hd : other.bins.getD pos default = bin := by simp [List.getD_eq_getElem?_getD, hb]
    simp only at h
    split at h
    · next b piles h1 h2 =>
      have := good_pushBin hg { binTypeId := b, copies := copies, piles := piles } h
      refine ⟨hlt, this.1, ?_⟩
      rw [this.2, hd]
      simp only [viewBin, relabelBin]
      rw [relabelPiles_eq _ _ h2, relabel_some h1]
      simp [viewPile, Function.comp_def]
    · simp at h

theorem appendBins_aux {inst : Instance} {s s' other : Solution}
    {mb mi : List Nat} (hg : Good inst s)
    (n : Nat) (hn : n ≤ other.bins.length)
    (h : (List.range n).foldlM
      (fun s pos => s.appendBin inst other pos (other.bins.getD pos default).copies mb mi) s
        = .ok s') :
    Good inst s' ∧ binsView s'.bins = binsView s.bins
      ++ (other.bins.take n).map (fun b => relabelBin mb mi (viewBin b)) := by
  induction n generalizing s' with
  | zero =>
    simp only [List.range_zero, List.foldlM_nil] at h
    cases h
    exact ⟨hg, by simp⟩
  | succ n ih =>
    rw [List.range_succ, foldlM_snoc_ok] at h
    obtain ⟨s1, h1, h2⟩ := h
    obtain ⟨g1, v1⟩ := ih (by omega) h1
    have hlt : n < other.bins.length := by omega
    obtain ⟨_, g2, v2⟩ := appendBin_ok g1 h2
    refine ⟨g2, ?_⟩
    rw [v2, v1, List.take_succ_eq_append_getElem hlt, List.getD_eq_getElem _ _ hlt,
      List.map_append, List.append_assoc]
    rfl

theorem appendBins_ok {inst : Instance} {s s' other : Solution}
    {mb mi : List Nat} (hg : Good inst s)
    (h : s.appendBins inst other mb mi = .ok s') :
    Good inst s' ∧ binsView s'.bins = binsView s.bins
      ++ other.bins.map (fun b => relabelBin mb mi (viewBin b)) := by
  have := appendBins_aux hg other.bins.length (le_refl _) h
  rwa [List.take_length] at this

theorem appendEmptyBin_ok {inst : Instance} {s s' : Solution} {t : Nat} {copies : Int}
    (hg : Good inst s) (h : s.appendEmptyBin inst t copies = .ok s') :
    Good inst s' ∧ binsView s'.bins = binsView s.bins ++ [⟨t, copies, []⟩] :=
  good_pushBin hg { binTypeId := t, copies := copies } h

/-! ### The builder -/

/-- State of the builder before `build`. -/
structure Raw (inst : Instance) (s : Solution) (p : Packing) : Prop where
  shape : ∃ bins, s = { Solution.init inst with bins := bins }
  view : binsView s.bins = p
  typed : ∀ b ∈ p, b.binTypeId < inst.numberOfBinTypes
    ∧ ∀ q ∈ b.piles, ∀ i ∈ q.items, i.1 < inst.numberOfItemTypes
      ∧ i.2 ∈ (inst.itemType i.1).rotations
      ∧ (Box.Spec.rotated (inst.itemType i.1).box i.2).x = q.xEnd - q.xStart
      ∧ (Box.Spec.rotated (inst.itemType i.1).box i.2).y = q.yEnd - q.yStart
  weights : ∀ b ∈ s.bins, b.weight = [] ∧ b.weightWeightedSum = []

theorem forall_mem_modify {α : Type} {P : α → Prop} {l : List α} {k : Nat} {f : α → α}
    (h : ∀ a ∈ l, P a) (hf : ∀ a, l[k]? = some a → P a → P (f a)) : ∀ a ∈ l.modify k f, P a := by
  intro a ha
  obtain ⟨n, hn, rfl⟩ := List.getElem_of_mem ha
  rw [List.length_modify] at hn
  rw [List.getElem_modify]
  split_ifs with hk
  · subst hk; exact hf _ (List.getElem?_eq_getElem hn) (h _ (List.getElem_mem hn))
  · exact h _ (List.getElem_mem hn)

theorem map_modify_comm {α β : Type} {g : α → β} {f : α → α} {f' : β → β}
    (h : ∀ a, g (f a) = f' (g a)) (l : List α) (k : Nat) :
    (l.modify k f).map g = (l.map g).modify k f' := by
  apply List.ext_getElem
  · simp
  · intro n h1 h2
    simp only [List.getElem_map, List.getElem_modify]
    split_ifs
    · exact h _
    · rfl

theorem raw_step {inst : Instance} {sb sb' : SolutionBuilder} {p : Packing} {op : BuilderOp}
    (hr : Raw inst sb.sol p) (h2 : sb.step inst op = .ok sb') :
    Raw inst sb'.sol (opStep p op) := by
  obtain ⟨⟨bins, hs⟩, hv, ht, hw⟩ := hr
  cases op with
  | addBin t c =>
    simp only [SolutionBuilder.step, SolutionBuilder.addBin] at h2
    split_ifs at h2 with h3
    cases h2
    refine ⟨⟨sb.sol.bins ++ [{ binTypeId := t, copies := c }], ?_⟩, ?_, ?_, ?_⟩
    · rw [hs]
    · simp only [binsView, List.map_append] at hv ⊢
      rw [hv]; rfl
    · simp only [opStep]
      rw [forall_mem_snoc]
      exact ⟨ht, h3, by simp⟩
    · dsimp only
      rw [forall_mem_snoc]
      exact ⟨hw, rfl, rfl⟩
  | addStack k x xe y ye =>
    simp only [SolutionBuilder.step, SolutionBuilder.addStack] at h2
    split_ifs at h2 with h3
    cases h2
    refine ⟨⟨_, by rw [hs]⟩, ?_, ?_, ?_⟩
    · simp only [binsView, opStep] at hv ⊢
      rw [← hv]
      exact map_modify_comm (fun b => by simp [viewBin, viewPile]) _ _
    · simp only [opStep]
      refine forall_mem_modify ht fun b _ hb => ⟨hb.1, ?_⟩
      rw [forall_mem_snoc]
      exact ⟨hb.2, by simp⟩
    · exact forall_mem_modify hw fun b _ hb => hb
  | addItem k j i r =>
    simp only [SolutionBuilder.step, SolutionBuilder.addItem] at h2
    by_cases h3 : k ≥ sb.sol.bins.length
    · rw [if_pos h3] at h2; cases h2
    rw [if_neg h3] at h2
    by_cases h4 : i ≥ inst.numberOfItemTypes
    · rw [if_pos h4] at h2; cases h2
    rw [if_neg h4] at h2
    split at h2
    · simp at h2
    next pile hpile =>
    split_ifs at h2 with h5 h6 h7
    cases h2
    have hbin : binsView sb.sol.bins = p := hv
    refine ⟨⟨_, by rw [hs]⟩, ?_, ?_, ?_⟩
    · simp only [binsView, opStep] at hv ⊢
      rw [← hv]
      refine map_modify_comm (fun b => ?_) _ _
      simp only [viewBin]
      congr 1
      exact map_modify_comm (fun q => by simp [viewPile]) _ _
    · simp only [opStep]
      refine forall_mem_modify ht fun b hbk hb => ⟨hb.1, ?_⟩
      refine forall_mem_modify hb.2 fun q hqj hq => ?_
      rw [forall_mem_snoc]
      refine ⟨hq, by simpa using h4, by simpa [ItemType.canRotate] using h5, ?_⟩
      have hk : k < sb.sol.bins.length := by omega
      have hb' : b = viewBin (sb.sol.bins.getD k default) := by
        rw [← hbin, binsView, List.getElem?_map, List.getElem?_eq_getElem hk] at hbk
        rw [List.getD_eq_getElem _ _ hk]
        simpa using hbk.symm
      have hq' : q = viewPile pile := by
        rw [hb', viewBin, List.getElem?_map, hpile] at hqj
        simpa using hqj.symm
      rw [hq', ← x_eq, ← y_eq]
      exact ⟨not_not.mp h6, not_not.mp h7⟩
    · exact forall_mem_modify hw fun b _ hb => hb

theorem raw_new (inst : Instance) : Raw inst (SolutionBuilder.new inst).sol [] :=
  ⟨⟨[], rfl⟩, rfl, by simp, by simp [SolutionBuilder.new, Solution.init]⟩

theorem raw_ops {inst : Instance} (ops : List BuilderOp) (sb : SolutionBuilder)
    (h : ops.foldlM (SolutionBuilder.step inst) (SolutionBuilder.new inst) = .ok sb) :
    Raw inst sb.sol (opsPacking ops) := by
  induction ops using List.reverseRecOn generalizing sb with
  | nil =>
    simp only [List.foldlM_nil] at h
    cases h
    exact raw_new inst
  | append_singleton ops op ih =>
    rw [foldlM_snoc_ok] at h
    obtain ⟨sb1, h1, h2⟩ := h
    have hp : opsPacking (ops ++ [op]) = opStep (opsPacking ops) op := by
      unfold opsPacking; rw [List.foldl_append]; rfl
    rw [hp]
    exact raw_step (ih sb1 h1) h2

/-- Invariant of the loop of `build`. -/
structure Building (inst : Instance) (p : Packing) (k : Nat) (s : Solution) : Prop where
  view : binsView s.bins = p
  indic : Indic inst s (p.take k)
  extents : k = p.length → Extents inst s p
  typed : ∀ b ∈ p.take k, BinTyped inst b
  callback : k ≠ 0 → s.callbackFeasible = inst.callback p
  bins : ∀ j, j < p.length → (j < k → BinGood inst (s.bins.getD j default))
    ∧ (k ≤ j → (s.bins.getD j default).weight = []
      ∧ (s.bins.getD j default).weightWeightedSum = [])
  feasible : k ≠ 0 → (s.feasible = true ↔ feasibleTotalWeight inst s.bins = true
        ∧ feasibleAxleWeights inst s.bins = .ok true ∧ s.callbackFeasible = true
        ∧ s.itemCopiesFeasible = true ∧ s.numberOfInfeasibleItemCopiesMin = 0)
  feasible_zero : k = 0 → (s.feasible = true ↔ s.numberOfInfeasibleItemCopiesMin = 0)

theorem building_zero {inst : Instance} {s0 : Solution} {p : Packing} (hr : Raw inst s0 p) :
    Building inst p 0 s0 := by
  obtain ⟨bins, hs⟩ := hr.shape
  have hlen0 : s0.bins.length = p.length := by rw [← hr.view]; simp [binsView]
  refine ⟨hr.view, ?_, ?_, by simp, fun h => absurd rfl h, ?_, fun h => absurd rfl h, fun _ => ?_⟩
  · rw [List.take_zero, hs]; exact (indic_init inst).withBins _ _
  · intro h0
    have hp : p = [] := List.length_eq_zero_iff.mp h0.symm
    rw [hp, hs]
    exact extents_nil _ _ rfl rfl
  · intro j hj
    refine ⟨fun h => absurd h (by omega), fun _ => ?_⟩
    rw [List.getD_eq_getElem _ _ (by omega)]
    exact hr.weights _ (List.getElem_mem _)
  · rw [hs]; simp [Solution.init]

theorem building_view {inst : Instance} {p : Packing} {k : Nat} {s : Solution}
    (h : Building inst p k s) (hk : k < p.length) :
    s.bins.length = p.length ∧ viewBin (s.bins.getD k default) = p[k] := by
  have hlen : s.bins.length = p.length := by rw [← h.view]; simp [binsView]
  refine ⟨hlen, ?_⟩
  rw [List.getD_eq_getElem _ _ (by omega)]
  have : (binsView s.bins)[k]'(by simp [binsView]; omega) = p[k]'(by omega) := by
    simp only [h.view]
  rw [← this]; simp [binsView]

theorem building_step {inst : Instance} {p : Packing} {k : Nat} {s1 s : Solution}
    (hb : Building inst p k s1) (hk : k < p.length) (h : s1.updateIndicators inst k = .ok s) :
    Building inst p (k + 1) s := by
  obtain ⟨hlen, hview⟩ := building_view hb hk
  obtain ⟨hr, f, hs', hf⟩ := updateIndicators_ok h
  obtain ⟨hkl, htt, hit⟩ := inRange_spec.mp hr
  have hv' : binsView s.bins = p := by
    rw [hs']; dsimp only; rw [upd_view, hb.view]
  have htake : p.take (k + 1) = p.take k ++ [viewBin (s1.bins.getD k default)] := by
    rw [List.take_succ_eq_append_getElem hk, hview]
  have hfeas : s.feasible = f := by rw [hs']
  refine ⟨hv', ?_, ?_, ?_, ?_, ?_, fun _ => by rw [hfeas]; exact hf, by omega⟩
  · rw [htake, hs']; exact (indic_step k hb.indic).withBins _ _
  · intro hkp
    have := extents_step (inst := inst) (s := s1) k hb.indic (by omega)
    rw [← htake, List.take_of_length_le (by omega)] at this
    rw [hs']
    exact ⟨this.xMax, this.yMax, this.volume⟩
  · rw [htake, forall_mem_snoc]
    refine ⟨hb.typed, ?_, hit⟩
    rw [List.getD_eq_getElem _ _ hkl]
    exact htt _ (List.getElem_mem _)
  · intro _
    have : s.callbackFeasible = inst.callback (binsView (s1.updateTotals inst k).bins) := by
      rw [hs']; rfl
    rw [this, upd_view, hb.view]
  · intro j hj
    have hbins : s.bins = (s1.updateTotals inst k).bins := by rw [hs']
    rw [hbins]
    by_cases hjk : j = k
    · subst hjk
      exact ⟨fun _ => (upd_bin_good inst s1 j hkl).2, fun h => absurd h (by omega)⟩
    · rw [upd_bin_other inst s1 k j hjk]
      exact ⟨fun h => (hb.bins j hj).1 (by omega), fun h => (hb.bins j hj).2 (by omega)⟩

theorem build_loop {inst : Instance} {s0 : Solution} {p : Packing} (hr : Raw inst s0 p)
    (k : Nat) (hk : k ≤ p.length) (s : Solution)
    (h : (List.range k).foldlM (fun s pos => s.updateIndicators inst pos) s0 = .ok s) :
    Building inst p k s := by
  induction k generalizing s with
  | zero =>
    simp only [List.range_zero, List.foldlM_nil] at h
    cases h
    exact building_zero hr
  | succ k ih =>
    rw [List.range_succ, foldlM_snoc_ok] at h
    obtain ⟨s1, h1, h2⟩ := h
    exact building_step (ih (by omega) s1 h1) (by omega) h2

theorem builder_ok {inst : Instance} {sb : SolutionBuilder} {p : Packing} {s : Solution}
    (hr : Raw inst sb.sol p) (h2 : sb.build inst = .ok s) :
    Good inst s ∧ binsView s.bins = p := by
  have hlen : sb.sol.bins.length = p.length := by rw [← hr.view]; simp [binsView]
  unfold SolutionBuilder.build at h2
  have hb := build_loop hr sb.sol.bins.length (by omega) s h2
  rw [hlen] at hb
  obtain ⟨hv, hi, he, ht, hcb, hw, hf, hf0⟩ := hb
  rw [List.take_length] at hi ht
  have hl2 : s.bins.length = p.length := by rw [← hv]; simp [binsView]
  refine ⟨⟨by rw [hv]; exact hi, by rw [hv]; exact he rfl, by rw [hv]; exact ht, ?_, ?_, ?_, ?_⟩, hv⟩
  · intro hne
    rw [hv]; apply hcb
    intro e
    apply hne
    exact List.length_eq_zero_iff.mp (by omega)
  · intro b hb
    obtain ⟨n, hn, rfl⟩ := List.getElem_of_mem hb
    have := (hw n (by omega)).1 (by omega)
    rwa [List.getD_eq_getElem _ _ hn] at this
  · intro hne
    apply hf
    intro e
    apply hne
    exact List.length_eq_zero_iff.mp (by omega)
  · intro he
    apply hf0
    rw [← hl2, he]; rfl

theorem build_ok {inst : Instance} (ops : List BuilderOp) (s : Solution)
    (h : SolutionBuilder.runOps inst ops = .ok s) :
    Good inst s ∧ binsView s.bins = opsPacking ops := by
  unfold SolutionBuilder.runOps at h
  obtain ⟨sb, h1, h2⟩ := bind_ok.mp h
  exact builder_ok (raw_ops ops sb h1) h2

theorem _root_.PackingSolver.Stacks.Spec.Reachable.good {inst : Instance} {s : Solution}
    (h : Reachable inst s) : Good inst s := by
  induction h with
  | init => exact good_init inst
  | built ops s h => exact (build_ok ops s h).1
  | appendBin s s' other pos copies mb mi _ h ih => exact (appendBin_ok ih h).2.1
  | appendBins s s' other mb mi _ h ih => exact (appendBins_ok ih h).1
  | appendEmptyBin s s' t copies _ h ih => exact (appendEmptyBin_ok ih h).1

end PackingSolver.Stacks
