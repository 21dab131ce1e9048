import Verif.Lemmas.Rect.Indicators
import Verif.Lemmas.Except

/-! Helper lemmas: every history of API calls keeps the indicators exact. -/

namespace PackingSolver.Rect

open Spec
open PackingSolver.OneDim (forall_mem_snoc)

/-- What holds of a solution all of whose bins have been processed. -/
structure Good (inst : Instance) (s : Solution) : Prop where
  indic : Indic inst s (binsView s.bins)
  extents : Extents inst s (binsView s.bins)
  typed : WellTyped inst (binsView s.bins)
  callback : s.bins ≠ [] → s.callbackFeasible = inst.callback (binsView s.bins)
  callback_nil : s.bins = [] → s.callbackFeasible = true

theorem extents_nil (inst : Instance) (s : Solution) (hx : s.xMax = 0) (hy : s.yMax = 0) :
    Extents inst s [] :=
  ⟨by simp [OneDim.Spec.IsMaxWithZero, lastItems, hx],
    by simp [OneDim.Spec.IsMaxWithZero, lastItems, hy], by intro q b h; simp at h⟩

theorem good_init (inst : Instance) : Good inst (Solution.init inst) :=
  ⟨indic_init inst, extents_nil _ _ rfl rfl, by simp [Solution.init, WellTyped, binsView],
    by simp [Solution.init], fun _ => rfl⟩

/-- Changing only the list of bins keeps the indicators. -/
theorem Indic.withBins {inst : Instance} {s : Solution} {done : Packing}
    (h : Indic inst s done) (bins : List SolutionBin) : Indic inst { s with bins := bins } done :=
  ⟨h.numberOfBins, h.numberOfItems, h.binArea, h.itemArea, h.itemWeight, h.cost, h.binCopiesLen,
    h.binCopies, h.itemCopiesLen, h.itemCopies, h.profit, h.missing, h.resources,
    h.itemCopiesFeasible, h.itemCopiesNil, h.feasible⟩

/-- Appending a bin. -/
theorem good_pushBin {inst : Instance} {s s' : Solution} (hg : Good inst s) (bin : SolutionBin)
    (h : s.pushBin inst bin = .ok s') :
    Good inst s' ∧ binsView s'.bins = binsView s.bins ++ [viewBin bin] := by
  unfold Solution.pushBin Solution.updateIndicators at h
  split_ifs at h with hr
  cases h
  set s1 : Solution := { s with bins := s.bins ++ [bin] } with hs1
  have hget : s1.bins.getD s.bins.length default = bin := by
    simp [hs1, List.getD_eq_getElem?_getD]
  simp only [Solution.inRange, hget, Bool.and_eq_true, decide_eq_true_eq, List.all_eq_true] at hr
  have hl : InTypes inst bin.items := hr.2
  have hview : binsView (s1.updateIndicatorsTotal inst s.bins.length).bins
      = binsView s.bins ++ [viewBin bin] := by
    rw [upd_view _ _ _]
    simp [hs1, binsView]
  have hind : Indic inst (s1.updateIndicatorsTotal inst s.bins.length)
      (binsView s.bins ++ [viewBin bin]) := by
    have := indic_step (inst := inst) (s := s1) s.bins.length (hg.indic.withBins _)
      (by rw [hget]; exact hr.1.2) (by rw [hget]; exact hl)
    rwa [hget] at this
  have hext : Extents inst (s1.updateIndicatorsTotal inst s.bins.length)
      (binsView s.bins ++ [viewBin bin]) := by
    have := extents_step (inst := inst) (s := s1) s.bins.length (hg.indic.withBins _)
      (by simp [hs1])
    rwa [hget] at this
  refine ⟨⟨by rw [hview]; exact hind, by rw [hview]; exact hext, ?_, ?_, ?_⟩, hview⟩
  · rw [hview]
    unfold WellTyped
    rw [forall_mem_snoc]
    exact ⟨hg.typed, hr.1.2, hl⟩
  · intro _; exact upd_callback _ _ _
  · intro he
    rw [upd_bins] at he
    have := congrArg List.length he
    simp [hs1] at this

theorem relabel_some {m : List Nat} {i j : Nat} (h : relabel m i = some j) :
    j = mapId m i := by
  unfold relabel at h
  unfold mapId
  split_ifs at h ⊢ with h1
  · simpa using h.symm
  · simp [List.getD_eq_getElem?_getD, h]

theorem relabelItems_eq {m : List Nat} (items items' : List PlacedItem)
    (h : relabelItems m items = some items') :
    items' = items.map fun i => { i with itemTypeId := mapId m i.itemTypeId } := by
  unfold relabelItems at h
  induction items generalizing items' with
  | nil => simp at h; subst h; rfl
  | cons a l ih =>
    rw [List.mapM_cons] at h
    simp only [Option.bind_eq_bind, Option.bind_eq_some_iff, Option.map_eq_some_iff,
      Option.pure_def, Option.some.injEq] at h
    obtain ⟨x, ⟨j, hj, rfl⟩, y, hy, rfl⟩ := h
    rw [List.map_cons, ih y hy, relabel_some hj]

theorem appendBin_ok {inst : Instance} {s s' other : Solution} {pos : Nat} {copies : Int}
    {mb mi : List Nat} (hg : Good inst s)
    (h : s.appendBin inst other pos copies mb mi = .ok s') :
    pos < other.bins.length ∧ Good inst s' ∧ binsView s'.bins = binsView s.bins
      ++ [relabelBin mb mi { viewBin (other.bins.getD pos default) with copies := copies }] := by
  unfold Solution.appendBin at h
  cases hb : other.bins[pos]? with
  | none => rw [hb] at h; simp at h
  | some bin =>
    rw [hb] at h
    have hlt : pos < other.bins.length := by
      by_contra hge
      rw [List.getElem?_eq_none (by omega)] at hb; simp at hb
    have hd : other.bins.getD pos default = bin := by simp [List.getD_eq_getElem?_getD, hb]
    simp only at h
    split at h
    · next b items h1 h2 =>
      have := good_pushBin hg { binTypeId := b, copies := copies, items := items } h
      refine ⟨hlt, this.1, ?_⟩
      rw [this.2, hd]
      simp only [viewBin, relabelBin]
      rw [relabelItems_eq _ _ h2, relabel_some h1]
    · simp at h

theorem appendBins_aux {inst : Instance} {s s' other : Solution}
    {mb mi : List Nat} (hg : Good inst s)
    (n : Nat) (hn : n ≤ other.bins.length)
    (h : (List.range n).foldlM
      (fun s pos => s.appendBin inst other pos (other.bins.getD pos default).copies mb mi) s
        = .ok s') :
    Good inst s' ∧ binsView s'.bins = binsView s.bins
      ++ (other.bins.take n).map (fun b => relabelBin mb mi (viewBin b)) := by
  induction n generalizing s' with
  | zero =>
    simp only [List.range_zero, List.foldlM_nil] at h
    cases h
    exact ⟨hg, by simp⟩
  | succ n ih =>
    rw [List.range_succ, foldlM_snoc_ok] at h
    obtain ⟨s1, h1, h2⟩ := h
    obtain ⟨g1, v1⟩ := ih (by omega) h1
    have hlt : n < other.bins.length := by omega
    obtain ⟨_, g2, v2⟩ := appendBin_ok g1 h2
    refine ⟨g2, ?_⟩
    rw [v2, v1, List.take_succ_eq_append_getElem hlt, List.getD_eq_getElem _ _ hlt,
      List.map_append, List.append_assoc]
    rfl

theorem appendBins_ok {inst : Instance} {s s' other : Solution}
    {mb mi : List Nat} (hg : Good inst s)
    (h : s.appendBins inst other mb mi = .ok s') :
    Good inst s' ∧ binsView s'.bins = binsView s.bins
      ++ other.bins.map (fun b => relabelBin mb mi (viewBin b)) := by
  have := appendBins_aux hg other.bins.length (le_refl _) h
  rwa [List.take_length] at this

theorem appendEmptyBin_ok {inst : Instance} {s s' : Solution} {t : Nat} {copies : Int}
    (hg : Good inst s) (h : s.appendEmptyBin inst t copies = .ok s') :
    Good inst s' ∧ binsView s'.bins = binsView s.bins ++ [⟨t, copies, []⟩] :=
  good_pushBin hg { binTypeId := t, copies := copies } h

/-! ### The builder -/

/-- State of the builder before `build`. -/
structure Raw (inst : Instance) (s : Solution) (p : Packing) : Prop where
  shape : ∃ bins, s = { Solution.init inst with bins := bins }
  view : binsView s.bins = p
  rotations : ∀ b ∈ p, ∀ i ∈ b.items, i.rotate = true →
    (inst.itemType i.itemTypeId).oriented = false

theorem raw_step {inst : Instance} {sb sb' : SolutionBuilder} {p : Packing} {op : BuilderOp}
    (hr : Raw inst sb.sol p) (h2 : sb.step inst op = .ok sb') :
    Raw inst sb'.sol (opStep p op) := by
  obtain ⟨⟨bins, hs⟩, hv, hrot⟩ := hr
  cases op with
  | addBin t c =>
    simp only [SolutionBuilder.step, SolutionBuilder.addBin] at h2
    split_ifs at h2 with h3
    cases h2
    refine ⟨⟨sb.sol.bins ++ [{ binTypeId := t, copies := c }], ?_⟩, ?_, ?_⟩
    · rw [hs]
    · simp only [binsView_eq, List.map_append] at hv ⊢
      rw [hv]; rfl
    · simp only [opStep]
      rw [forall_mem_snoc]
      exact ⟨hrot, by simp⟩
  | addItem k i x y r =>
    simp only [SolutionBuilder.step, SolutionBuilder.addItem] at h2
    split_ifs at h2 with h3 h4 h5
    cases h2
    refine ⟨⟨_, by rw [hs]⟩, ?_, ?_⟩
    · simp only [binsView_eq, opStep] at hv ⊢
      rw [← hv]
      apply List.ext_getElem
      · simp
      · intro n h4 h5
        simp only [List.getElem_map, List.getElem_modify]
        split_ifs <;> simp [viewBin]
    · simp only [opStep]
      intro b hb j hj hjr
      obtain ⟨n, hn, rfl⟩ := List.getElem_of_mem hb
      rw [List.length_modify] at hn
      rw [List.getElem_modify] at hj
      split_ifs at hj
      · simp only [List.mem_append, List.mem_singleton] at hj
        rcases hj with hj | rfl
        · exact hrot p[n] (List.getElem_mem hn) j hj hjr
        · simp only at hjr
          rw [hjr] at h5
          simpa using h5
      · exact hrot _ (List.getElem_mem hn) j hj hjr

theorem raw_new (inst : Instance) : Raw inst (SolutionBuilder.new inst).sol [] :=
  ⟨⟨[], rfl⟩, rfl, by simp⟩

theorem raw_ops {inst : Instance} (ops : List BuilderOp) (sb : SolutionBuilder)
    (h : ops.foldlM (SolutionBuilder.step inst) (SolutionBuilder.new inst) = .ok sb) :
    Raw inst sb.sol (opsPacking ops) := by
  induction ops using List.reverseRecOn generalizing sb with
  | nil =>
    simp only [List.foldlM_nil] at h
    cases h
    exact raw_new inst
  | append_singleton ops op ih =>
    rw [foldlM_snoc_ok] at h
    obtain ⟨sb1, h1, h2⟩ := h
    have hp : opsPacking (ops ++ [op]) = opStep (opsPacking ops) op := by
      unfold opsPacking; rw [List.foldl_append]; rfl
    rw [hp]
    exact raw_step (ih sb1 h1) h2

/-- Invariant of the loop of `build`. -/
structure Building (inst : Instance) (p : Packing) (k : Nat) (s : Solution) : Prop where
  view : binsView s.bins = p
  indic : Indic inst s (p.take k)
  extents : k = p.length → Extents inst s p
  typed : WellTyped inst (p.take k)
  callback : k ≠ 0 → s.callbackFeasible = inst.callback p
  callback_zero : k = 0 → s.callbackFeasible = true

theorem build_loop {inst : Instance} {s0 : Solution} {p : Packing} (hr : Raw inst s0 p)
    (k : Nat) (hk : k ≤ p.length) (s : Solution)
    (h : (List.range k).foldlM (fun s pos => s.updateIndicators inst pos) s0 = .ok s) :
    Building inst p k s := by
  induction k generalizing s with
  | zero =>
    simp only [List.range_zero, List.foldlM_nil] at h
    cases h
    obtain ⟨bins, hs⟩ := hr.shape
    refine ⟨hr.view, ?_, ?_, by simp [WellTyped], fun h => absurd rfl h, fun _ => ?_⟩
    · rw [List.take_zero, hs]; exact (indic_init inst).withBins _
    · intro h0
      have hp : p = [] := List.length_eq_zero_iff.mp h0.symm
      rw [hp, hs]
      exact extents_nil _ _ rfl rfl
    · rw [hs]; rfl
  | succ k ih =>
    rw [List.range_succ, foldlM_snoc_ok] at h
    obtain ⟨s1, h1, h2⟩ := h
    obtain ⟨hv, hi, -, ht, hcb, hcb0⟩ := ih (by omega) s1 h1
    unfold Solution.updateIndicators at h2
    split_ifs at h2 with h3
    cases h2
    have hlen : s1.bins.length = p.length := by rw [← hv]; simp [binsView]
    have hkl : k < s1.bins.length := by omega
    have hview : viewBin (s1.bins.getD k default) = p[k]'(by omega) := by
      rw [List.getD_eq_getElem _ _ hkl]
      have : (binsView s1.bins)[k]'(by simp [binsView]; omega) = p[k]'(by omega) := by
        simp only [hv]
      rw [← this]; simp [binsView]
    simp only [Solution.inRange, Bool.and_eq_true, decide_eq_true_eq, List.all_eq_true] at h3
    have hl : InTypes inst (s1.bins.getD k default).items := h3.2
    have hv' := upd_view inst s1 k
    have htake : p.take (k + 1) = p.take k ++ [viewBin (s1.bins.getD k default)] := by
      rw [List.take_succ_eq_append_getElem (by omega), hview]
    have hind : Indic inst (s1.updateIndicatorsTotal inst k) (p.take (k + 1)) := by
      rw [htake]
      exact indic_step k hi h3.1.2 hl
    refine ⟨by rw [hv', hv], hind, ?_, ?_, ?_, by omega⟩
    · intro hkp
      have := extents_step (inst := inst) (s := s1) k hi (by omega)
      rw [← htake, List.take_of_length_le (by omega)] at this
      exact this
    · rw [htake]
      unfold WellTyped
      rw [forall_mem_snoc]
      exact ⟨ht, h3.1.2, hl⟩
    · intro _
      rw [upd_callback, hv', hv]

theorem builder_ok {inst : Instance} {sb : SolutionBuilder} {p : Packing} {s : Solution}
    (hr : Raw inst sb.sol p) (h2 : sb.build inst = .ok s) :
    Good inst s ∧ binsView s.bins = p := by
  have hlen : sb.sol.bins.length = p.length := by rw [← hr.view]; simp [binsView]
  unfold SolutionBuilder.build at h2
  have hb := build_loop hr sb.sol.bins.length (by omega) s h2
  rw [hlen] at hb
  obtain ⟨hv, hi, he, ht, hcb, hcb0⟩ := hb
  rw [List.take_length] at hi ht
  have hl2 : s.bins.length = p.length := by rw [← hv]; simp [binsView]
  refine ⟨⟨by rw [hv]; exact hi, by rw [hv]; exact he rfl, by rw [hv]; exact ht, ?_, ?_⟩, hv⟩
  · intro hne
    rw [hv]; apply hcb
    intro e
    apply hne
    exact List.length_eq_zero_iff.mp (by omega)
  · intro he
    apply hcb0
    rw [← hl2, he]; rfl

theorem build_ok {inst : Instance} (ops : List BuilderOp) (s : Solution)
    (h : SolutionBuilder.runOps inst ops = .ok s) :
    Good inst s ∧ binsView s.bins = opsPacking ops := by
  unfold SolutionBuilder.runOps at h
  obtain ⟨sb, h1, h2⟩ := bind_ok.mp h
  exact builder_ok (raw_ops ops sb h1) h2

/-- `build` succeeds when all types exist. -/
theorem build_succeeds {inst : Instance} {sb : SolutionBuilder} {p : Packing}
    (hr : Raw inst sb.sol p) (ht : WellTyped inst p) : ∃ s, sb.build inst = .ok s := by
  have hlen : sb.sol.bins.length = p.length := by rw [← hr.view]; simp [binsView]
  unfold SolutionBuilder.build
  have : ∀ k, k ≤ p.length → ∃ s, (List.range k).foldlM
      (fun s pos => s.updateIndicators inst pos) sb.sol = .ok s := by
    intro k
    induction k with
    | zero => intro _; exact ⟨_, rfl⟩
    | succ k ih =>
      intro hk
      obtain ⟨s1, h1⟩ := ih (by omega)
      have hb := build_loop hr k (by omega) s1 h1
      have hl1 : s1.bins.length = p.length := by rw [← hb.view]; simp [binsView]
      have hkl : k < s1.bins.length := by omega
      have hview : viewBin (s1.bins.getD k default) = p[k]'(by omega) := by
        rw [List.getD_eq_getElem _ _ hkl]
        have : (binsView s1.bins)[k]'(by simp [binsView]; omega) = p[k]'(by omega) := by
          simp only [hb.view]
        rw [← this]; simp [binsView]
      have hm := ht (p[k]'(by omega)) (List.getElem_mem _)
      rw [← hview] at hm
      refine ⟨s1.updateIndicatorsTotal inst k, ?_⟩
      rw [List.range_succ, foldlM_snoc_ok]
      refine ⟨s1, h1, ?_⟩
      unfold Solution.updateIndicators
      rw [if_pos]
      simp only [Solution.inRange, Bool.and_eq_true, decide_eq_true_eq, List.all_eq_true]
      exact ⟨⟨hkl, hm.1⟩, hm.2⟩
  exact this _ (by omega)

theorem _root_.PackingSolver.Rect.Spec.Reachable.good {inst : Instance} {s : Solution}
    (h : Reachable inst s) : Good inst s := by
  induction h with
  | init => exact good_init inst
  | built ops s h => exact (build_ok ops s h).1
  | appendBin s s' other pos copies mb mi _ h ih => exact (appendBin_ok ih h).2.1
  | appendBins s s' other mb mi _ h ih => exact (appendBins_ok ih h).1
  | appendEmptyBin s s' t copies _ h ih => exact (appendEmptyBin_ok ih h).1

end PackingSolver.Rect
