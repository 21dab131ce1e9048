import Verif.Lemmas.OneDim.Good
import Verif.Lemmas.Except
import Verif.Spec.OneDimHistory

/-! Helper lemmas: every history of API calls keeps the indicators exact. -/

namespace PackingSolver.OneDim

open Spec

theorem relabel_some {m : List Nat} {i j : Nat} (h : relabel m i = some j) :
    j = mapId m i := by
  unfold relabel at h
  unfold mapId
  split_ifs at h ⊢ with h1
  · simpa using h.symm
  · simp [List.getD_eq_getElem?_getD, h]

theorem relabelItems_ids {m : List Nat} (items items' : List SolutionItem)
    (h : relabelItems m items = some items') :
    ids items' = (ids items).map (mapId m) := by
  unfold relabelItems at h
  induction items generalizing items' with
  | nil => simp at h; subst h; rfl
  | cons a l ih =>
    rw [List.mapM_cons] at h
    simp only [Option.bind_eq_bind, Option.bind_eq_some_iff, Option.map_eq_some_iff,
      Option.pure_def, Option.some.injEq] at h
    obtain ⟨x, ⟨j, hj, rfl⟩, y, hy, rfl⟩ := h
    simp only [ids, List.map_cons] at ih ⊢
    rw [ih y hy, relabel_some hj]

theorem appendBin_ok {inst : Instance} {s s' other : Solution} {pos : Nat} {copies : Int}
    {mb mi : List Nat} (hg : Good inst s) (hc : 0 ≤ copies)
    (h : s.appendBin inst other pos copies mb mi = .ok s') :
    pos < other.bins.length ∧ Good inst s' ∧ binsView s'.bins = binsView s.bins
      ++ [relabelBin mb mi { viewBin (other.bins.getD pos default) with copies := copies }] := by
  unfold Solution.appendBin at h
  cases hb : other.bins[pos]? with
  | none => rw [hb] at h; simp at h
  | some bin =>
    rw [hb] at h
    have hlt : pos < other.bins.length := by
      by_contra hge
      rw [List.getElem?_eq_none (by omega)] at hb; simp at hb
    have hd : other.bins.getD pos default = bin := by simp [List.getD_eq_getElem?_getD, hb]
    simp only at h
    split at h
    · simp at h
    · split at h
      · next b items h1 h2 =>
        have := good_pushBin hg { binTypeId := b, copies := copies, items := items } rfl hc h
        refine ⟨hlt, this.1, ?_⟩
        rw [this.2, hd]
        simp only [viewBin, relabelBin]
        rw [relabelItems_ids _ _ h2, relabel_some h1]
      · simp at h

theorem appendBins_aux {inst : Instance} {s s' other : Solution}
    {mb mi : List Nat} (hg : Good inst s) (hc : ∀ b ∈ other.bins, 0 ≤ b.copies)
    (n : Nat) (hn : n ≤ other.bins.length)
    (h : (List.range n).foldlM
      (fun s pos => s.appendBin inst other pos (other.bins.getD pos default).copies mb mi) s
        = .ok s') :
    Good inst s' ∧ binsView s'.bins = binsView s.bins
      ++ (other.bins.take n).map (fun b => relabelBin mb mi (viewBin b)) := by
  induction n generalizing s' with
  | zero =>
    simp only [List.range_zero, List.foldlM_nil] at h
    cases h
    exact ⟨hg, by simp⟩
  | succ n ih =>
    rw [List.range_succ, foldlM_snoc_ok] at h
    obtain ⟨s1, h1, h2⟩ := h
    · obtain ⟨g1, v1⟩ := ih (by omega) h1
      have hlt : n < other.bins.length := by omega
      have hcn : 0 ≤ (other.bins.getD n default).copies := by
        rw [List.getD_eq_getElem _ _ hlt]; exact hc _ (List.getElem_mem hlt)
      obtain ⟨_, g2, v2⟩ := appendBin_ok g1 hcn h2
      refine ⟨g2, ?_⟩
      rw [v2, v1, List.take_succ_eq_append_getElem hlt, List.getD_eq_getElem _ _ hlt,
        List.map_append, List.append_assoc]
      rfl

theorem appendBins_ok {inst : Instance} {s s' other : Solution}
    {mb mi : List Nat} (hg : Good inst s) (hc : ∀ b ∈ other.bins, 0 ≤ b.copies)
    (h : s.appendBins inst other mb mi = .ok s') :
    Good inst s' ∧ binsView s'.bins = binsView s.bins
      ++ other.bins.map (fun b => relabelBin mb mi (viewBin b)) := by
  have := appendBins_aux hg hc other.bins.length (le_refl _) h
  rwa [List.take_length] at this

theorem appendEmptyBin_ok {inst : Instance} {s s' : Solution} {t : Nat} {copies : Int}
    (hg : Good inst s) (hc : 0 ≤ copies) (h : s.appendEmptyBin inst t copies = .ok s') :
    Good inst s' ∧ binsView s'.bins = binsView s.bins ++ [⟨t, copies, []⟩] :=
  good_pushBin hg { binTypeId := t, copies := copies } rfl hc h

/-! ### The builder -/

/-- State of the builder before `build`. -/
structure Raw (inst : Instance) (s : Solution) (p : Packing) : Prop where
  shape : ∃ bins, s = { Solution.init inst with bins := bins }
  view : binsView s.bins = p
  weight : ∀ b ∈ s.bins, b.weight = 0

theorem raw_ops {inst : Instance} (ops : List BuilderOp) (sb : SolutionBuilder)
    (h : ops.foldlM (SolutionBuilder.step inst) (SolutionBuilder.new inst) = .ok sb) :
    Raw inst sb.sol (opsPacking ops) := by
  induction ops using List.reverseRecOn generalizing sb with
  | nil =>
    simp only [List.foldlM_nil] at h
    cases h
    exact ⟨⟨[], rfl⟩, rfl, by simp [SolutionBuilder.new, Solution.init]⟩
  | append_singleton ops op ih =>
    rw [foldlM_snoc_ok] at h
    obtain ⟨sb1, h1, h2⟩ := h
    · obtain ⟨⟨bins, hs⟩, hv, hw⟩ := ih sb1 h1
      have hp : opsPacking (ops ++ [op]) = opStep (opsPacking ops) op := by
        unfold opsPacking; rw [List.foldl_append]; rfl
      rw [hp]
      cases op with
      | addBin t c =>
        simp only [SolutionBuilder.step, SolutionBuilder.addBin] at h2
        split_ifs at h2 with h3
        cases h2
        refine ⟨⟨sb1.sol.bins ++ [{ binTypeId := t, copies := c }], ?_⟩, ?_, ?_⟩
        · rw [hs]
        · simp only [binsView_eq, List.map_append] at hv ⊢
          rw [hv]; rfl
        · intro b hb
          rcases List.mem_append.mp hb with hb | hb
          · exact hw b hb
          · rw [List.mem_singleton.mp hb]
      | addItem k i =>
        simp only [SolutionBuilder.step, SolutionBuilder.addItem] at h2
        split_ifs at h2 with h3
        cases h2
        refine ⟨⟨_, by rw [hs]⟩, ?_, ?_⟩
        · simp only [binsView_eq, opStep] at hv ⊢
          rw [← hv]
          apply List.ext_getElem
          · simp
          · intro n h4 h5
            simp only [List.getElem_map, List.getElem_modify]
            split_ifs <;> simp [viewBin, ids]
        · intro b hb
          obtain ⟨n, hn, rfl⟩ := List.getElem_of_mem hb
          rw [List.length_modify] at hn
          rw [List.getElem_modify]
          split_ifs
          · exact hw sb1.sol.bins[n] (List.getElem_mem hn)
          · exact hw _ (List.getElem_mem hn)

/-- Invariant of the loop of `build`. -/
structure Building (inst : Instance) (p : Packing) (k : Nat) (s : Solution) : Prop where
  view : binsView s.bins = p
  indic : Indic inst s (p.take k)
  weight : ∀ j, k ≤ j → j < s.bins.length → (s.bins.getD j default).weight = 0
  typed : WellTyped inst (p.take k)
  callback : k ≠ 0 → s.callbackFeasible = inst.callback p
  callback_zero : k = 0 → s.callbackFeasible = true
  orderPending : k < p.length → s.binTypeOrderFeasible = true
  orderDone : k = p.length → inst.objective = .binPacking →
    (s.binTypeOrderFeasible = true ↔ OrderOk inst p)
  order_other : inst.objective ≠ .binPacking → s.binTypeOrderFeasible = true

theorem build_loop {inst : Instance} {s0 : Solution} {p : Packing} (hr : Raw inst s0 p)
    (hc : ∀ b ∈ p, 0 ≤ b.copies) (k : Nat) (hk : k ≤ p.length) (s : Solution)
    (h : (List.range k).foldlM (fun s pos => s.updateIndicators inst pos) s0 = .ok s) :
    Building inst p k s := by
  induction k generalizing s with
  | zero =>
    simp only [List.range_zero, List.foldlM_nil] at h
    cases h
    obtain ⟨bins, hs⟩ := hr.shape
    refine ⟨hr.view, ?_, ?_, by simp [WellTyped], fun h => absurd rfl h, fun _ => ?_,
      fun _ => by rw [hs]; rfl, ?_, fun _ => by rw [hs]; rfl⟩
    · rw [List.take_zero, hs]; exact (indic_init inst).withBins _
    · intro j _ hj
      rw [List.getD_eq_getElem _ _ hj]; exact hr.weight _ (List.getElem_mem hj)
    · rw [hs]; rfl
    · intro h0 _
      have hp : p = [] := List.length_eq_zero_iff.mp h0.symm
      rw [hs, hp]
      refine ⟨fun _ t u _ _ hu => by simp [Spec.binCopies] at hu, fun _ => rfl⟩
  | succ k ih =>
    rw [List.range_succ, foldlM_snoc_ok] at h
    obtain ⟨s1, h1, h2⟩ := h
    · obtain ⟨hv, hi, hw, ht, hcb, hcb0, hop, hod, hoo⟩ := ih (by omega) s1 h1
      unfold Solution.updateIndicators at h2
      split_ifs at h2 with h3
      cases h2
      have hlen : s1.bins.length = p.length := by rw [← hv]; simp [binsView]
      have hkl : k < s1.bins.length := by omega
      have hview : viewBin (s1.bins.getD k default) = p[k]'(by omega) := by
        rw [List.getD_eq_getElem _ _ hkl]
        have : (binsView s1.bins)[k]'(by simp [binsView]; omega) = p[k]'(by omega) := by
          simp only [hv]
        rw [← this]; simp [binsView]
      simp only [Solution.inRange, Bool.and_eq_true, decide_eq_true_eq, List.all_eq_true] at h3
      have hl : InTypes inst (ids (s1.bins.getD k default).items) := by
        intro i hi
        obtain ⟨it, hit, rfl⟩ := List.mem_map.mp hi
        exact h3.2 it hit
      have hcp : 0 ≤ (s1.bins.getD k default).copies := by
        have := hc (p[k]'(by omega)) (List.getElem_mem _)
        rw [← hview] at this; exact this
      have hwk := hw k (le_refl _) hkl
      have hv' := upd_view inst s1 k hwk
      have htake : p.take (k + 1) = p.take k ++ [viewBin (s1.bins.getD k default)] := by
        rw [List.take_succ_eq_append_getElem (by omega), hview]
      have hind : Indic inst (s1.updateIndicatorsTotal inst k) (p.take (k + 1)) := by
        rw [htake]
        exact indic_step k hi hwk h3.1.2 hcp hl
      refine ⟨by rw [hv', hv], hind, ?_, ?_, ?_, by omega, ?_, ?_, ?_⟩
      · intro j hj hjl
        rw [upd_bins] at hjl ⊢
        rw [List.length_set] at hjl
        rw [List.getD_eq_getElem _ _ (by simpa using hjl), List.getElem_set_ne (by omega),
          ← List.getD_eq_getElem _ default hjl]
        exact hw j (by omega) hjl
      · rw [htake]
        unfold WellTyped
        rw [forall_mem_snoc]
        exact ⟨ht, h3.1.2, hcp, hl⟩
      · intro _
        rw [upd_callback, hv', hv]
      · intro hlt
        by_cases ho : inst.objective = .binPacking
        · exact (order_step k hind ho).mpr ⟨hop (by omega), fun h => by omega⟩
        · rw [order_step_other _ ho]; exact hoo ho
      · intro hkp ho
        rw [order_step k hind ho]
        have : p.take (k + 1) = p := List.take_of_length_le (by omega)
        rw [this]
        exact ⟨fun h => h.2 (by omega), fun h => ⟨hop (by omega), fun _ => h⟩⟩
      · intro ho
        rw [order_step_other _ ho]; exact hoo ho

theorem build_ok {inst : Instance} (ops : List BuilderOp) (s : Solution)
    (hc : ∀ b ∈ opsPacking ops, 0 ≤ b.copies)
    (h : SolutionBuilder.runOps inst ops = .ok s) :
    (Good inst s ∧ binsView s.bins = opsPacking ops) ∧ (inst.objective = .binPacking →
      (s.binTypeOrderFeasible = true ↔ OrderOk inst (opsPacking ops))) := by
  unfold SolutionBuilder.runOps at h
  obtain ⟨sb, h1, h2⟩ := bind_ok.mp h
  · have hr := raw_ops ops sb h1
    have hlen : sb.sol.bins.length = (opsPacking ops).length := by rw [← hr.view]; simp [binsView]
    unfold SolutionBuilder.build at h2
    have hb := build_loop hr hc sb.sol.bins.length (by omega) s h2
    rw [hlen] at hb
    obtain ⟨hv, hi, hw, ht, hcb, hcb0, hop, hod, hoo⟩ := hb
    rw [List.take_length] at hi ht
    have hl2 : s.bins.length = (opsPacking ops).length := by rw [← hv]; simp [binsView]
    refine ⟨⟨⟨by rw [hv]; exact hi, by rw [hv]; exact ht, ?_, ?_, ?_, hoo⟩, hv⟩, hod rfl⟩
    · intro hne
      rw [hv]; apply hcb
      intro e
      apply hne
      exact List.length_eq_zero_iff.mp (by omega)
    · intro he
      apply hcb0
      rw [← hl2, he]; rfl
    · intro ho hf
      rw [hv]; exact (hod rfl ho).mp hf

theorem opsPacking_copies (ops : List BuilderOp)
    (hc : ∀ t c, BuilderOp.addBin t c ∈ ops → 0 ≤ c) : ∀ b ∈ opsPacking ops, 0 ≤ b.copies := by
  induction ops using List.reverseRecOn with
  | nil => simp [opsPacking]
  | append_singleton ops op ih =>
    have ih' := ih (fun t c h => hc t c (by simp [h]))
    unfold opsPacking at ih' ⊢
    rw [List.foldl_append]
    simp only [List.foldl_cons, List.foldl_nil, opStep]
    cases op with
    | addBin t c =>
      simp only
      rw [forall_mem_snoc]
      exact ⟨ih', hc t c (by simp)⟩
    | addItem k i =>
      intro b hb
      simp only at hb
      obtain ⟨n, hn, rfl⟩ := List.getElem_of_mem hb
      rw [List.length_modify] at hn
      rw [List.getElem_modify]
      split_ifs
      · exact ih' (List.foldl opStep [] ops)[n] (List.getElem_mem hn)
      · exact ih' _ (List.getElem_mem hn)

theorem Spec.Reachable.good {inst : Instance} {s : Solution} (h : Reachable inst s) : Good inst s := by
  induction h with
  | init => exact good_init inst
  | built ops s hc h => exact (build_ok ops s (opsPacking_copies ops hc) h).1.1
  | appendBin s s' other pos copies mb mi _ hc h ih => exact (appendBin_ok ih hc h).2.1
  | appendBins s s' other mb mi _ hc h ih => exact (appendBins_ok ih hc h).1
  | appendEmptyBin s s' t copies _ hc h ih => exact (appendEmptyBin_ok ih hc h).1

end PackingSolver.OneDim
