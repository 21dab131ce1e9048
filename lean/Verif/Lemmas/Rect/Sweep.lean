import Verif.Lemmas.Rect.Dff

/-!
# The sweep over all combinations

Lemmas: the number of bins computed by the sweep never exceeds the number of bins of a packing of
all items.
-/

namespace PackingSolver.Rect.DffLemmas

open Dff _root_.PackingSolver.Rect.Spec

variable {inst : Instance}

theorem count_cons (p : PlacedItem) (items : List PlacedItem) (i : Nat) :
    Spec.count (p :: items) i = Spec.count items i + if p.itemTypeId = i then 1 else 0 := by
  unfold Spec.count
  rw [List.countP_cons]
  by_cases h : p.itemTypeId = i <;> simp [h]

theorem count_append (a b : List PlacedItem) (i : Nat) :
    Spec.count (a ++ b) i = Spec.count a i + Spec.count b i := by
  unfold Spec.count
  rw [List.countP_append]
  norm_cast

theorem count_nonneg (a : List PlacedItem) (i : Nat) : 0 ≤ Spec.count a i := by
  unfold Spec.count
  exact Int.natCast_nonneg _

theorem sum_indicator (n : Nat) (f : Nat → Int) (k : Nat) (hk : k < n) :
    ((List.range n).map fun i => (if k = i then 1 else 0) * f i).sum = f k := by
  induction n with
  | zero => omega
  | succ n ih =>
    rw [List.range_succ, List.map_append, List.sum_append]
    by_cases h : k = n
    · subst h
      have h0 : ((List.range k).map fun i => (if k = i then (1 : Int) else 0) * f i).sum = 0 := by
        apply List.sum_eq_zero
        intro x hx
        obtain ⟨i, hi, rfl⟩ := List.mem_map.1 hx
        have := List.mem_range.1 hi
        rw [if_neg (by omega)]
        simp
      rw [h0]
      simp
    · rw [ih (by omega)]
      simp [h]

/-- A sum over placed items, grouped by item type. -/
theorem sum_by_type (items : List PlacedItem) (n : Nat) (f : Nat → Int)
    (h : ∀ p ∈ items, p.itemTypeId < n) :
    (items.map fun p => f p.itemTypeId).sum
      = ((List.range n).map fun i => Spec.count items i * f i).sum := by
  induction items with
  | nil =>
    symm
    apply List.sum_eq_zero
    intro x hx
    obtain ⟨i, _, rfl⟩ := List.mem_map.1 hx
    simp [Spec.count]
  | cons p items ih =>
    rw [List.map_cons, List.sum_cons, ih fun q hq => h q (List.mem_cons_of_mem _ hq)]
    have e : ((List.range n).map fun i => Spec.count (p :: items) i * f i)
        = (List.range n).map fun i => Spec.count items i * f i
          + (if p.itemTypeId = i then 1 else 0) * f i := by
      apply List.map_congr_left
      intro i _
      rw [count_cons]
      ring
    rw [e, List.sum_map_add, sum_indicator n f _ (h p List.mem_cons_self)]
    ring

theorem withinCopies_of_full {bins : List (List PlacedItem)} (hp : FullPacking inst bins)
    {items : List PlacedItem} (hi : items ∈ bins) : WithinCopies inst items := by
  intro i hin
  rw [← hp.all i hin]
  obtain ⟨a, b, rfl⟩ := List.append_of_mem hi
  rw [List.flatten_append, List.flatten_cons, count_append, count_append]
  have := count_nonneg a.flatten i
  have := count_nonneg b.flatten i
  omega

theorem comboSum_eq (inst : Instance) (f : Nat → Int) :
    comboSum inst ((List.range inst.numberOfItemTypes).map f)
      = ((List.range inst.numberOfItemTypes).map fun i => (inst.itemType i).copies * f i).sum := by
  unfold comboSum
  conv_lhs => rw [itemTypes_eq inst]
  rw [List.zipWith_map]
  congr 1
  generalize List.range inst.numberOfItemTypes = l
  induction l with
  | nil => rfl
  | cons a l ih => simp

theorem bcoef_nonneg (h : Positive inst) {b : Nat}
    (hb : 0 < (inst.binType b).x ∧ 0 < (inst.binType b).y) {c : Combo}
    (hc : GoodCombo inst (inst.binType b) c) : 0 ≤ bcoef inst (inst.binType b) c := by
  have := bin_valid (items := []) h hb hc ⟨by simp, by simp, by simp, by simp⟩ (by
    intro i hi
    have := (h.items _ (itemType_mem hi)).2.2
    simpa [Spec.count] using this)
  simpa using this

theorem sum_bins_le (f : PlacedItem → Int) (B : Int) (bins : List (List PlacedItem))
    (h : ∀ items ∈ bins, (items.map f).sum ≤ B) :
    (bins.flatten.map f).sum ≤ bins.length * B := by
  induction bins with
  | nil => simp
  | cons a bins ih =>
    rw [List.flatten_cons, List.map_append, List.sum_append, List.length_cons]
    have h1 := h a List.mem_cons_self
    have h2 := ih fun items hi => h items (List.mem_cons_of_mem _ hi)
    push_cast
    linarith

theorem fullSum_le (h : Positive inst)
    (hb : 0 < (inst.binType 0).x ∧ 0 < (inst.binType 0).y) {c : Combo}
    (hc : GoodCombo inst (inst.binType 0) c) {bins : List (List PlacedItem)}
    (hp : FullPacking inst bins) :
    comboSum inst ((List.range inst.numberOfItemTypes).map (icoef inst (inst.binType 0) c))
      ≤ bins.length * bcoef inst (inst.binType 0) c := by
  rw [comboSum_eq]
  have e : ((List.range inst.numberOfItemTypes).map fun i =>
        (inst.itemType i).copies * icoef inst (inst.binType 0) c i)
      = (List.range inst.numberOfItemTypes).map fun i =>
        Spec.count bins.flatten i * icoef inst (inst.binType 0) c i := by
    apply List.map_congr_left
    intro i hi
    rw [hp.all i (List.mem_range.1 hi)]
  rw [e, ← sum_by_type bins.flatten]
  · apply sum_bins_le
    intro items hi
    exact bin_valid h hb hc (hp.each items hi) (withinCopies_of_full hp hi)
  · intro p hpm
    obtain ⟨items, hi, hpi⟩ := List.mem_flatten.1 hpm
    exact (hp.each items hi).exist p hpi

theorem boundCombo_le {undef : Except Err Int} {m : Nat}
    (hu : ∀ v, undef = .ok v → v ≤ (m : Int)) {sum div : Int}
    (hd : 0 ≤ div) (hs : sum ≤ m * div) {v : Int} (hv : boundCombo undef sum div = .ok v) :
    v ≤ m := by
  unfold boundCombo at hv
  by_cases h0 : div = 0
  · rw [if_pos h0] at hv
    exact hu v hv
  · rw [if_neg h0] at hv
    cases hv
    rw [Int.ceil_le]
    have hpos : (0 : ℚ) < div := by exact_mod_cast lt_of_le_of_ne hd (Ne.symm h0)
    rw [div_le_iff₀ hpos]
    exact_mod_cast hs

/-- Positive bin type 0. -/
theorem bin0 (h : Positive inst) (hn : inst.binTypes ≠ []) :
    0 < (inst.binType 0).x ∧ 0 < (inst.binType 0).y := by
  cases hb : inst.binTypes with
  | nil => exact absurd hb hn
  | cons b l =>
    have : inst.binType 0 = b := by simp [Instance.binType, hb]
    rw [this]
    exact h.bins b (by rw [hb]; exact List.mem_cons_self)

theorem sweepBins_le {undef : Except Err Int} (h : Positive inst) (hn : inst.binTypes ≠ [])
    {bins : List (List PlacedItem)} (hu : ∀ v, undef = .ok v → v ≤ (bins.length : Int))
    (hp : FullPacking inst bins) {v : Int} (hv : sweepBins undef inst = .ok v) :
    v ≤ bins.length := by
  have hb := bin0 h hn
  obtain ⟨ts, e, hts⟩ := dffTables_ok h hb
  unfold sweepBins at hv
  rw [e] at hv
  refine foldlM_inv (fun v : Int => v ≤ bins.length) (by positivity) ?_ hv
  intro c a b hc ha hstep
  have hg := hts c hc
  unfold binBoundStep at hstep
  rw [comboBin_eq h hb hg, comboVolumes_eq h hb hg] at hstep
  obtain ⟨d, hd, hstep⟩ := bind_ok.1 hstep
  cases hd
  obtain ⟨vs, hvs, hstep⟩ := bind_ok.1 hstep
  cases hvs
  obtain ⟨w, hw, hstep⟩ := bind_ok.1 hstep
  cases hstep
  exact max_le ha (boundCombo_le hu (bcoef_nonneg h hb hg) (fullSum_le h hb hg hp) hw)

theorem sweepBins_nonneg {undef : Except Err Int} {v : Int}
    (hv : sweepBins undef inst = .ok v) : 0 ≤ v := by
  unfold sweepBins at hv
  obtain ⟨ts, _, hv⟩ := bind_ok.1 hv
  refine foldlM_inv (fun v : Int => 0 ≤ v) (le_refl 0) ?_ hv
  intro c a b hc ha hstep
  unfold binBoundStep at hstep
  obtain ⟨_, _, hstep⟩ := bind_ok.1 hstep
  obtain ⟨_, _, hstep⟩ := bind_ok.1 hstep
  obtain ⟨_, _, hstep⟩ := bind_ok.1 hstep
  cases hstep
  exact le_max_of_le_left ha

theorem sweepBins_ok {u : Int} (h : Positive inst) (hn : inst.binTypes ≠ []) :
    ∃ v, sweepBins (.ok u) inst = .ok v := by
  have hb := bin0 h hn
  obtain ⟨ts, e, hts⟩ := dffTables_ok h hb
  unfold sweepBins
  rw [e]
  have : ∀ (l : List Combo), (∀ c ∈ l, GoodCombo inst (inst.binType 0) c) → ∀ a, ∃ v,
      l.foldlM (binBoundStep (.ok u) inst (inst.binType 0)) a = .ok v := by
    intro l
    induction l with
    | nil => intro _ a; exact ⟨a, rfl⟩
    | cons c l ih =>
      intro hl a
      have hg := hl c List.mem_cons_self
      have hs : ∃ b, binBoundStep (.ok u) inst (inst.binType 0) a c = .ok b := by
        unfold binBoundStep boundCombo
        rw [comboBin_eq h hb hg, comboVolumes_eq h hb hg]
        by_cases h0 : bcoef inst (inst.binType 0) c = 0
        · exact ⟨_, by simp [h0, bind, Except.bind, pure, Except.pure]; rfl⟩
        · exact ⟨_, by simp [h0, bind, Except.bind, pure, Except.pure]; rfl⟩
      obtain ⟨b, hs⟩ := hs
      obtain ⟨v, hv⟩ := ih (fun c hc => hl c (List.mem_cons_of_mem _ hc)) b
      exact ⟨v, by rw [List.foldlM_cons, hs]; exact hv⟩
  exact this _ hts 0

end PackingSolver.Rect.DffLemmas
