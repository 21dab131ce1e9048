import Verif.Lemmas.Box.Sweep
import Verif.Lemmas.OneDim.Dff

/-!
# The knapsack bound

Lemmas: the Dantzig bound of any valid volumes is at least the profit of every packing.
-/

namespace PackingSolver.Box.DffLemmas

open Dff _root_.PackingSolver.Box.Spec
open _root_.PackingSolver.OneDim.BoundLemmas (greedyFill greedyFill_bound foldl_add
  negativePenaltySum_eq negativePenaltySum_nonneg)
open _root_.PackingSolver.OneDim.DffLemmas (foldl_if_add)

variable {inst : Instance}

theorem dantzigFill_zero (volumes : List Int) (l : List Nat) (bound : ℚ) :
    dantzigFill inst volumes l 0 bound = bound := by
  cases l with
  | nil => rfl
  | cons i l => unfold dantzigFill; rw [if_pos (le_refl _)]

theorem dantzigFill_eq (volumes : List Int) (l : List Nat) (r bound : ℚ) :
    dantzigFill inst volumes l r bound = bound + greedyFill
      (fun i => (volumes.getD i 0 : ℚ)) (fun i => ((inst.itemType i).copies : ℚ))
      (fun i => (inst.itemType i).profit) l r := by
  induction l generalizing r bound with
  | nil => simp [dantzigFill, greedyFill]
  | cons i l ih =>
    unfold dantzigFill greedyFill
    by_cases h1 : r ≤ 0
    · rw [if_pos h1, if_pos h1, add_zero]
    rw [if_neg h1, if_neg h1]
    by_cases h2 : (volumes.getD i 0 : ℚ) * ((inst.itemType i).copies : ℚ) ≤ r
    · rw [if_pos h2, if_pos h2, ih]; ring
    · rw [if_neg h2, if_neg h2, dantzigFill_zero]

theorem dantzigFree_eq (volumes : List Int) : dantzigFree inst volumes
    = (((List.range inst.numberOfItemTypes).filter fun i =>
        inst.fitsSomeBin i && decide (volumes.getD i 0 ≤ 0)).map fun i =>
        (inst.itemType i).profit * ((inst.itemType i).copies : ℚ)).sum := by
  unfold dantzigFree
  have := foldl_if_add (fun i => inst.fitsSomeBin i && decide (volumes.getD i 0 ≤ 0))
    (fun i => (inst.itemType i).profit * ((inst.itemType i).copies : ℚ))
    (List.range inst.numberOfItemTypes) 0
  rw [zero_add] at this
  rw [← this]
  congr 1
  funext s i
  cases h1 : inst.fitsSomeBin i <;> by_cases h2 : volumes.getD i 0 ≤ 0 <;> simp_all

/-- Validity of the Dantzig bound for any volumes for which the numbers `y` of packed copies
fit. -/
theorem dantzig_valid {y : Nat → ℚ} (hy0 : ∀ i, 0 ≤ y i)
    (hyc : ∀ i, i < inst.numberOfItemTypes → y i ≤ ((inst.itemType i).copies : ℚ))
    (hfit : ∀ i, i < inst.numberOfItemTypes → inst.fitsSomeBin i = false → y i = 0)
    (hprof : ∀ i, i < inst.numberOfItemTypes → 0 ≤ (inst.itemType i).profit)
    {sort : List Int → List Nat → List Nat} {volumes : List Int}
    (hsort : PackingSolver.Spec.IsSortOf (dantzigLt inst volumes) (dantzigItemTypes inst volumes)
      (sort volumes (dantzigItemTypes inst volumes)))
    (hvol : ∀ i, i < inst.numberOfItemTypes → 0 ≤ volumes.getD i 0)
    {capacity : ℚ}
    (hcap : ((List.range inst.numberOfItemTypes).map fun i => y i * (volumes.getD i 0 : ℚ)).sum
      ≤ capacity) :
    ((List.range inst.numberOfItemTypes).map fun i => y i * (inst.itemType i).profit).sum
      ≤ dantzigProfitBound inst sort volumes capacity := by
  unfold dantzigProfitBound
  rw [dantzigFill_eq, dantzigFree_eq]
  set order := sort volumes (dantzigItemTypes inst volumes) with horder
  have hmem : ∀ i, i ∈ order ↔ i < inst.numberOfItemTypes
      ∧ inst.fitsSomeBin i = true ∧ 0 < volumes.getD i 0 := by
    intro i
    rw [hsort.perm.mem_iff]
    simp [dantzigItemTypes]
  have hsplit : ∀ f : Nat → ℚ, (∀ i, y i = 0 → f i = 0) →
      ((List.range inst.numberOfItemTypes).map f).sum
        = (((List.range inst.numberOfItemTypes).filter fun i =>
          inst.fitsSomeBin i && decide (volumes.getD i 0 ≤ 0)).map f).sum
          + (order.map f).sum := by
    intro f hf0
    rw [(hsort.perm.map f).sum_eq]
    unfold dantzigItemTypes
    have : ∀ l : List Nat, (∀ i ∈ l, i < inst.numberOfItemTypes) →
        (l.map f).sum = ((l.filter fun i =>
          inst.fitsSomeBin i && decide (volumes.getD i 0 ≤ 0)).map f).sum
          + ((l.filter fun i =>
          inst.fitsSomeBin i && decide (0 < volumes.getD i 0)).map f).sum := by
      intro l
      induction l with
      | nil => simp
      | cons i l ih =>
        intro hl
        have ih := ih fun j hj => hl j (List.mem_cons_of_mem _ hj)
        cases hfi : inst.fitsSomeBin i with
        | false =>
          rw [List.filter_cons_of_neg (by simp [hfi]), List.filter_cons_of_neg (by simp [hfi]),
            List.map_cons, List.sum_cons, ih, hf0 i (hfit i (hl i List.mem_cons_self) hfi),
            zero_add]
        | true =>
          by_cases hv : volumes.getD i 0 ≤ 0
          · rw [List.filter_cons_of_pos (by simp only [hfi, hv]; rfl),
              List.filter_cons_of_neg (by simp only [hfi, Bool.true_and, decide_eq_true_eq]; omega),
              List.map_cons, List.map_cons, List.sum_cons, List.sum_cons, ih]
            ring
          · rw [List.filter_cons_of_neg (by simp only [hfi, hv]; decide),
              List.filter_cons_of_pos (by simp only [hfi, Bool.true_and, decide_eq_true_eq]; omega),
              List.map_cons, List.map_cons, List.sum_cons, List.sum_cons, ih]
            ring
    exact this _ fun i hi => List.mem_range.1 hi
  rw [hsplit _ fun i hi => by simp [hi]]
  have hcap' := hcap
  rw [hsplit _ fun i hi => by simp [hi]] at hcap'
  have hfree0 : (0 : ℚ) ≤ (((List.range inst.numberOfItemTypes).filter fun i =>
      inst.fitsSomeBin i && decide (volumes.getD i 0 ≤ 0)).map fun i =>
      y i * (volumes.getD i 0 : ℚ)).sum := by
    refine List.sum_nonneg fun x hx => ?_
    obtain ⟨i, hi, rfl⟩ := List.mem_map.mp hx
    have hi := List.mem_range.mp (List.mem_filter.mp hi).1
    exact mul_nonneg (hy0 i) (by exact_mod_cast hvol i hi)
  have hord0 : (0 : ℚ) ≤ (order.map fun i => y i * (volumes.getD i 0 : ℚ)).sum := by
    refine List.sum_nonneg fun x hx => ?_
    obtain ⟨i, hi, rfl⟩ := List.mem_map.mp hx
    exact mul_nonneg (hy0 i) (by exact_mod_cast hvol i ((hmem i).mp hi).1)
  apply add_le_add
  · apply List.sum_le_sum
    intro i hi
    have hi := List.mem_range.mp (List.mem_filter.mp hi).1
    have := mul_le_mul_of_nonneg_right (hyc i hi) (hprof i hi)
    linarith
  · have hg := greedyFill_bound (fun i => (volumes.getD i 0 : ℚ))
      (fun i => ((inst.itemType i).copies : ℚ)) (fun i => (inst.itemType i).profit) y order
      (fun i hi => by exact_mod_cast ((hmem i).mp hi).2.2)
      (fun i hi => ⟨hy0 i, hyc i ((hmem i).mp hi).1⟩)
      (fun i hi => hprof i ((hmem i).mp hi).1) ?_ capacity (by linarith) ?_
    · refine le_trans (le_of_eq ?_) hg
      congr 1
      apply List.map_congr_left
      intro i _
      ring
    · refine hsort.sorted.imp ?_
      intro i j hij
      unfold dantzigLt at hij
      simp only [gt_iff_lt, decide_eq_false_iff_not, not_lt] at hij
      linarith
    · refine le_trans (le_of_eq ?_) (show _ ≤ capacity by linarith)
      congr 1
      apply List.map_congr_left
      intro i _
      ring

theorem neg_penalties_le (b : Nat) (items : List PlacedItem) :
    - penalties inst b items ≤ negativePenaltySum (inst.binType b).resources := by
  rw [negativePenaltySum_eq]
  unfold penalties
  rw [neg_eq_neg_one_mul, ← List.sum_map_mul_left]
  apply List.sum_le_sum
  intro r _
  rw [neg_one_mul]
  split_ifs with h1 h2 h2
  · exact le_refl _
  · push Not at h2
    linarith [h2 h1.1]
  · linarith [h2.2]
  · simp

theorem sum_by_type_rat (items : List PlacedItem) (n : Nat) (f : Nat → ℚ)
    (h : ∀ p ∈ items, p.itemTypeId < n) :
    (items.map fun p => f p.itemTypeId).sum
      = ((List.range n).map fun i => (Spec.count items i : ℚ) * f i).sum := by
  have hind : ∀ (n k : Nat), k < n →
      ((List.range n).map fun i => (if k = i then 1 else 0) * f i).sum = f k := by
    intro n k hk
    induction n with
    | zero => omega
    | succ n ih =>
      rw [List.range_succ, List.map_append, List.sum_append]
      by_cases h : k = n
      · subst h
        have h0 : ((List.range k).map fun i => (if k = i then (1 : ℚ) else 0) * f i).sum = 0 := by
          apply List.sum_eq_zero
          intro x hx
          obtain ⟨i, hi, rfl⟩ := List.mem_map.1 hx
          have := List.mem_range.1 hi
          rw [if_neg (by omega)]
          simp
        rw [h0]
        simp
      · rw [ih (by omega)]
        simp [h]
  induction items with
  | nil =>
    symm
    apply List.sum_eq_zero
    intro x hx
    obtain ⟨i, _, rfl⟩ := List.mem_map.1 hx
    simp [Spec.count]
  | cons p items ih =>
    rw [List.map_cons, List.sum_cons, ih fun q hq => h q (List.mem_cons_of_mem _ hq)]
    have e : ((List.range n).map fun i => (Spec.count (p :: items) i : ℚ) * f i)
        = (List.range n).map fun i => (Spec.count items i : ℚ) * f i
          + (if p.itemTypeId = i then 1 else 0) * f i := by
      apply List.map_congr_left
      intro i _
      rw [count_cons]
      push_cast
      ring
    rw [e, List.sum_map_add, hind n _ (h p List.mem_cons_self)]
    ring

theorem profit_le (bins : List (List PlacedItem))
    (hlim : (bins.length : Int) ≤ (inst.binType 0).copies) (hn : inst.numberOfBinTypes = 1)
    (hex : ∀ p ∈ bins.flatten, p.itemTypeId < inst.numberOfItemTypes) :
    profit inst bins ≤ ((List.range inst.numberOfItemTypes).map fun i =>
      (Spec.count bins.flatten i : ℚ) * (inst.itemType i).profit).sum
        + instNegativePenaltySum inst := by
  rw [← sum_by_type_rat bins.flatten _ (fun i => (inst.itemType i).profit) hex]
  have h1 : ∀ B : List (List PlacedItem), profit inst B
      ≤ (B.flatten.map fun p => (inst.itemType p.itemTypeId).profit).sum
        + B.length * negativePenaltySum (inst.binType 0).resources := by
    intro B
    induction B with
    | nil => simp [profit]
    | cons b B ih =>
      have h2 := neg_penalties_le (inst := inst) 0 b
      unfold profit at ih ⊢
      rw [List.map_cons, List.sum_cons, List.flatten_cons, List.map_append, List.sum_append,
        List.length_cons]
      have e : itemsProfit inst b = (b.map fun p => (inst.itemType p.itemTypeId).profit).sum := rfl
      rw [e]
      push_cast
      linarith
  have h2 : instNegativePenaltySum inst
      = ((inst.binType 0).copies : ℚ) * negativePenaltySum (inst.binType 0).resources := by
    unfold instNegativePenaltySum
    rw [hn]
    simp [List.range_succ]
  rw [h2]
  refine (h1 bins).trans (add_le_add (le_refl _) ?_)
  apply mul_le_mul_of_nonneg_right _ (negativePenaltySum_nonneg _)
  exact_mod_cast hlim

/-- A packed item fits the bin type. -/
theorem fits_of_packed {items : List PlacedItem}
    (hn : inst.numberOfBinTypes = 1) (hp : BinPacking inst 0 items) {p : PlacedItem}
    (hpm : p ∈ items) : inst.fitsSomeBin p.itemTypeId = true := by
  unfold Instance.fitsSomeBin
  rw [hn, List.any_eq_true]
  refine ⟨0, by simp, ?_⟩
  rw [List.any_eq_true]
  refine ⟨p.rotation, hp.rotation p hpm, ?_⟩
  have hin := hp.inside p hpm
  rw [occupies_eq] at hin
  obtain ⟨h1, h2, h3, h4, h5, h6⟩ := hin
  have ex : ((inst.itemType p.itemTypeId).box.rotate p.rotation).x = along inst 0 p := rfl
  have ey : ((inst.itemType p.itemTypeId).box.rotate p.rotation).y = along inst 1 p := rfl
  have ez : ((inst.itemType p.itemTypeId).box.rotate p.rotation).z = along inst 2 p := rfl
  rw [decide_eq_true_eq, ex, ey, ez]
  dsimp only at h1 h2 h3 h4 h5 h6
  omega

/-- The Dantzig bound of one choice of breakpoints and families. -/
theorem combination_valid (h : Positive inst) (hb : Wide (inst.binType 0).box)
    (hn : inst.numberOfBinTypes = 1)
    (hprof : ∀ i, i < inst.numberOfItemTypes → 0 ≤ (inst.itemType i).profit)
    {sort : List Int → List Nat → List Nat}
    (hsort : ∀ v, PackingSolver.Spec.IsSortOf (dantzigLt inst v) (dantzigItemTypes inst v)
      (sort v (dantzigItemTypes inst v))) {t : Triple}
    (ht : GoodTriple inst (inst.binType 0).box t) (f : Families)
    (h0 : ¬ bcoef inst (inst.binType 0).box t f ≤ 0) {bins : List (List PlacedItem)}
    (hp : KnapsackPacking inst bins) :
    ((List.range inst.numberOfItemTypes).map fun i =>
        (Spec.count bins.flatten i : ℚ) * (inst.itemType i).profit).sum
      ≤ dantzigProfitBound inst sort
        ((List.range inst.numberOfItemTypes).map (icoef inst (inst.binType 0).box t f))
        ((bcoef inst (inst.binType 0).box t f : ℚ) * ((inst.binType 0).copies : ℚ)) := by
  set ic := icoef inst (inst.binType 0).box t f with hic
  set bc := bcoef inst (inst.binType 0).box t f with hbc
  have hvol : ∀ i, i < inst.numberOfItemTypes →
      ((List.range inst.numberOfItemTypes).map ic).getD i 0 = ic i := by
    intro i hi
    rw [List.getD_eq_getElem _ _ (by simpa using hi)]
    simp
  have hex : ∀ p ∈ bins.flatten, p.itemTypeId < inst.numberOfItemTypes := by
    intro p hpm
    obtain ⟨items, hi, hpi⟩ := List.mem_flatten.1 hpm
    exact (hp.each items hi).exist p hpi
  refine dantzig_valid (inst := inst) (y := fun i => (Spec.count bins.flatten i : ℚ))
    (fun i => by exact_mod_cast count_nonneg _ _)
    (fun i hi => by exact_mod_cast hp.copies i hi)
    (by
      intro i hi hf
      have : Spec.count bins.flatten i = 0 := by
        unfold Spec.count
        have : bins.flatten.countP (fun p => decide (p.itemTypeId = i)) = 0 := by
          rw [List.countP_eq_zero]
          intro p hpm hpe
          obtain ⟨items, hit, hpi⟩ := List.mem_flatten.1 hpm
          have := fits_of_packed hn (hp.each items hit) hpi
          rw [of_decide_eq_true hpe, hf] at this
          cases this
        rw [this]
        rfl
      rw [this]
      rfl)
    hprof (hsort ((List.range inst.numberOfItemTypes).map ic))
    (fun i hi => by rw [hvol i hi]; exact icoef_nonneg h hb ht f hi)
    (capacity := (bc : ℚ) * ((inst.binType 0).copies : ℚ)) ?_
  have h1 := sum_bins_le (fun p => ic p.itemTypeId) bc bins (by
      intro items hi
      refine bin_valid h hb ht f (hp.each items hi) ?_
      intro i hin
      refine le_trans ?_ (hp.copies i hin)
      obtain ⟨a, b, rfl⟩ := List.append_of_mem hi
      rw [List.flatten_append, List.flatten_cons, count_append, count_append]
      have := count_nonneg a.flatten i
      have := count_nonneg b.flatten i
      omega)
  rw [sum_by_type bins.flatten _ ic hex] at h1
  have h2 : ((List.range inst.numberOfItemTypes).map fun i =>
      Spec.count bins.flatten i * ic i).sum ≤ bc * (inst.binType 0).copies := by
    have : 0 < bc := not_le.mp h0
    have := hp.limit
    nlinarith
  have h3 : ((List.range inst.numberOfItemTypes).map fun i =>
      (Spec.count bins.flatten i : ℚ) * ((((List.range inst.numberOfItemTypes).map
        ic).getD i 0 : Int) : ℚ)).sum
      = ((((List.range inst.numberOfItemTypes).map fun i =>
      Spec.count bins.flatten i * ic i).sum : Int) : ℚ) := by
    rw [show ((((List.range inst.numberOfItemTypes).map fun i =>
      Spec.count bins.flatten i * ic i).sum : Int) : ℚ)
      = (((List.range inst.numberOfItemTypes).map fun i =>
      Spec.count bins.flatten i * ic i).map (fun z : Int => (z : ℚ))).sum from by
          generalize ((List.range inst.numberOfItemTypes).map fun i =>
            Spec.count bins.flatten i * ic i) = l
          induction l with
          | nil => simp
          | cons a l ih => simp [ih], List.map_map]
    congr 1
    apply List.map_congr_left
    intro i hi
    rw [hvol i (List.mem_range.1 hi)]
    simp
  rw [h3]
  exact_mod_cast h2

theorem knapsackBound_valid (h : Positive inst) (hb : Wide (inst.binType 0).box)
    (hn : inst.numberOfBinTypes = 1)
    (hprof : ∀ i, i < inst.numberOfItemTypes → 0 ≤ (inst.itemType i).profit)
    {sort : List Int → List Nat → List Nat}
    (hsort : ∀ v, PackingSolver.Spec.IsSortOf (dantzigLt inst v) (dantzigItemTypes inst v)
      (sort v (dantzigItemTypes inst v))) :
    ∃ b, knapsackBound inst sort = .ok b ∧
      ∀ bins, KnapsackPacking inst bins → b.Ge (profit inst bins) := by
  obtain ⟨ts, e, hts⟩ := allTriples_ok h hb
  obtain ⟨b, hbv, hv⟩ := OneDim.DffLemmas.foldlM_ok_inv
    (f := knapsackStep inst sort (inst.binType 0)) (l := ts) (s := .inf)
    (P := fun b : ExtQ => ∀ bins, KnapsackPacking inst bins → b.Ge
      ((List.range inst.numberOfItemTypes).map fun i =>
        (Spec.count bins.flatten i : ℚ) * (inst.itemType i).profit).sum)
    (fun bins _ => trivial) (by
      intro t htm a ha
      have ht := hts t htm
      obtain ⟨b, hbin, hbv⟩ := fBin_eq h hb ht
      have hval : knapsackStep inst sort (inst.binType 0) a t
          = .ok ((allFamilies.zip (allFamilies.map fun f => (List.range inst.numberOfItemTypes).map
            (icoef inst (inst.binType 0).box t f))).foldl (fun bound p =>
              if b p.1 ≤ 0 then bound
              else bound.min (.fin (dantzigProfitBound inst sort p.2
                ((b p.1 : ℚ) * ((inst.binType 0).copies : ℚ))))) a) := by
        unfold knapsackStep
        rw [hbin, allVolumes_eq h hb ht]
        rfl
      refine ⟨_, hval, fun bins hp => ?_⟩
      · refine foldl_inv (fun v : ExtQ => v.Ge _) (ha bins hp) ?_
        intro v p hpm hv
        obtain ⟨hf, hp2⟩ := zip_map_mem hpm
        rw [hbv p.1 hf, hp2]
        split_ifs with h0
        · exact hv
        have hd := combination_valid h hb hn hprof hsort ht p.1 h0 hp
        cases v with
        | inf => exact hd
        | fin q => exact le_min hv hd)
  refine ⟨b.subQ (- instNegativePenaltySum inst), ?_, ?_⟩
  · unfold knapsackBound
    rw [e]
    show (_ >>= _) = _
    simp only [bind, Except.bind] at hbv ⊢
    rw [hbv]
    rfl
  · intro bins hp
    have h2 := profit_le (inst := inst) bins hp.limit hn (by
        intro p hpm
        obtain ⟨items, hi, hpi⟩ := List.mem_flatten.1 hpm
        exact (hp.each items hi).exist p hpi)
    have h3 := hv bins hp
    cases b with
    | inf => trivial
    | fin q =>
      show profit inst bins ≤ q - - instNegativePenaltySum inst
      have h3 : _ ≤ q := h3
      linarith

end PackingSolver.Box.DffLemmas
