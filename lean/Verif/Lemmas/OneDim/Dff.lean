import Verif.Model.OneDim.Dff
import Verif.Lemmas.Dff
import Verif.Lemmas.OneDim.TrivialBound

/-!
# Lemmas for the one-dimensional dual feasible functions
-/

namespace PackingSolver.OneDim.DffLemmas

open PackingSolver.OneDim OneDim.Spec PackingLemmas BoundLemmas Dff
open scoped List

variable {inst : Instance}

/-- What the functions need: a bin of positive length, and items whose length not covered by
nesting is positive. -/
structure Positive (inst : Instance) : Prop where
  bin : 0 < (inst.binType 0).length
  items : ∀ i, i < inst.numberOfItemTypes → 0 < reducedLength (inst.itemType i)
  copies : ∀ i, i < inst.numberOfItemTypes → 0 ≤ (inst.itemType i).copies

/-- The capacity and the reduced length of an item type. -/
abbrev cap (inst : Instance) : Int := (inst.binType 0).length
abbrev rlen (inst : Instance) (i : Nat) : Int := reducedLength (inst.itemType i)

theorem itemTypes_eq (inst : Instance) :
    inst.itemTypes = (List.range inst.numberOfItemTypes).map inst.itemType := by
  apply List.ext_getElem
  · simp [Instance.numberOfItemTypes]
  · intro k h1 h2
    simp [Instance.itemType, h1]

/-- The ids of the medium items. -/
def mediumIds (inst : Instance) (k : Int) : List Nat :=
  (List.range inst.numberOfItemTypes).filter fun i =>
    decide (k ≤ rlen inst i ∧ rlen inst i ≤ (cap inst).tdiv 2)

theorem dffPool_eq (inst : Instance) (k : Int) :
    dffPool inst k = (mediumIds inst k).map fun i => (rlen inst i, (inst.itemType i).copies) := by
  unfold dffPool mediumIds
  conv_lhs => rw [itemTypes_eq inst]
  rw [List.filter_map, List.map_map]
  rfl

theorem dffPool_pos (h : Positive inst) (k : Int) : ∀ p ∈ dffPool inst k, 0 < p.1 ∧ 0 ≤ p.2 := by
  intro p hp
  rw [dffPool_eq] at hp
  obtain ⟨i, hi, rfl⟩ := List.mem_map.mp hp
  have hi := List.mem_range.mp (List.mem_filter.mp hi).1
  exact ⟨h.items i hi, h.copies i hi⟩

theorem lengths_pos (h : Positive inst) : ∀ x ∈ inst.itemTypes.map reducedLength, 0 < x := by
  intro x hx
  rw [itemTypes_eq, List.map_map] at hx
  obtain ⟨i, hi, rfl⟩ := List.mem_map.mp hx
  exact h.items i (List.mem_range.mp hi)

theorem rlen_mem {i : Nat} (hi : i < inst.numberOfItemTypes) :
    rlen inst i ∈ inst.itemTypes.map reducedLength := by
  rw [itemTypes_eq, List.map_map]
  exact List.mem_map.mpr ⟨i, List.mem_range.mpr hi, rfl⟩

theorem dffTables_ok (h : Positive inst) :
    ∃ ts, dffTables inst = .ok ts ∧ ∀ t ∈ ts, 1 ≤ t.k ∧ t.k ≤ cap inst / 2
      ∧ TablesOk (cap inst) (bigValues (cap inst) (inst.itemTypes.map reducedLength))
        (dffPool inst t.k) t :=
  axisTables_ok h.bin (lengths_pos h) fun k _ => dffPool_pos h k

/-- A table entry computed by the code. -/
structure GoodTables (inst : Instance) (t : BreakpointTables) : Prop where
  k1 : 1 ≤ t.k
  k2 : t.k ≤ cap inst / 2
  ok : TablesOk (cap inst) (bigValues (cap inst) (inst.itemTypes.map reducedLength))
    (dffPool inst t.k) t

/-- Coefficient of an item type and of the bin. -/
def icoef (inst : Instance) (t : BreakpointTables) (family i : Nat) : Int :=
  coef (cap inst) t.k (cardOf (dffPool inst t.k)) family (rlen inst i)

def bcoef (inst : Instance) (t : BreakpointTables) (family : Nat) : Int :=
  binCoef (cap inst) t.k (cardOf (dffPool inst t.k)) family

theorem dffVolumes_eq (h : Positive inst) {t : BreakpointTables} (ht : GoodTables inst t)
    (family : Nat) :
    dffVolumes inst t family
      = .ok ((List.range inst.numberOfItemTypes).map (icoef inst t family)) := by
  unfold dffVolumes
  conv_lhs => rw [itemTypes_eq inst]
  have : ∀ l : List Nat, (∀ i ∈ l, i < inst.numberOfItemTypes) →
      (l.map inst.itemType).mapM (fun it =>
        axisCoefficient (inst.binType 0).length family t (reducedLength it))
      = .ok (l.map (icoef inst t family)) := by
    intro l
    induction l with
    | nil => intro _; rfl
    | cons i l ih =>
      intro hl
      have hi := hl i (by simp)
      rw [List.map_cons, List.mapM_cons, ih fun j hj => hl j (by simp [hj]),
        axisCoefficient_eq h.bin ht.k1 (dffPool_pos h t.k) ht.ok family (rlen_mem hi)
          (h.items i hi)]
      rfl
  exact this _ fun i hi => List.mem_range.mp hi

theorem bcoef_eq (h : Positive inst) {t : BreakpointTables} (ht : GoodTables inst t)
    (family : Nat) : binCoefficient (inst.binType 0).length family t = .ok (bcoef inst t family) :=
  binCoefficient_eq h.bin ht.k1 (dffPool_pos h t.k) ht.ok family

theorem icoef_nonneg (h : Positive inst) {t : BreakpointTables} (ht : GoodTables inst t)
    (family : Nat) {i : Nat} (hi : i < inst.numberOfItemTypes) : 0 ≤ icoef inst t family i :=
  coef_nonneg ht.k1 h.bin.le (cardOf_mono (dffPool_pos h t.k)) family (h.items i hi)

/-- The items that fit in one bin have a total coefficient of at most that of the bin. -/
theorem bin_valid (h : Positive inst) {t : BreakpointTables} (ht : GoodTables inst t)
    (family : Nat) {items : List Nat} (hty : ∀ i ∈ items, i < inst.numberOfItemTypes)
    (hload : load inst items ≤ cap inst)
    (hcount : ∀ i ∈ items, (items.count i : Int) ≤ (inst.itemType i).copies) :
    (items.map (icoef inst t family)).sum ≤ bcoef inst t family := by
  have := coef_valid (M := cardOf (dffPool inst t.k)) ht.k1 ht.k2
    (l := items.map (rlen inst)) (by
      intro x hx
      obtain ⟨i, hi, rfl⟩ := List.mem_map.mp hx
      exact h.items i (hty i hi)) hload (by
      intro s c hs hmed hsum
      obtain ⟨u, hu, rfl⟩ := List.sublist_map_iff.mp hs
      rw [dffPool_eq, List.length_map]
      apply medium_count (mediumIds inst t.k) (rlen inst) (fun i => (inst.itemType i).copies)
      · intro i hi
        have hi := List.mem_range.mp (List.mem_filter.mp hi).1
        exact ⟨h.items i hi, h.copies i hi⟩
      · exact List.nodup_range.filter _
      · intro i hi
        have h1 := hmed (rlen inst i) (List.mem_map.mpr ⟨i, hi, rfl⟩)
        have h2 : (cap inst).tdiv 2 = cap inst / 2 := Int.tdiv_eq_ediv_of_nonneg h.bin.le
        unfold mediumIds
        rw [List.mem_filter, List.mem_range, decide_eq_true_eq, h2]
        exact ⟨hty i (hu.subset hi), h1⟩
      · intro i hi
        exact le_trans (by exact_mod_cast hu.count_le i) (hcount i (hu.subset hi))
      · exact hsum) family
  rw [List.map_map] at this
  exact this

/-- The coefficients of a packing are at most those of its bins. -/
theorem packing_valid (h : Positive inst) {t : BreakpointTables} (ht : GoodTables inst t)
    (family : Nat) {p : Packing} (hp : Admissible inst p) (h1 : inst.numberOfBinTypes = 1) :
    ∑ i ∈ Finset.range inst.numberOfItemTypes, itemCopies p i * icoef inst t family i
      ≤ numberOfBins p * bcoef inst t family := by
  have hs := items_sum (R := Int) (icoef inst t family) hp.typed
  simp only [Int.cast_id] at hs
  rw [← hs]
  unfold numberOfBins
  rw [← List.sum_map_mul_right]
  apply List.sum_le_sum
  intro b hb
  obtain ⟨hbt, hb0, hty⟩ := hp.typed b hb
  have hb' : b.binTypeId = 0 := by omega
  by_cases hz : b.copies = 0
  · rw [hz]; simp
  apply mul_le_mul_of_nonneg_left _ hb0
  apply bin_valid h ht family hty
  · have := load_le (hp.feasible.bins b hb).fits
    rw [hb', max_eq_left h.bin.le] at this
    exact this
  · intro i hi
    refine le_trans ?_ (hp.feasible.copies i (hty i hi)).2
    unfold itemCopies
    have h2 : b.copies * (b.items.count i : Int)
        ≤ (p.map fun b => b.copies * (b.items.count i : Int)).sum := by
      apply List.single_le_sum
      · intro x hx
        obtain ⟨b', hb', rfl⟩ := List.mem_map.mp hx
        exact mul_nonneg (hp.typed b' hb').2.1 (by omega)
      · exact List.mem_map.mpr ⟨b, hb, rfl⟩
    refine le_trans ?_ h2
    have : 1 ≤ b.copies := by omega
    nlinarith

theorem numberOfBins_le_copies {p : Packing} (hp : Admissible inst p)
    (h1 : inst.numberOfBinTypes = 1) : numberOfBins p ≤ (inst.binType 0).copies := by
  rw [numberOfBins_eq hp.typed, h1]
  have := (hp.limits 0 (by omega)).2
  simpa using this

theorem foldlM_ok_inv {α β ε : Type} {f : β → α → Except ε β} {l : List α} (P : β → Prop) {s : β}
    (h0 : P s) (hstep : ∀ x ∈ l, ∀ a, P a → ∃ b, f a x = .ok b ∧ P b) :
    ∃ s', l.foldlM f s = .ok s' ∧ P s' := by
  induction l generalizing s with
  | nil => exact ⟨s, rfl, h0⟩
  | cons x l ih =>
    obtain ⟨b, h1, h2⟩ := hstep x (by simp) s h0
    obtain ⟨s', h3, h4⟩ := ih h2 fun y hy => hstep y (by simp [hy])
    exact ⟨s', by rw [List.foldlM_cons, h1]; exact h3, h4⟩

theorem dffSum_eq (inst : Instance) (f : Nat → Int) :
    dffSum inst ((List.range inst.numberOfItemTypes).map f)
      = ∑ i ∈ Finset.range inst.numberOfItemTypes, (inst.itemType i).copies * f i := by
  unfold dffSum
  conv_lhs => rw [itemTypes_eq inst]
  rw [List.zipWith_map, List.zipWith_self, ← foldl_range, foldl_add, zero_add]

/-! ## The Dantzig bound -/

theorem dantzigFill_zero (volumes : List Int) (l : List Nat) (bound : ℚ) :
    dantzigFill inst volumes l 0 bound = bound := by
  cases l with
  | nil => rfl
  | cons i l => unfold dantzigFill; rw [if_pos (le_refl _)]

theorem dantzigFill_eq (volumes : List Int) (l : List Nat) (r bound : ℚ) :
    dantzigFill inst volumes l r bound = bound + greedyFill
      (fun i => (volumes.getD i 0 : ℚ)) (fun i => ((inst.itemType i).copies : ℚ))
      (fun i => (inst.itemType i).profit) l r := by
  induction l generalizing r bound with
  | nil => simp [dantzigFill, greedyFill]
  | cons i l ih =>
    unfold dantzigFill greedyFill
    by_cases h1 : r ≤ 0
    · rw [if_pos h1, if_pos h1, add_zero]
    rw [if_neg h1, if_neg h1]
    by_cases h2 : (volumes.getD i 0 : ℚ) * ((inst.itemType i).copies : ℚ) ≤ r
    · rw [if_pos h2, if_pos h2, ih]; ring
    · rw [if_neg h2, if_neg h2, dantzigFill_zero]

/-- An item type that fits in no bin is not packed, when no item nests by more than the
length of another one. -/
theorem unpacked_of_not_fits {p : Packing} (hp : Admissible inst p)
    (hnest : ∀ i, i < inst.numberOfItemTypes → ∀ j, j < inst.numberOfItemTypes →
      (inst.itemType i).nestingLength ≤ (inst.itemType j).length)
    {i : Nat} (hf : fitsSomeBin inst i = false) : itemCopies p i = 0 := by
  unfold itemCopies
  refine List.sum_eq_zero fun x hx => ?_
  obtain ⟨b, hb, rfl⟩ := List.mem_map.mp hx
  have hni : i ∉ b.items := by
    intro hin
    obtain ⟨hbt, -, hty⟩ := hp.typed b hb
    have hok := hp.feasible.bins b hb
    have h1 := packed_fits hok.fits
      (fun a ha c hc => hnest a (hty a ha) c (hty c hc)) i hin
    have h2 : eligible (inst.itemType i) (inst.binType b.binTypeId) = true := by
      have := hok.eligible i hin
      unfold EligibleIn at this
      unfold eligible
      rcases this with h | h
      · simp [h]
      · simp [h]
    have : fitsSomeBin inst i = true := by
      unfold fitsSomeBin
      rw [List.any_eq_true]
      refine ⟨b.binTypeId, List.mem_range.mpr hbt, ?_⟩
      unfold itemTypeFitsBinType
      rw [if_neg (by omega), h2]
    rw [hf] at this
    exact absurd this (by decide)
  rw [List.count_eq_zero_of_not_mem hni]
  simp

theorem foldl_if_add {α : Type} (c : α → Bool) (f : α → ℚ) (l : List α) (a : ℚ) :
    l.foldl (fun s x => if c x then s + f x else s) a = a + ((l.filter c).map f).sum := by
  induction l generalizing a with
  | nil => simp
  | cons x l ih =>
    rw [List.foldl_cons, ih]
    by_cases h : c x = true
    · rw [if_pos h, List.filter_cons_of_pos h, List.map_cons, List.sum_cons]; ring
    · rw [if_neg h, List.filter_cons_of_neg h]

theorem dantzigFree_eq (volumes : List Int) : dantzigFree inst volumes
    = (((List.range inst.numberOfItemTypes).filter fun i =>
        fitsSomeBin inst i && decide (volumes.getD i 0 ≤ 0)).map fun i =>
        (inst.itemType i).profit * ((inst.itemType i).copies : ℚ)).sum := by
  unfold dantzigFree
  have := foldl_if_add (fun i => fitsSomeBin inst i && decide (volumes.getD i 0 ≤ 0))
    (fun i => (inst.itemType i).profit * ((inst.itemType i).copies : ℚ))
    (List.range inst.numberOfItemTypes) 0
  rw [zero_add] at this
  rw [← this]
  congr 1
  funext s i
  cases h1 : fitsSomeBin inst i <;> by_cases h2 : volumes.getD i 0 ≤ 0 <;> simp_all

/-- Validity of the Dantzig bound for any volumes for which the packing fits. -/
theorem dantzig_valid {p : Packing} (hp : Admissible inst p)
    (hnest : ∀ i, i < inst.numberOfItemTypes → ∀ j, j < inst.numberOfItemTypes →
      (inst.itemType i).nestingLength ≤ (inst.itemType j).length)
    (hprof : ∀ i, i < inst.numberOfItemTypes → 0 ≤ (inst.itemType i).profit)
    {sort : List Int → List Nat → List Nat} {volumes : List Int}
    (hsort : PackingSolver.Spec.IsSortOf (dantzigLt inst volumes) (dantzigItemTypes inst volumes)
      (sort volumes (dantzigItemTypes inst volumes)))
    (hvol : ∀ i, i < inst.numberOfItemTypes → 0 ≤ volumes.getD i 0)
    {capacity : ℚ}
    (hcap : ∑ i ∈ Finset.range inst.numberOfItemTypes,
      (itemCopies p i : ℚ) * (volumes.getD i 0 : ℚ) ≤ capacity) :
    ∑ i ∈ Finset.range inst.numberOfItemTypes, (itemCopies p i : ℚ) * (inst.itemType i).profit
      ≤ dantzigProfitBound inst sort volumes capacity := by
  unfold dantzigProfitBound
  rw [dantzigFill_eq, dantzigFree_eq]
  set order := sort volumes (dantzigItemTypes inst volumes) with horder
  have hmem : ∀ i, i ∈ order ↔ i < inst.numberOfItemTypes
      ∧ fitsSomeBin inst i = true ∧ 0 < volumes.getD i 0 := by
    intro i
    rw [hsort.perm.mem_iff]
    simp [dantzigItemTypes]
  have hy0 : ∀ i, (0 : ℚ) ≤ (itemCopies p i : ℚ) := fun i => by
    exact_mod_cast itemCopies_nonneg hp.typed i
  have hyc : ∀ i, i < inst.numberOfItemTypes →
      (itemCopies p i : ℚ) ≤ ((inst.itemType i).copies : ℚ) := fun i hi => by
    exact_mod_cast (hp.feasible.copies i hi).2
  -- split a sum into the free and the sorted item types
  have hsplit : ∀ f : Nat → ℚ, (∀ i, itemCopies p i = 0 → f i = 0) →
      ∑ i ∈ Finset.range inst.numberOfItemTypes, f i
        = (((List.range inst.numberOfItemTypes).filter fun i =>
          fitsSomeBin inst i && decide (volumes.getD i 0 ≤ 0)).map f).sum + (order.map f).sum := by
    intro f hf0
    rw [(hsort.perm.map f).sum_eq, ← foldl_range, foldl_add, zero_add]
    unfold dantzigItemTypes
    have : ∀ l : List Nat,
        (l.map f).sum = ((l.filter fun i =>
          fitsSomeBin inst i && decide (volumes.getD i 0 ≤ 0)).map f).sum
          + ((l.filter fun i =>
          fitsSomeBin inst i && decide (0 < volumes.getD i 0)).map f).sum := by
      intro l
      induction l with
      | nil => simp
      | cons i l ih =>
        cases hfi : fitsSomeBin inst i with
        | false =>
          rw [List.filter_cons_of_neg (by simp [hfi]), List.filter_cons_of_neg (by simp [hfi]),
            List.map_cons, List.sum_cons, ih, hf0 i (unpacked_of_not_fits hp hnest hfi), zero_add]
        | true =>
          by_cases hv : volumes.getD i 0 ≤ 0
          · rw [List.filter_cons_of_pos (by simp only [hfi, hv]; rfl),
              List.filter_cons_of_neg (by simp only [hfi, Bool.true_and, decide_eq_true_eq]; omega),
              List.map_cons, List.map_cons, List.sum_cons, List.sum_cons, ih]
            ring
          · rw [List.filter_cons_of_neg (by simp only [hfi, hv]; decide),
              List.filter_cons_of_pos (by simp only [hfi, Bool.true_and, decide_eq_true_eq]; omega),
              List.map_cons, List.map_cons, List.sum_cons, List.sum_cons, ih]
            ring
    exact this _
  rw [hsplit _ fun i hi => by simp [hi]]
  have hcap' := hcap
  rw [hsplit _ fun i hi => by simp [hi]] at hcap'
  have hfree0 : (0 : ℚ) ≤ (((List.range inst.numberOfItemTypes).filter fun i =>
      fitsSomeBin inst i && decide (volumes.getD i 0 ≤ 0)).map fun i =>
      (itemCopies p i : ℚ) * (volumes.getD i 0 : ℚ)).sum := by
    refine List.sum_nonneg fun x hx => ?_
    obtain ⟨i, hi, rfl⟩ := List.mem_map.mp hx
    have hi := List.mem_range.mp (List.mem_filter.mp hi).1
    exact mul_nonneg (hy0 i) (by exact_mod_cast hvol i hi)
  have hord0 : (0 : ℚ) ≤ (order.map fun i => (itemCopies p i : ℚ) * (volumes.getD i 0 : ℚ)).sum := by
    refine List.sum_nonneg fun x hx => ?_
    obtain ⟨i, hi, rfl⟩ := List.mem_map.mp hx
    exact mul_nonneg (hy0 i) (by exact_mod_cast hvol i ((hmem i).mp hi).1)
  apply add_le_add
  · apply List.sum_le_sum
    intro i hi
    have hi := List.mem_range.mp (List.mem_filter.mp hi).1
    have := hyc i hi
    have := hprof i hi
    nlinarith
  · have hg := greedyFill_bound
      (fun i => (volumes.getD i 0 : ℚ)) (fun i => ((inst.itemType i).copies : ℚ))
      (fun i => (inst.itemType i).profit) (fun i => (itemCopies p i : ℚ)) order
      (fun i hi => by
        have := ((hmem i).mp hi).2.2
        show (0 : ℚ) < ((volumes.getD i 0 : Int) : ℚ)
        exact_mod_cast this)
      (fun i hi => ⟨hy0 i, hyc i ((hmem i).mp hi).1⟩)
      (fun i hi => hprof i ((hmem i).mp hi).1)
      (hsort.sorted.imp (by
        intro a b hab
        unfold dantzigLt at hab
        simp only [gt_iff_lt, decide_eq_false_iff_not, not_lt] at hab
        exact hab))
      capacity (by linarith)
      (by
        have he : (order.map fun i => (volumes.getD i 0 : ℚ) * (itemCopies p i : ℚ)).sum
            = (order.map fun i => (itemCopies p i : ℚ) * (volumes.getD i 0 : ℚ)).sum := by
          congr 1
          exact List.map_congr_left fun i _ => mul_comm _ _
        rw [he]
        linarith)
    refine le_trans (le_of_eq ?_) hg
    congr 1
    exact List.map_congr_left fun i _ => mul_comm _ _

end PackingSolver.OneDim.DffLemmas
