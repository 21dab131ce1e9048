import Verif.Spec.OneDim
import Verif.Spec.OneDimBuild
import Mathlib.Algebra.BigOperators.Ring.Finset
import Mathlib.Algebra.Order.BigOperators.Ring.Finset
import Mathlib.Tactic.Ring
import Mathlib.Tactic.Linarith
import Mathlib.Data.List.GetD

/-!
# Totals of a packing, per type
-/

namespace PackingSolver.OneDim.PackingLemmas

open PackingSolver.OneDim OneDim.Spec

variable {inst : Instance}

/-- A list sum grouped by value. -/
theorem sum_map_count {R : Type} [CommRing R] (f : Nat → R) (n : Nat) (l : List Nat)
    (h : ∀ i ∈ l, i < n) :
    (l.map f).sum = ∑ i ∈ Finset.range n, (l.count i : R) * f i := by
  induction l with
  | nil => simp
  | cons a l ih =>
    rw [List.map_cons, List.sum_cons, ih fun i hi => h i (by simp [hi])]
    have ha : a ∈ Finset.range n := Finset.mem_range.mpr (h a (by simp))
    have : ∀ i, (((a :: l).count i : Nat) : R) * f i
        = (l.count i : R) * f i + (if i = a then f a else 0) := by
      intro i
      rw [List.count_cons]
      by_cases hi : i = a
      · subst hi; simp; ring
      · have hi' : ¬ a = i := fun h => hi h.symm
        simp [hi, hi']
    simp only [this]
    rw [Finset.sum_add_distrib, Finset.sum_ite_eq' , if_pos ha]
    ring

/-- Weighted item sums of a packing, grouped by item type. -/
theorem items_sum {R : Type} [CommRing R] (f : Nat → R) {p : Packing} (hp : WellTyped inst p) :
    (p.map fun b => (b.copies : R) * (b.items.map f).sum).sum
      = ∑ i ∈ Finset.range inst.numberOfItemTypes, (itemCopies p i : R) * f i := by
  induction p with
  | nil => simp [itemCopies]
  | cons b p ih =>
    have hb := hp b (by simp)
    rw [List.map_cons, List.sum_cons, ih fun b' hb' => hp b' (by simp [hb']),
      sum_map_count f _ _ hb.2.2, Finset.mul_sum, ← Finset.sum_add_distrib]
    refine Finset.sum_congr rfl fun i _ => ?_
    simp only [itemCopies, List.map_cons, List.sum_cons]
    push_cast
    ring

/-- Weighted bin sums of a packing, grouped by bin type. -/
theorem bins_sum {R : Type} [CommRing R] (f : Nat → R) {p : Packing} (hp : WellTyped inst p) :
    (p.map fun b => (b.copies : R) * f b.binTypeId).sum
      = ∑ t ∈ Finset.range inst.numberOfBinTypes, (binCopies p t : R) * f t := by
  induction p with
  | nil => simp [binCopies]
  | cons b p ih =>
    have hb := hp b (by simp)
    rw [List.map_cons, List.sum_cons, ih fun b' hb' => hp b' (by simp [hb'])]
    have : ∀ t, (binCopies (b :: p) t : R) * f t
        = (binCopies p t : R) * f t + (if t = b.binTypeId then (b.copies : R) * f b.binTypeId else 0) := by
      intro t
      simp only [binCopies, List.map_cons, List.sum_cons]
      by_cases ht : b.binTypeId = t
      · subst ht; simp; ring
      · have ht' : ¬ t = b.binTypeId := fun h => ht h.symm
        simp [ht, ht']
    simp only [this]
    rw [Finset.sum_add_distrib, Finset.sum_ite_eq',
      if_pos (Finset.mem_range.mpr hb.1)]
    ring

theorem numberOfBins_eq {p : Packing} (hp : WellTyped inst p) :
    numberOfBins p = ∑ t ∈ Finset.range inst.numberOfBinTypes, binCopies p t := by
  have := bins_sum (R := Int) (fun _ => 1) hp
  simpa [numberOfBins] using this

theorem cost_eq {p : Packing} (hp : WellTyped inst p) :
    cost inst p = ∑ t ∈ Finset.range inst.numberOfBinTypes,
      (binCopies p t : ℚ) * (inst.binType t).cost :=
  bins_sum (fun t => (inst.binType t).cost) hp

theorem binLength_eq {p : Packing} (hp : WellTyped inst p) :
    binLength inst p = ∑ t ∈ Finset.range inst.numberOfBinTypes,
      binCopies p t * (inst.binType t).length := by
  have := bins_sum (R := Int) (fun t => (inst.binType t).length) hp
  simpa [binLength] using this

theorem itemLength_eq {p : Packing} (hp : WellTyped inst p) :
    itemLength inst p = ∑ i ∈ Finset.range inst.numberOfItemTypes,
      itemCopies p i * (inst.itemType i).length := by
  have := items_sum (R := Int) (fun t => (inst.itemType t).length) hp
  simpa [itemLength] using this

theorem numberOfItems_eq {p : Packing} (hp : WellTyped inst p) :
    numberOfItems p = ∑ i ∈ Finset.range inst.numberOfItemTypes, itemCopies p i := by
  have := items_sum (R := Int) (fun _ => 1) hp
  simpa [numberOfItems] using this

/-- A sum over the list of types, by index. -/
theorem sum_types {α R : Type} [AddCommMonoid R] (l : List α) (d : α) (f : α → R) :
    (l.map f).sum = ∑ i ∈ Finset.range l.length, f (l.getD i d) := by
  induction l using List.reverseRecOn with
  | nil => simp
  | append_singleton l a ih =>
    rw [List.map_append, List.sum_append, ih, List.length_append, List.length_singleton,
      Finset.sum_range_succ]
    congr 1
    · refine Finset.sum_congr rfl fun i hi => ?_
      rw [List.getD_append _ _ _ _ (Finset.mem_range.mp hi)]
    · simp

theorem binPositions_length (bins : List BinType) (h : ∀ b ∈ bins, 0 ≤ b.copies) :
    ((binPositions bins).length : Int) = (bins.map (·.copies)).sum := by
  unfold binPositions
  generalize 0 = k
  induction bins generalizing k with
  | nil => simp
  | cons b l ih =>
    have hb := h b (by simp)
    simp only [List.zipIdx_cons, List.flatMap_cons, List.length_append, List.length_replicate,
      List.map_cons, List.sum_cons]
    push_cast
    rw [ih (fun b' hb' => h b' (by simp [hb']))]
    omega

theorem binCopies_nonneg {p : Packing} (hp : WellTyped inst p) (t : Nat) : 0 ≤ binCopies p t := by
  unfold binCopies
  refine List.sum_nonneg fun x hx => ?_
  obtain ⟨b, hb, rfl⟩ := List.mem_map.mp hx
  split_ifs
  · exact (hp b hb).2.1
  · exact le_refl _

theorem itemCopies_nonneg {p : Packing} (hp : WellTyped inst p) (i : Nat) :
    0 ≤ itemCopies p i := by
  unfold itemCopies
  refine List.sum_nonneg fun x hx => ?_
  obtain ⟨b, hb, rfl⟩ := List.mem_map.mp hx
  exact mul_nonneg (hp b hb).2.1 (by positivity)

theorem numberOfBins_nonneg {p : Packing} (hp : WellTyped inst p) : 0 ≤ numberOfBins p := by
  rw [numberOfBins_eq hp]
  exact Finset.sum_nonneg fun t _ => binCopies_nonneg hp t

/-- A packing within the bin limits uses at most `number_of_bins()` bins. -/
theorem numberOfBins_le (ha : inst.binTypeIds = binPositions inst.binTypes)
    (hc : ∀ b ∈ inst.binTypes, 0 ≤ b.copies) {p : Packing} (hp : WellTyped inst p)
    (hl : BinLimitsOk inst p) : numberOfBins p ≤ inst.numberOfBins := by
  rw [numberOfBins_eq hp]
  unfold Instance.numberOfBins
  rw [ha, binPositions_length _ hc, sum_types _ (default : BinType)]
  exact Finset.sum_le_sum fun t ht => (hl t (Finset.mem_range.mp ht)).2

theorem cost_nonneg {p : Packing} (hp : WellTyped inst p)
    (hc : ∀ b ∈ inst.binTypes, 0 ≤ b.cost) : 0 ≤ cost inst p := by
  unfold cost
  refine List.sum_nonneg fun x hx => ?_
  obtain ⟨b, hb, rfl⟩ := List.mem_map.mp hx
  obtain ⟨h1, h2, -⟩ := hp b hb
  refine mul_nonneg (by exact_mod_cast h2) (hc _ ?_)
  unfold Instance.binType
  rw [List.getD_eq_getElem _ _ h1]
  exact List.getElem_mem _

end PackingSolver.OneDim.PackingLemmas
