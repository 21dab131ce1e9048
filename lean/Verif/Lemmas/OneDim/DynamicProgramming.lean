import Verif.Model.OneDim.DynamicProgramming
import Verif.Spec.Knapsack
import Verif.Lemmas.OneDim.TrivialBound
import Verif.Lemmas.OneDim.Dff
import Verif.Props.OneDim.Certificate

/-!
# Lemmas for the dynamic programming algorithm
-/

namespace PackingSolver.OneDim.DpLemmas

open PackingSolver.OneDim OneDim.Spec PackingSolver.Spec PackingLemmas BoundLemmas
open scoped List

/-- The chunks still to be produced complete `total` copies to any representable number. -/
theorem splitLoop_cover {copies w cap : Int} (hcap : 0 ≤ cap) (fuel : Nat) (total : Int)
    (ht : 0 ≤ total) (hf : copies - total ≤ fuel) (n : Int) (h0 : 0 ≤ n) (hn : n ≤ copies)
    (hw : n * w ≤ cap) :
    ∃ s, s <+ splitLoop copies w cap fuel total (total + 1) ∧ 0 ≤ n - s.sum ∧ n - s.sum ≤ total := by
  induction fuel generalizing total n with
  | zero => exact ⟨[], by simp [splitLoop], by simpa, by simp; omega⟩
  | succ fuel ih =>
    by_cases hnt : n ≤ total
    · exact ⟨[], by simp, by simpa, by simpa⟩
    unfold splitLoop
    rw [if_pos (by omega)]
    dsimp only
    generalize hc : (if total + (total + 1) > copies then copies - total else total + 1) = c
    have hc1 : 1 ≤ c := by rw [← hc]; split_ifs <;> omega
    have hcn : c ≤ n := by rw [← hc]; split_ifs <;> omega
    have hcc : c ≤ total + 1 := by rw [← hc]; split_ifs <;> omega
    have hcw : ¬ c * w > cap := by
      intro h
      by_cases hw0 : 0 ≤ w
      · have : c * w ≤ n * w := mul_le_mul_of_nonneg_right hcn hw0
        omega
      · have : c * w ≤ 0 := mul_nonpos_of_nonneg_of_nonpos (by omega) (by omega)
        omega
    rw [if_neg hcw]
    by_cases hlast : total + (total + 1) > copies
    · rw [if_pos hlast] at hc
      exact ⟨[c], by simp, by simp; omega, by simp; omega⟩
    · rw [if_neg hlast] at hc
      have he : c * 2 = total + c + 1 := by omega
      rw [he]
      obtain ⟨s, h1, h2, h3⟩ := ih (total + c) (by omega) (by push_cast at hf; omega) n h0 hn hw
      by_cases h4 : n - s.sum ≤ total
      · exact ⟨s, h1.cons _, h2, h4⟩
      · exact ⟨c :: s, h1.cons_cons _, by simp; omega, by simp; omega⟩

theorem splitLoop_bound {copies w cap : Int} (fuel : Nat) (total chunk : Int) (hc : 1 ≤ chunk)
    (ht : total ≤ max copies 0) :
    (∀ x ∈ splitLoop copies w cap fuel total chunk, 1 ≤ x)
      ∧ total + (splitLoop copies w cap fuel total chunk).sum ≤ max copies 0 := by
  induction fuel generalizing total chunk with
  | zero => exact ⟨by simp [splitLoop], by simp only [splitLoop, List.sum_nil]; omega⟩
  | succ fuel ih =>
    unfold splitLoop
    by_cases h : total < copies
    · rw [if_pos h]
      dsimp only
      generalize he : (if total + chunk > copies then copies - total else chunk) = c
      have hc1 : 1 ≤ c := by rw [← he]; split_ifs <;> omega
      have hc2 : total + c ≤ copies := by rw [← he]; split_ifs <;> omega
      by_cases h2 : c * w > cap
      · rw [if_pos h2]; simpa using ht
      · rw [if_neg h2]
        obtain ⟨i1, i2⟩ := ih (total + c) (c * 2) (by omega) (by omega)
        refine ⟨?_, by simp only [List.sum_cons]; omega⟩
        intro x hx
        rcases List.mem_cons.mp hx with rfl | hx
        · exact hc1
        · exact i1 x hx
    · rw [if_neg h]; simpa using ht

/-! ## Selections -/

theorem exists_mask {α : Type} {l s : List α} (h : s <+ l) :
    ∃ m : List Bool, m.length = l.length ∧ marked l m = s := by
  induction h with
  | slnil => exact ⟨[], rfl, rfl⟩
  | cons a _ ih =>
    obtain ⟨m, h1, h2⟩ := ih
    exact ⟨false :: m, by simp [h1], by simpa [marked] using h2⟩
  | cons_cons a _ ih =>
    obtain ⟨m, h1, h2⟩ := ih
    refine ⟨true :: m, by simp [h1], ?_⟩
    simp only [marked, List.zip_cons_cons, List.filter_cons_of_pos, List.map_cons] at h2 ⊢
    rw [h2]

theorem marked_sublist {α : Type} (l : List α) (m : List Bool) : marked l m <+ l := by
  induction l generalizing m with
  | nil => simp [marked]
  | cons a l ih =>
    cases m with
    | nil => simp [marked]
    | cons b m =>
      cases b
      · simpa [marked] using (ih m).cons a
      · simpa [marked] using (ih m).cons_cons a

theorem selectionProfit_marked {α : Type} (f : α → ℚ × Int) (l : List α) (m : List Bool) :
    selectionProfit (l.map f) m = ((marked l m).map fun x => (f x).1).sum := by
  induction l generalizing m with
  | nil => simp [marked, selectionProfit]
  | cons a l ih =>
    cases m with
    | nil => simp [marked, selectionProfit]
    | cons b m =>
      have := ih m
      cases b <;> simp_all [marked, selectionProfit]

theorem selectionWeight_marked {α : Type} (f : α → ℚ × Int) (l : List α) (m : List Bool) :
    selectionWeight (l.map f) m = ((marked l m).map fun x => (f x).2).sum := by
  induction l generalizing m with
  | nil => simp [marked, selectionWeight]
  | cons a l ih =>
    cases m with
    | nil => simp [marked, selectionWeight]
    | cons b m =>
      have := ih m
      cases b <;> simp_all [marked, selectionWeight]

/-! ## Exact knapsack solvers exist -/

/-- All the selections among `n` items. -/
def allMasks : Nat → List (List Bool)
  | 0 => [[]]
  | n + 1 => (allMasks n).map (false :: ·) ++ (allMasks n).map (true :: ·)

theorem mem_allMasks (m : List Bool) : m ∈ allMasks m.length := by
  induction m with
  | nil => simp [allMasks]
  | cons b m ih => cases b <;> simp [allMasks, ih]

theorem length_of_mem_allMasks {n : Nat} {m : List Bool} (h : m ∈ allMasks n) : m.length = n := by
  induction n generalizing m with
  | zero => simpa [allMasks] using h
  | succ n ih =>
    simp only [allMasks, List.mem_append, List.mem_map] at h
    rcases h with ⟨a, ha, rfl⟩ | ⟨a, ha, rfl⟩ <;> simp [ih ha]

theorem optimal_of_all {items : List (ℚ × Int)} {capacity : Int} {m : List Bool}
    (h1 : m.length = items.length) (h2 : selectionWeight items m ≤ capacity)
    (h3 : ∀ m' ∈ allMasks items.length, selectionWeight items m' ≤ capacity →
      selectionProfit items m' ≤ selectionProfit items m) : OptimalSelection items capacity m :=
  ⟨h1, h2, fun m' hm hw => h3 m' (hm ▸ mem_allMasks m') hw⟩

theorem exists_optimal (items : List (ℚ × Int)) {capacity : Int} (hc : 0 ≤ capacity) :
    ∃ m, OptimalSelection items capacity m := by
  have hne : ((allMasks items.length).filter
      fun m => decide (selectionWeight items m ≤ capacity)).toFinset.Nonempty := by
    refine ⟨List.replicate items.length false, ?_⟩
    rw [List.mem_toFinset, List.mem_filter]
    constructor
    · have := mem_allMasks (List.replicate items.length false)
      rwa [List.length_replicate] at this
    · have : selectionWeight items (List.replicate items.length false) = 0 := by
        induction items with
        | nil => rfl
        | cons a l ih => simpa [selectionWeight, List.replicate_succ] using ih
      simp [this, hc]
  obtain ⟨m, hm, hbest⟩ := Finset.exists_max_image _ (selectionProfit items) hne
  rw [List.mem_toFinset, List.mem_filter, decide_eq_true_eq] at hm
  refine ⟨m, optimal_of_all (length_of_mem_allMasks hm.1) hm.2 fun m' hm' hw => hbest m' ?_⟩
  rw [List.mem_toFinset, List.mem_filter, decide_eq_true_eq]
  exact ⟨hm', hw⟩

/-! ## The knapsack items of an instance -/

variable {inst : Instance}

/-- The chunks of an item type. -/
abbrev chunks (inst : Instance) (i : Nat) : List Int :=
  splitCopies (inst.itemType i).copies (reducedLength (inst.itemType i)) (inst.binType 0).length

theorem kp2ps_cover (hcap : 0 ≤ (inst.binType 0).length) (x : Nat → Int) (ids : List Nat)
    (h0 : ∀ i ∈ ids, 0 ≤ x i) (hx : ∀ i ∈ ids, x i ≤ (inst.itemType i).copies)
    (hw : ∀ i ∈ ids, x i * reducedLength (inst.itemType i) ≤ (inst.binType 0).length) :
    ∃ s, s <+ (ids.flatMap fun i => (chunks inst i).map fun c => (i, c))
      ∧ ∀ {R : Type} [CommRing R] (f : Nat → R),
        (s.map fun y => (y.2 : R) * f y.1).sum = (ids.map fun i => (x i : R) * f i).sum := by
  induction ids with
  | nil => exact ⟨[], by simp, by simp⟩
  | cons i ids ih =>
    obtain ⟨s, h1, h2⟩ := ih (fun j hj => h0 j (by simp [hj])) (fun j hj => hx j (by simp [hj]))
      (fun j hj => hw j (by simp [hj]))
    obtain ⟨t, h3, h4, h5⟩ := splitLoop_cover hcap (inst.itemType i).copies.toNat 0 (le_refl _)
      (by omega) (x i) (h0 i (by simp)) (hx i (by simp)) (hw i (by simp))
    have ht : t.sum = x i := by omega
    refine ⟨t.map (fun c => (i, c)) ++ s, ?_, fun {R} _ f => ?_⟩
    · rw [List.flatMap_cons]
      exact (h3.map _).append h1
    · rw [List.map_append, List.sum_append, h2, List.map_cons, List.sum_cons, ← ht, List.map_map]
      congr 1
      clear h3 h4 h5 ht
      induction t with
      | nil => simp
      | cons a t ih => simp only [List.map_cons, List.sum_cons, ih, Function.comp]; push_cast; ring

theorem kp2ps_mem {y : Nat × Int} (h : y ∈ kp2ps inst) :
    y.1 ∈ (inst.binType 0).itemTypeIds ∧ 1 ≤ y.2 := by
  unfold kp2ps at h
  obtain ⟨i, hi, hy⟩ := List.mem_flatMap.mp h
  obtain ⟨c, hc, rfl⟩ := List.mem_map.mp hy
  exact ⟨hi, (splitLoop_bound _ 0 1 (le_refl _) (by omega)).1 c hc⟩

theorem dpOps_eq (mask : List Bool) :
    dpOps inst mask = CertificateLemmas.packOps [⟨0, 1, dpItems inst mask⟩] := by
  simp [dpOps, CertificateLemmas.packOps, CertificateLemmas.binOps]

theorem dpItems_mem {mask : List Bool} {i : Nat} (h : i ∈ dpItems inst mask) :
    i ∈ (inst.binType 0).itemTypeIds := by
  unfold dpItems at h
  obtain ⟨y, hy, hi⟩ := List.mem_flatMap.mp h
  rw [List.eq_of_mem_replicate hi]
  exact (kp2ps_mem ((marked_sublist _ _).subset hy)).1

theorem sum_replicates {R : Type} [CommRing R] (f : Nat → R) (s : List (Nat × Int))
    (h : ∀ y ∈ s, 1 ≤ y.2) :
    ((s.flatMap fun y => List.replicate y.2.toNat y.1).map f).sum
      = (s.map fun y => (y.2 : R) * f y.1).sum := by
  induction s with
  | nil => simp
  | cons y s ih =>
    rw [List.flatMap_cons, List.map_append, List.sum_append, ih fun z hz => h z (by simp [hz]),
      List.map_cons, List.sum_cons, List.map_replicate, List.sum_replicate, nsmul_eq_mul]
    congr 2
    have := h y (by simp)
    have h2 : ((y.2.toNat : Int) : R) = (y.2 : R) := by rw [Int.toNat_of_nonneg (by omega)]
    rw [← h2, Int.cast_natCast]

/-- The number of packed copies of each type is at most the number of its copies. -/
theorem count_dpItems_le {mask : List Bool} (hn : (inst.binType 0).itemTypeIds.Nodup) (i : Nat) :
    ((dpItems inst mask).count i : Int) ≤ max (inst.itemType i).copies 0 := by
  have hsub : dpItems inst mask <+ (kp2ps inst).flatMap fun y => List.replicate y.2.toNat y.1 := by
    unfold dpItems
    have : ∀ {s l : List (Nat × Int)}, s <+ l →
        (s.flatMap fun y => List.replicate y.2.toNat y.1)
          <+ l.flatMap fun y => List.replicate y.2.toNat y.1 := by
      intro s l h
      induction h with
      | slnil => simp
      | cons a _ ih => rw [List.flatMap_cons]; exact ih.trans (List.sublist_append_right _ _)
      | cons_cons a _ ih => rw [List.flatMap_cons, List.flatMap_cons]; exact (List.Sublist.refl _).append ih
    exact this (marked_sublist _ _)
  refine le_trans (Int.ofNat_le.mpr (hsub.count_le i)) ?_
  unfold kp2ps
  generalize (inst.binType 0).itemTypeIds = ids at hn ⊢
  have hone : ∀ (j : Nat) (t : List Int), (∀ c ∈ t, 1 ≤ c) →
      (((t.map fun c => (j, c)).flatMap fun y => List.replicate y.2.toNat y.1).count i : Int)
        = if j = i then t.sum else 0 := by
    intro j t ht
    induction t with
    | nil => simp
    | cons c t ih =>
      have hc := ht c (by simp)
      rw [List.map_cons, List.flatMap_cons, List.count_append, Nat.cast_add,
        ih fun c hc => ht c (by simp [hc]), List.count_replicate]
      by_cases hj : j = i
      · simp [hj]; omega
      · simp [hj]
  have hall : ∀ ids : List Nat, ids.Nodup →
      ((((ids.flatMap fun j => (chunks inst j).map fun c => (j, c)).flatMap fun y =>
        List.replicate y.2.toNat y.1).count i : Int)
        = if i ∈ ids then (chunks inst i).sum else 0) := by
    intro ids hn
    induction ids with
    | nil => simp
    | cons j ids ih =>
      rw [List.flatMap_cons, List.flatMap_append, List.count_append, Nat.cast_add,
        ih (List.nodup_cons.mp hn).2,
        hone j (chunks inst j) (splitLoop_bound _ 0 1 (le_refl _) (by omega)).1]
      by_cases hj : j = i
      · subst hj; simp [(List.nodup_cons.mp hn).1]
      · have : ¬ i = j := fun h => hj h.symm
        simp [hj, this]
  rw [hall ids hn]
  have := (splitLoop_bound (copies := (inst.itemType i).copies)
    (w := reducedLength (inst.itemType i)) (cap := (inst.binType 0).length)
    (inst.itemType i).copies.toNat 0 1 (le_refl _) (by omega)).2
  split_ifs
  · unfold chunks splitCopies; omega
  · omega

end PackingSolver.OneDim.DpLemmas
