import Verif.Spec.Dichotomic
import Verif.Lemmas.Algorithms.Svc
import Mathlib.Algebra.BigOperators.Group.List.Basic
import Mathlib.Algebra.Order.BigOperators.Group.List
import Mathlib.Algebra.BigOperators.Ring.List
import Mathlib.Tactic.Ring
import Mathlib.Tactic.Linarith
import Mathlib.Tactic.Push
import Mathlib.Data.List.GetD

/-!
# Helper lemmas for the dichotomic search: bins of the sub-instances
-/

namespace PackingSolver.Dichotomic.DichLemmas

open PackingSolver.Svc (Bin BinTypeData)
open PackingSolver.Svc.Spec (binsUsed itemsUsed binSequence)
open _root_.PackingSolver.Dichotomic.Spec

theorem binType_mem {inst : InstanceData} {t : Nat} (h : t < inst.binTypes.length) :
    inst.binType t ∈ inst.binTypes := by
  unfold InstanceData.binType
  rw [List.getD_eq_getElem _ _ h]
  exact List.getElem_mem h

theorem binType_bounds {inst : InstanceData} (hv : ValidInstance inst) (t : Nat) :
    0 ≤ (inst.binType t).copiesMin ∧ (t < inst.binTypes.length →
      (inst.binType t).copiesMin ≤ (inst.binType t).copies ∧ 0 ≤ (inst.binType t).space) := by
  by_cases h : t < inst.binTypes.length
  · have := hv.bins _ (binType_mem h)
    exact ⟨this.1, fun _ => this.2⟩
  · refine ⟨?_, fun h' => absurd h' h⟩
    unfold InstanceData.binType
    rw [List.getD_eq_default _ _ (by omega)]

theorem sorted_mem {inst : InstanceData} {sorted : List Nat} (hs : SortedBySpace inst sorted)
    (t : Nat) : t ∈ sorted ↔ t < inst.binTypes.length := by
  rw [hs.perm.mem_iff, List.mem_range]

theorem sorted_nodup {inst : InstanceData} {sorted : List Nat} (hs : SortedBySpace inst sorted) :
    sorted.Nodup := hs.perm.nodup_iff.mpr List.nodup_range

/-- Number of optional bins of a type among the knapsack items. -/
theorem count_kp2ps (inst : InstanceData) (c : Int) (t : Nat) (ht : t < inst.binTypes.length) :
    ((kp2ps inst c).count t : Int) =
      if (inst.binType t).space > (c : ℚ) then 0
      else max 0 ((inst.binType t).copies - (inst.binType t).copiesMin) := by
  unfold kp2ps
  have gen : ∀ n, (((List.range n).flatMap fun s =>
      if (inst.binType s).space > (c : ℚ) then []
      else List.replicate ((inst.binType s).copies - (inst.binType s).copiesMin).toNat s).count t
        : Int) = if t < n then (if (inst.binType t).space > (c : ℚ) then 0
      else max 0 ((inst.binType t).copies - (inst.binType t).copiesMin)) else 0 := by
    intro n
    induction n with
    | zero => simp
    | succ n ih =>
      rw [List.range_succ, List.flatMap_append, List.count_append]
      push_cast
      rw [ih]
      simp only [List.flatMap_cons, List.flatMap_nil, List.append_nil]
      by_cases h : t = n
      · subst h
        rw [if_neg (show ¬ t < t by omega), if_pos (show t < t + 1 by omega), zero_add]
        by_cases h1 : (inst.binType t).space > (c : ℚ)
        · rw [if_pos h1, if_pos h1]; simp
        · rw [if_neg h1, if_neg h1, List.count_replicate_self]; omega
      · have h0 : (if (inst.binType n).space > (c : ℚ) then []
            else List.replicate ((inst.binType n).copies - (inst.binType n).copiesMin).toNat
              n).count t = 0 := by
          split
          · simp
          · rw [List.count_replicate, if_neg (by simpa using fun e => h e.symm)]
        rw [h0]
        by_cases h2 : t < n
        · rw [if_pos h2, if_pos (show t < n + 1 by omega)]; simp
        · rw [if_neg h2, if_neg (show ¬ t < n + 1 by omega)]; simp
  rw [gen, if_pos ht]

theorem kp2ps_lt (inst : InstanceData) (c : Int) {t : Nat} (h : t ∈ kp2ps inst c) :
    t < inst.binTypes.length := by
  unfold kp2ps at h
  rw [List.mem_flatMap] at h
  obtain ⟨s, hs, h⟩ := h
  rw [List.mem_range] at hs
  by_cases h1 : (inst.binType s).space > (c : ℚ)
  · rw [if_pos h1] at h; simp at h
  · rw [if_neg h1] at h
    rw [List.eq_of_mem_replicate h]; exact hs

theorem countP_zip_le (ids : List Nat) (S : List Bool) (t : Nat) :
    (ids.zip S).countP (fun p => p.1 = t ∧ p.2 = false) ≤ ids.count t := by
  induction ids generalizing S with
  | nil => simp
  | cons a ids ih =>
    cases S with
    | nil => simp
    | cons b S =>
      simp only [List.zip_cons_cons, List.countP_cons, List.count_cons]
      have := ih S
      by_cases h : a = t
      · cases b <;> simp [h] at this ⊢ <;> omega
      · cases b <;> simp [h] at this ⊢ <;> omega

theorem binCopies_getD (inst : InstanceData) (c : Int) (taken : List Bool) (t : Nat) :
    (binCopies inst c taken).getD t 0 =
      if t < inst.binTypes.length then (inst.binType t).copiesMin
        + (((kp2ps inst c).zip taken).countP fun p => p.1 = t ∧ p.2 = false : Int) else 0 := by
  unfold binCopies
  by_cases h : t < inst.binTypes.length
  · rw [if_pos h, List.getD_eq_getElem _ _ (by simpa using h)]
    simp
  · rw [if_neg h, List.getD_eq_default _ _ (by simpa using h)]

theorem binCopies_bounds {inst : InstanceData} (hv : ValidInstance inst) (c : Int)
    (taken : List Bool) {t : Nat} (ht : t < inst.binTypes.length) :
    (inst.binType t).copiesMin ≤ (binCopies inst c taken).getD t 0 ∧
      (binCopies inst c taken).getD t 0 ≤ (inst.binType t).copies := by
  rw [binCopies_getD, if_pos ht]
  have h1 := countP_zip_le (kp2ps inst c) taken t
  have h2 := count_kp2ps inst c t ht
  have h3 := (binType_bounds hv t).2 ht
  constructor
  · omega
  · have h4 : ((kp2ps inst c).count t : Int)
        ≤ (inst.binType t).copies - (inst.binType t).copiesMin := by
      rw [h2]; split <;> omega
    omega

/-! ### The offered bins -/

theorem offered_append (a b : List (Nat × Int)) (t : Nat) :
    offered (a ++ b) t = offered a t + offered b t := by
  unfold offered; simp

theorem offered_group (f : Nat → Int) (hf : ∀ t, 0 ≤ f t) (l : List Nat) (hl : l.Nodup)
    (t : Nat) :
    offered ((l.filter fun s => f s > 0).map fun s => (s, f s)) t
      = if t ∈ l then f t else 0 := by
  induction l with
  | nil => simp [offered]
  | cons a l ih =>
    have ih' := ih (List.nodup_cons.mp hl).2
    have hna := (List.nodup_cons.mp hl).1
    have hcons : ∀ (p : Nat × Int) q, offered (p :: q) t
        = (if p.1 = t then p.2 else 0) + offered q t := by
      intro p q
      unfold offered
      by_cases h : p.1 = t <;> simp [h]
    by_cases ha : f a > 0
    · rw [List.filter_cons_of_pos (by simpa using ha), List.map_cons, hcons, ih']
      by_cases h : a = t
      · subst h; simp [hna]
      · have : t ≠ a := fun e => h e.symm
        simp [h, this]
    · rw [List.filter_cons_of_neg (by simpa using ha), ih']
      have h0 : f a = 0 := le_antisymm (by omega) (hf a)
      by_cases h : a = t
      · subst h; simp [h0]
      · have : t ≠ a := fun e => h e.symm
        simp [this]

/-- Selected bins. -/
def firstGroup (sorted : List Nat) (copies : List Int) : List (Nat × Int) :=
  (sorted.filter fun t => copies.getD t 0 > 0).map fun t => (t, copies.getD t 0)

/-- Remaining bins. -/
def secondGroup (inst : InstanceData) (sorted : List Nat) (copies : List Int) :
    List (Nat × Int) :=
  (sorted.filter fun t => (inst.binType t).copies - copies.getD t 0 > 0).map
    fun t => (t, (inst.binType t).copies - copies.getD t 0)

theorem bppBins_eq (inst : InstanceData) (sorted : List Nat) (copies : List Int) :
    bppBins inst sorted copies =
      if ∃ p ∈ firstGroup sorted copies ++ secondGroup inst sorted copies,
          (inst.binType p.1).copiesMin > p.2 then .error .invalidArgument
      else .ok (firstGroup sorted copies ++ secondGroup inst sorted copies) := rfl

theorem selectedBins_eq (sorted : List Nat) (copies : List Int) :
    selectedBins sorted copies = ((firstGroup sorted copies).map fun p => p.2).sum := by
  unfold selectedBins firstGroup
  rw [List.map_map]
  rfl

theorem firstGroup_mem {sorted : List Nat} {copies : List Int} {p : Nat × Int}
    (h : p ∈ firstGroup sorted copies) :
    p.1 ∈ sorted ∧ p.2 = copies.getD p.1 0 ∧ 0 < p.2 := by
  unfold firstGroup at h
  rw [List.mem_map] at h
  obtain ⟨t, ht, rfl⟩ := h
  rw [List.mem_filter] at ht
  exact ⟨ht.1, rfl, by simpa using ht.2⟩

theorem secondGroup_mem {inst : InstanceData} {sorted : List Nat} {copies : List Int}
    {p : Nat × Int} (h : p ∈ secondGroup inst sorted copies) :
    p.1 ∈ sorted ∧ p.2 = (inst.binType p.1).copies - copies.getD p.1 0 ∧ 0 < p.2 := by
  unfold secondGroup at h
  rw [List.mem_map] at h
  obtain ⟨t, ht, rfl⟩ := h
  rw [List.mem_filter] at ht
  exact ⟨ht.1, rfl, by have := of_decide_eq_true ht.2; exact this⟩

theorem offered_first {inst : InstanceData} (hv : ValidInstance inst) {sorted : List Nat}
    (hs : SortedBySpace inst sorted) (c : Int) (taken : List Bool) {t : Nat}
    (ht : t < inst.binTypes.length) :
    offered (firstGroup sorted (binCopies inst c taken)) t
      = (binCopies inst c taken).getD t 0 := by
  have := offered_group (fun s => (binCopies inst c taken).getD s 0) (by
    intro s
    by_cases h : s < inst.binTypes.length
    · exact le_trans (binType_bounds hv s).1 (binCopies_bounds hv c taken h).1
    · rw [binCopies_getD, if_neg h]) sorted (sorted_nodup hs) t
  rw [if_pos ((sorted_mem hs t).mpr ht)] at this
  exact this

theorem offered_second {inst : InstanceData} (hv : ValidInstance inst) {sorted : List Nat}
    (hs : SortedBySpace inst sorted) (c : Int) (taken : List Bool) {t : Nat}
    (ht : t < inst.binTypes.length) :
    offered (secondGroup inst sorted (binCopies inst c taken)) t
      = (inst.binType t).copies - (binCopies inst c taken).getD t 0 := by
  have e : secondGroup inst sorted (binCopies inst c taken)
      = (sorted.filter fun s => (if s < inst.binTypes.length then
          (inst.binType s).copies - (binCopies inst c taken).getD s 0 else 0) > 0).map
        fun s => (s, if s < inst.binTypes.length then
          (inst.binType s).copies - (binCopies inst c taken).getD s 0 else 0) := by
    unfold secondGroup
    rw [List.filter_congr (q := fun s => decide ((if s < inst.binTypes.length then
          (inst.binType s).copies - (binCopies inst c taken).getD s 0 else 0) > 0))]
    · apply List.map_congr_left
      intro s hs'
      rw [if_pos ((sorted_mem hs s).mp (List.mem_filter.mp hs').1)]
    · intro s hs'
      rw [if_pos ((sorted_mem hs s).mp hs')]
  have := offered_group (fun s => if s < inst.binTypes.length then
      (inst.binType s).copies - (binCopies inst c taken).getD s 0 else 0) (by
    intro s
    by_cases h : s < inst.binTypes.length
    · show 0 ≤ if s < inst.binTypes.length then _ else _
      rw [if_pos h]
      have := (binCopies_bounds hv c taken h).2
      omega
    · show 0 ≤ if s < inst.binTypes.length then _ else _
      rw [if_neg h]) sorted (sorted_nodup hs) t
  rw [e, this, if_pos ((sorted_mem hs t).mpr ht), if_pos ht]

/-! ### Relabelled solutions -/

theorem itemsUsed_relabel (bins : List (Nat × Int)) (sol : List Bin) (i : Nat) :
    itemsUsed (relabel bins sol) i = itemsUsed sol i := by
  unfold itemsUsed relabel
  rw [List.map_map]
  rfl

theorem numberOfItems_relabel (bins : List (Nat × Int)) (sol : List Bin) :
    Svc.numberOfItems (relabel bins sol) = Svc.numberOfItems sol := by
  unfold Svc.numberOfItems relabel
  rw [List.map_map]
  rfl

theorem numberOfBins_relabel (bins : List (Nat × Int)) (sol : List Bin) :
    Svc.numberOfBins (relabel bins sol) = Svc.numberOfBins sol := by
  unfold Svc.numberOfBins relabel
  rw [List.map_map]
  rfl

theorem offered_eq_range (bins : List (Nat × Int)) (t : Nat) :
    offered bins t = ((List.range bins.length).map fun k =>
      if (bins.getD k (0, 0)).1 = t then (bins.getD k (0, 0)).2 else 0).sum := by
  rw [Svc.SvcLemmas.sum_range_getD bins (0, 0) fun p => if p.1 = t then p.2 else 0]
  unfold offered
  induction bins with
  | nil => rfl
  | cons p bins ih =>
    by_cases h : p.1 = t
    · rw [List.filter_cons_of_pos (by simpa using h)]; simp [h, ih]
    · rw [List.filter_cons_of_neg (by simpa using h)]; simp [h, ih]

theorem binsUsed_relabel (bins : List (Nat × Int)) (sol : List Bin) (t : Nat)
    (h : ∀ b ∈ sol, b.typeId < bins.length) :
    binsUsed (relabel bins sol) t = ((List.range bins.length).map fun k =>
      if (bins.getD k (0, 0)).1 = t then binsUsed sol k else 0).sum := by
  have e := Svc.SvcLemmas.sum_binCopies
    (fun k => if (bins.getD k (0, 0)).1 = t then (1 : Int) else 0) bins.length sol h
  rw [Svc.SvcLemmas.binsUsed_eq]
  have : ∀ k, (if (bins.getD k (0, 0)).1 = t then binsUsed sol k else 0)
      = Svc.binCopies sol k * (if (bins.getD k (0, 0)).1 = t then (1 : Int) else 0) := by
    intro k
    rw [Svc.SvcLemmas.binsUsed_eq]
    split <;> simp
  simp only [this]
  rw [← e]
  unfold Svc.binCopies relabel
  rw [List.map_map]
  congr 1
  apply List.map_congr_left
  intro b _
  show (if (bins.getD b.typeId (0, 0)).1 = t then b.copies else 0) = _
  split <;> simp

theorem within_relabel {inst : InstanceData} {bins : List (Nat × Int)} {sol : List Bin}
    (hw : WithinOffer inst bins sol) (hb : ∀ p ∈ bins, p.1 < inst.binTypes.length)
    (ho : ∀ t, offered bins t ≤ (inst.binType t).copies) :
    WithinCopies inst (relabel bins sol) := by
  refine ⟨?_, ?_, ?_⟩
  · intro b hb'
    unfold relabel at hb'
    rw [List.mem_map] at hb'
    obtain ⟨b0, h0, rfl⟩ := hb'
    have := hw.types b0 h0
    refine ⟨?_, this.2.1, this.2.2⟩
    show (bins.getD b0.typeId (0, 0)).1 < _
    rw [List.getD_eq_getElem _ _ this.1]
    exact hb _ (List.getElem_mem this.1)
  · intro t
    rw [binsUsed_relabel bins sol t fun b hb => (hw.types b hb).1]
    refine le_trans ?_ (ho t)
    rw [offered_eq_range]
    apply Svc.SvcLemmas.sum_map_le
    intro k _
    split
    · exact hw.bins k
    · exact le_refl _
  · intro i
    rw [itemsUsed_relabel]
    exact hw.items i

theorem bppBins_ok {inst : InstanceData} (hv : ValidInstance inst) {sorted : List Nat}
    (hs : SortedBySpace inst sorted) {c : Int} {taken : List Bool} {bins : List (Nat × Int)}
    (h : bppBins inst sorted (binCopies inst c taken) = .ok bins) :
    (∀ p ∈ bins, p.1 < inst.binTypes.length ∧ 0 < p.2) ∧
    (∀ t, offered bins t = if t < inst.binTypes.length then (inst.binType t).copies else 0) := by
  rw [bppBins_eq] at h
  split at h
  · cases h
  · injection h with h
    subst h
    have hm : ∀ p ∈ firstGroup sorted (binCopies inst c taken)
        ++ secondGroup inst sorted (binCopies inst c taken),
        p.1 < inst.binTypes.length ∧ 0 < p.2 := by
      intro p hp
      rw [List.mem_append] at hp
      rcases hp with hp | hp
      · have := firstGroup_mem hp
        exact ⟨(sorted_mem hs _).mp this.1, this.2.2⟩
      · have := secondGroup_mem hp
        exact ⟨(sorted_mem hs _).mp this.1, this.2.2⟩
    refine ⟨hm, ?_⟩
    intro t
    by_cases ht : t < inst.binTypes.length
    · rw [if_pos ht, offered_append, offered_first hv hs c taken ht,
        offered_second hv hs c taken ht]
      omega
    · rw [if_neg ht]
      unfold offered
      have : (firstGroup sorted (binCopies inst c taken)
          ++ secondGroup inst sorted (binCopies inst c taken)).filter (fun p => p.1 = t) = [] := by
        rw [List.filter_eq_nil_iff]
        intro p hp
        have := (hm p hp).1
        simp only [decide_eq_true_eq]
        omega
      rw [this]
      rfl

end PackingSolver.Dichotomic.DichLemmas
