import Verif.Lemmas.Algorithms.DichotomicLoop

/-!
# Helper lemmas for the dichotomic search: cost of the selected bins
-/

namespace PackingSolver.Dichotomic.DichLemmas

open PackingSolver.Svc (Bin BinTypeData Status)
open PackingSolver.Svc.Spec (binsUsed itemsUsed binSequence)
open _root_.PackingSolver.Dichotomic.Spec

/-- Sum of `w` over the items that are not chosen. -/
def rest (w : Nat → ℚ) (L : List (Nat × Bool)) : ℚ :=
  (L.map fun p => if p.2 then 0 else w p.1).sum

theorem sum_range_ite (n t : Nat) (f : Nat → ℚ) (h : t < n) :
    ((List.range n).map fun s => if t = s then f s else 0).sum = f t := by
  induction n with
  | zero => omega
  | succ n ih =>
    rw [List.range_succ, List.map_append, List.sum_append]
    by_cases ht : t < n
    · rw [ih ht]
      have : t ≠ n := by omega
      simp [this]
    · have : t = n := by omega
      subst this
      have : ((List.range t).map fun s => if t = s then f s else 0).sum = 0 := by
        apply List.sum_eq_zero
        intro x hx
        rw [List.mem_map] at hx
        obtain ⟨s, hs, rfl⟩ := hx
        rw [List.mem_range] at hs
        rw [if_neg (by omega)]
      rw [this]; simp

theorem sum_map_add (l : List Nat) (f g : Nat → ℚ) :
    (l.map fun s => f s + g s).sum = (l.map f).sum + (l.map g).sum := by
  induction l with
  | nil => simp
  | cons a l ih => simp only [List.map_cons, List.sum_cons, ih]; ring

theorem sum_map_le (l : List Nat) (f g : Nat → ℚ) (h : ∀ a ∈ l, f a ≤ g a) :
    (l.map f).sum ≤ (l.map g).sum := by
  induction l with
  | nil => exact le_refl _
  | cons a l ih =>
    rw [List.map_cons, List.map_cons, List.sum_cons, List.sum_cons]
    have h1 := h a List.mem_cons_self
    have h2 := ih fun b hb => h b (List.mem_cons_of_mem _ hb)
    linarith

theorem sum_countP (w : Nat → ℚ) (n : Nat) (L : List (Nat × Bool)) (h : ∀ p ∈ L, p.1 < n) :
    ((List.range n).map fun t =>
      ((L.countP fun p => p.1 = t ∧ p.2 = false : Int) : ℚ) * w t).sum = rest w L := by
  induction L with
  | nil => simp [rest]
  | cons a L ih =>
    have ih' := ih fun p hp => h p (List.mem_cons_of_mem _ hp)
    have e : ∀ t, (((a :: L).countP (fun p => decide (p.1 = t ∧ p.2 = false)) : Int) : ℚ) * w t
        = (if a.1 = t then (if a.2 then 0 else w t) else 0)
          + ((L.countP (fun p => decide (p.1 = t ∧ p.2 = false)) : Int) : ℚ) * w t := by
      intro t
      rw [List.countP_cons]
      by_cases h1 : a.1 = t
      · cases h2 : a.2
        · rw [if_pos (by simp [h1])]
          simp only [h1, if_true]
          push_cast
          ring
        · rw [if_neg (by simp)]
          simp
      · rw [if_neg (by simp [h1]), if_neg h1]
        simp
    simp only [e]
    rw [sum_map_add, ih',
      sum_range_ite n a.1 (fun t => if a.2 then 0 else w t) (h a List.mem_cons_self)]
    unfold rest
    rw [List.map_cons, List.sum_cons]

theorem total_add_rest (w : Nat → ℚ) (ids : List Nat) (S : List Bool)
    (h : S.length = ids.length) :
    total w ids S + rest w (ids.zip S) = (ids.map w).sum := by
  unfold total rest
  induction ids generalizing S with
  | nil => simp
  | cons a ids ih =>
    cases S with
    | nil => simp at h
    | cons b S =>
      have := ih S (by simpa using h)
      simp only [List.zip_cons_cons, List.map_cons, List.sum_cons]
      cases b
      · simp only [Bool.false_eq_true, if_false]
        linarith
      · simp only [if_true]
        linarith

theorem total_append (w : Nat → ℚ) (a b : List Nat) (S T : List Bool) (h : S.length = a.length) :
    total w (a ++ b) (S ++ T) = total w a S + total w b T := by
  unfold total
  rw [List.zip_append h.symm]
  simp

theorem rest_append (w : Nat → ℚ) (a b : List Nat) (S T : List Bool) (h : S.length = a.length) :
    rest w ((a ++ b).zip (S ++ T)) = rest w (a.zip S) + rest w (b.zip T) := by
  unfold rest
  rw [List.zip_append h.symm]
  simp

theorem total_replicate_true (w : Nat → ℚ) (n t : Nat) :
    total w (List.replicate n t) (List.replicate n true) = n * w t := by
  unfold total
  rw [List.zip_replicate, Nat.min_self]
  simp

theorem total_replicate_false (w : Nat → ℚ) (n t : Nat) :
    total w (List.replicate n t) (List.replicate n false) = 0 := by
  unfold total
  rw [List.zip_replicate, Nat.min_self]
  simp

theorem rest_replicate_true (w : Nat → ℚ) (n t : Nat) :
    rest w ((List.replicate n t).zip (List.replicate n true)) = 0 := by
  unfold rest
  rw [List.zip_replicate, Nat.min_self]
  simp

theorem rest_replicate_false (w : Nat → ℚ) (n t : Nat) :
    rest w ((List.replicate n t).zip (List.replicate n false)) = n * w t := by
  unfold rest
  rw [List.zip_replicate, Nat.min_self]
  simp

/-- The flags of a choice of bins: the bins that are left out are marked. -/
def flagsOf (inst : InstanceData) (c : Int) (n : Nat → Int) (l : List Nat) : List Bool :=
  l.flatMap fun t =>
    if (inst.binType t).space > (c : ℚ) then []
    else List.replicate ((inst.binType t).copies - n t).toNat true
      ++ List.replicate (n t - (inst.binType t).copiesMin).toNat false

theorem flagsOf_facts (inst : InstanceData) (c : Int) (n : Nat → Int) (w : Nat → ℚ)
    (l : List Nat)
    (h : ∀ t ∈ l, (inst.binType t).copiesMin ≤ n t ∧ n t ≤ (inst.binType t).copies) :
    (flagsOf inst c n l).length = (l.flatMap fun t =>
        if (inst.binType t).space > (c : ℚ) then []
        else List.replicate ((inst.binType t).copies - (inst.binType t).copiesMin).toNat
          t).length ∧
    total w (l.flatMap fun t =>
        if (inst.binType t).space > (c : ℚ) then []
        else List.replicate ((inst.binType t).copies - (inst.binType t).copiesMin).toNat t)
      (flagsOf inst c n l) = (l.map fun t => if (inst.binType t).space > (c : ℚ) then 0
        else (((inst.binType t).copies - n t : Int) : ℚ) * w t).sum ∧
    rest w ((l.flatMap fun t =>
        if (inst.binType t).space > (c : ℚ) then []
        else List.replicate ((inst.binType t).copies - (inst.binType t).copiesMin).toNat t).zip
      (flagsOf inst c n l)) = (l.map fun t => if (inst.binType t).space > (c : ℚ) then 0
        else ((n t - (inst.binType t).copiesMin : Int) : ℚ) * w t).sum := by
  induction l with
  | nil => simp [flagsOf, total, rest]
  | cons t l ih =>
    obtain ⟨h1, h2, h3⟩ := ih fun s hs => h s (List.mem_cons_of_mem _ hs)
    have ht := h t List.mem_cons_self
    unfold flagsOf at h1 h2 h3 ⊢
    rw [List.flatMap_cons, List.flatMap_cons, List.map_cons, List.map_cons, List.sum_cons,
      List.sum_cons]
    by_cases hs : (inst.binType t).space > (c : ℚ)
    · simp only [hs, if_true, List.nil_append, zero_add]
      exact ⟨h1, h2, h3⟩
    · simp only [hs, if_false]
      obtain ⟨a, ha⟩ : ∃ a : Nat, (inst.binType t).copies - n t = a :=
        ⟨((inst.binType t).copies - n t).toNat, by omega⟩
      obtain ⟨b, hb⟩ : ∃ b : Nat, n t - (inst.binType t).copiesMin = b :=
        ⟨(n t - (inst.binType t).copiesMin).toNat, by omega⟩
      have hab : (inst.binType t).copies - (inst.binType t).copiesMin = ((a + b : Nat) : Int) := by
        push_cast; omega
      have hlen : (List.replicate a true ++ List.replicate b false).length
          = (List.replicate (a + b) t).length := by simp
      rw [ha, hb, hab]
      simp only [Int.toNat_natCast]
      refine ⟨?_, ?_, ?_⟩
      · rw [List.length_append, hlen, h1, List.length_append]
      · rw [total_append _ _ _ _ _ hlen, h2, List.replicate_add,
          total_append _ _ _ _ _ (by simp), total_replicate_true, total_replicate_false]
        push_cast; ring
      · rw [rest_append _ _ _ _ _ hlen, h3, List.replicate_add,
          rest_append _ _ _ _ _ (by simp), rest_replicate_true, rest_replicate_false]
        push_cast; ring

/-! ### Cost of the first bins -/

/-- Bin types of a list of bins, one by one. -/
def typeSeq (bins : List (Nat × Int)) : List Nat :=
  bins.flatMap fun p => List.replicate p.2.toNat p.1

theorem typeSeq_eq (bins : List (Nat × Int)) :
    ((List.range bins.length).flatMap fun k =>
      List.replicate (bins.getD k (0, 0)).2.toNat k).map (fun k => (bins.getD k (0, 0)).1)
      = typeSeq bins := by
  rw [List.map_flatMap]
  have e : (fun k => (List.replicate (bins.getD k (0, 0)).2.toNat k).map
      fun k => (bins.getD k (0, 0)).1)
      = (fun p : Nat × Int => List.replicate p.2.toNat p.1) ∘ fun k => bins.getD k (0, 0) := by
    funext k
    rw [List.map_replicate]
    rfl
  rw [e]
  unfold typeSeq
  have e2 : (List.range bins.length).map (fun k => bins.getD k (0, 0)) = bins := by
    apply List.ext_getElem
    · simp
    · intro i h1 h2
      rw [List.getElem_map, List.getElem_range, List.getD_eq_getElem _ _ h2]
  conv_rhs => rw [← e2]
  rw [List.flatMap_map]
  rfl

theorem binSequence_relabel (bins : List (Nat × Int)) (sol : List Bin) :
    binSequence (relabel bins sol) = (binSequence sol).map fun k => (bins.getD k (0, 0)).1 := by
  unfold binSequence relabel
  rw [List.map_flatMap, List.flatMap_map]
  congr 1
  funext b
  rw [List.map_replicate]

theorem cost_eq (inst : InstanceData) (sol : List Bin) (h : ∀ b ∈ sol, 1 ≤ b.copies) :
    cost inst sol = ((binSequence sol).map fun t => (inst.binType t).cost).sum := by
  unfold cost binSequence
  induction sol with
  | nil => rfl
  | cons b sol ih =>
    rw [List.map_cons, List.sum_cons, ih fun b hb => h b (List.mem_cons_of_mem _ hb),
      List.flatMap_cons, List.map_append, List.sum_append, List.map_replicate,
      List.sum_replicate, nsmul_eq_mul]
    have hb := h b List.mem_cons_self
    have : ((b.copies.toNat : Nat) : ℚ) = (b.copies : ℚ) := by
      have : ((b.copies.toNat : Int) : ℚ) = (b.copies : ℚ) := by
        rw [Int.toNat_of_nonneg (by omega)]
      exact_mod_cast this
    rw [this]

theorem length_binSequence (sol : List Bin) (h : ∀ b ∈ sol, 1 ≤ b.copies) :
    ((binSequence sol).length : Int) = Svc.numberOfBins sol := by
  unfold binSequence Svc.numberOfBins
  induction sol with
  | nil => rfl
  | cons b sol ih =>
    rw [List.flatMap_cons, List.length_append, List.map_cons, List.sum_cons,
      ← ih fun b hb => h b (List.mem_cons_of_mem _ hb), List.length_replicate]
    have hb := h b List.mem_cons_self
    push_cast
    omega

theorem length_typeSeq (bins : List (Nat × Int)) (h : ∀ p ∈ bins, 0 < p.2) :
    ((typeSeq bins).length : Int) = (bins.map fun p => p.2).sum := by
  unfold typeSeq
  induction bins with
  | nil => rfl
  | cons b bins ih =>
    rw [List.flatMap_cons, List.length_append, List.map_cons, List.sum_cons,
      ← ih fun b hb => h b (List.mem_cons_of_mem _ hb), List.length_replicate]
    have hb := h b List.mem_cons_self
    push_cast
    omega

theorem sum_typeSeq (w : Nat → ℚ) (bins : List (Nat × Int)) (h : ∀ p ∈ bins, 0 < p.2) :
    ((typeSeq bins).map w).sum = (bins.map fun p => (p.2 : ℚ) * w p.1).sum := by
  unfold typeSeq
  induction bins with
  | nil => rfl
  | cons b bins ih =>
    rw [List.flatMap_cons, List.map_append, List.sum_append, List.map_cons, List.sum_cons,
      ih fun b hb => h b (List.mem_cons_of_mem _ hb), List.map_replicate, List.sum_replicate,
      nsmul_eq_mul]
    have hb := h b List.mem_cons_self
    have : ((b.2.toNat : Nat) : ℚ) = (b.2 : ℚ) := by
      have : ((b.2.toNat : Int) : ℚ) = (b.2 : ℚ) := by
        rw [Int.toNat_of_nonneg (by omega)]
      exact_mod_cast this
    rw [this]

theorem sum_prefix_le (w : Nat → ℚ) (a b : List Nat) (h : a <+: b) (hw : ∀ t ∈ b, 0 ≤ w t) :
    (a.map w).sum ≤ (b.map w).sum := by
  obtain ⟨c, rfl⟩ := h
  rw [List.map_append, List.sum_append]
  have : 0 ≤ (c.map w).sum := by
    apply List.sum_nonneg
    intro x hx
    rw [List.mem_map] at hx
    obtain ⟨t, ht, rfl⟩ := hx
    exact hw t (List.mem_append_right _ ht)
  linarith

theorem sum_firstGroup (w : Nat → ℚ) (copies : List Int) (l : List Nat)
    (h : ∀ t, 0 ≤ copies.getD t 0) :
    ((firstGroup l copies).map fun p => (p.2 : ℚ) * w p.1).sum
      = (l.map fun t => ((copies.getD t 0 : Int) : ℚ) * w t).sum := by
  unfold firstGroup
  induction l with
  | nil => rfl
  | cons t l ih =>
    by_cases ht : copies.getD t 0 > 0
    · rw [List.filter_cons_of_pos (by simpa using ht)]
      simp only [List.map_cons, List.sum_cons, ih]
    · rw [List.filter_cons_of_neg (by simpa using ht), ih, List.map_cons, List.sum_cons]
      have h0 : copies.getD t 0 = 0 := le_antisymm (by omega) (h t)
      rw [h0]; simp

/-- A solution with no more bins than selected costs no more than the selected bins. -/
theorem cost_le_selected {inst : InstanceData} (hv : ValidInstance inst) {sorted : List Nat}
    (hs : SortedBySpace inst sorted) {o : Oracle} (hcost : ∀ t ∈ inst.binTypes, 0 ≤ t.cost)
    (ho : BinPackingAnswers inst o) (hord : UsesBinsInOrder o) {cap : Int} {taken : List Bool}
    {bins : List (Nat × Int)} (hb : bppBins inst sorted (binCopies inst cap taken) = .ok bins)
    (hn : Svc.numberOfBins (o.bpp bins) ≤ selectedBins sorted (binCopies inst cap taken)) :
    cost inst (relabel bins (o.bpp bins))
      ≤ sumOver inst (fun t => (binCopies inst cap taken).getD t 0) fun t => t.cost := by
  have hok := bppBins_ok hv hs hb
  have hpos : ∀ p ∈ bins, 0 < p.2 := fun p hp => (hok.1 p hp).2
  have hw := ho bins hpos
  have hrel : ∀ b ∈ relabel bins (o.bpp bins), 1 ≤ b.copies := by
    intro b hb'
    unfold relabel at hb'
    rw [List.mem_map] at hb'
    obtain ⟨b0, h0, rfl⟩ := hb'
    exact (hw.types b0 h0).2.1
  rw [cost_eq inst _ hrel]
  -- the sequence of bins is a prefix of the offered sequence
  have hpre : binSequence (relabel bins (o.bpp bins)) <+: typeSeq bins := by
    rw [binSequence_relabel, ← typeSeq_eq]
    exact (hord bins hpos).map _
  have hbins : bins = firstGroup sorted (binCopies inst cap taken)
      ++ secondGroup inst sorted (binCopies inst cap taken) := by
    rw [bppBins_eq] at hb
    split at hb
    · cases hb
    · injection hb with hb; exact hb.symm
  have hfpos : ∀ p ∈ firstGroup sorted (binCopies inst cap taken), 0 < p.2 :=
    fun p hp => (firstGroup_mem hp).2.2
  have hfirst : typeSeq (firstGroup sorted (binCopies inst cap taken)) <+: typeSeq bins := by
    rw [hbins]
    unfold typeSeq
    rw [List.flatMap_append]
    exact List.prefix_append _ _
  have hlen : (binSequence (relabel bins (o.bpp bins))).length
      ≤ (typeSeq (firstGroup sorted (binCopies inst cap taken))).length := by
    have h1 := length_binSequence _ hrel
    have h2 := length_typeSeq _ hfpos
    rw [numberOfBins_relabel] at h1
    rw [← selectedBins_eq] at h2
    omega
  have hpre2 := List.prefix_of_prefix_length_le hpre hfirst hlen
  have hnn : ∀ t, 0 ≤ (binCopies inst cap taken).getD t 0 := by
    intro s
    by_cases h : s < inst.binTypes.length
    · exact le_trans (binType_bounds hv s).1 (binCopies_bounds hv cap taken h).1
    · rw [binCopies_getD, if_neg h]
  refine le_trans (sum_prefix_le (fun t => (inst.binType t).cost) _ _ hpre2 ?_) ?_
  · intro t ht
    unfold typeSeq at ht
    rw [List.mem_flatMap] at ht
    obtain ⟨q, hq, ht⟩ := ht
    rw [List.eq_of_mem_replicate ht]
    exact hcost _ (binType_mem ((sorted_mem hs _).mp (firstGroup_mem hq).1))
  · rw [sum_typeSeq _ _ hfpos, sum_firstGroup (fun t => (inst.binType t).cost) _ _ hnn]
    unfold sumOver
    exact le_of_eq (List.Perm.sum_eq (hs.perm.map _))

end PackingSolver.Dichotomic.DichLemmas
