import Verif.Spec.RectScales
import Verif.Lemmas.Rect.ColumnsRat
import Verif.Lemmas.Rect.Dantzig

/-!
# Lemmas about conservative scales
-/

namespace PackingSolver.Rect.ScaleLemmas

open Scales
open _root_.PackingSolver.Rect.Spec

variable {inst : Instance}

theorem foldl_add_rat {α : Type} (f : α → ℚ) (l : List α) (a : ℚ) :
    l.foldl (fun acc i => acc + f i) a = a + (l.map f).sum := by
  induction l generalizing a with
  | nil => simp
  | cons x l ih => rw [List.foldl_cons, ih, List.map_cons, List.sum_cons]; ring

/-- A sum over a list of ids is a sum over the ids, weighted by their number of occurrences. -/
theorem sum_count {R : Type} [CommRing R] (f : Nat → R) (ids s : List Nat) (hn : ids.Nodup)
    (h : ∀ i ∈ s, i ∉ ids → f i = 0) :
    (s.map f).sum = (ids.map fun i => f i * (s.count i : R)).sum := by
  induction s with
  | nil => simp
  | cons a s ih =>
    rw [List.map_cons, List.sum_cons, ih fun i hi => h i (by simp [hi])]
    have e : (ids.map fun i => f i * ((a :: s).count i : R)).sum
        = (ids.map fun i => f i * (if a = i then 1 else 0)).sum
          + (ids.map fun i => f i * (s.count i : R)).sum := by
      rw [← List.sum_map_add]
      congr 1
      refine List.map_congr_left fun i _ => ?_
      rw [List.count_cons]
      by_cases hai : a = i
      · subst hai; simp; ring
      · have : (a == i) = false := by simpa using hai
        simp [this, hai]
    rw [e]
    congr 1
    have : ∀ l : List Nat, l.Nodup → (l.map fun i => f i * (if a = i then 1 else 0)).sum
        = if a ∈ l then f a else 0 := by
      intro l
      induction l with
      | nil => simp
      | cons b l ihl =>
        intro hl
        rw [List.nodup_cons] at hl
        rw [List.map_cons, List.sum_cons, ihl hl.2]
        by_cases hab : a = b
        · subst hab
          simp [hl.1]
        · simp [hab]
    rw [this ids hn]
    by_cases ha : a ∈ ids
    · rw [if_pos ha]
    · rw [if_neg ha, h a (by simp) ha]

theorem range_sum {R : Type} [AddCommMonoid R] (l : List Nat) (f : Nat → R) :
    ((List.range l.length).map fun k => f (l.getD k 0)).sum = (l.map f).sum := by
  congr 1
  apply List.ext_getElem
  · simp
  · intro k h1 h2
    have hk : k < l.length := by simpa using h1
    simp [hk]

section

variable (o : Oracles) (inst) (dims : List Int) (capacity : Int) (ids : List Nat)
  (solution : List ℚ)

theorem value_nonneg (h : ∀ v ∈ solution, 0 ≤ v) (i : Nat) : 0 ≤ value ids solution i := by
  unfold value
  split_ifs
  · by_cases hk : ids.idxOf i < solution.length
    · rw [List.getD_eq_getElem _ _ hk]
      exact h _ (List.getElem_mem hk)
    · rw [List.getD_eq_default _ _ (by omega)]
  · exact le_refl _

theorem kpIds_nodup (hn : ids.Nodup) : (kpIds ids solution).Nodup := hn.filter _

theorem mem_kpIds {i : Nat} :
    i ∈ kpIds ids solution ↔ i ∈ ids ∧ 0 < value ids solution i := by
  unfold kpIds
  rw [List.mem_filter]
  simp

theorem getD_kpItems {k : Nat} (hk : k < (kpIds ids solution).length) :
    (kpItems inst dims ids solution).getD k default
      = ⟨dims.getD ((kpIds ids solution).getD k 0) 0,
        value ids solution ((kpIds ids solution).getD k 0),
        (inst.itemType ((kpIds ids solution).getD k 0)).copies⟩ := by
  unfold kpItems
  rw [List.getD_eq_getElem _ _ (by rwa [List.length_map]), List.getD_eq_getElem _ _ hk,
    List.getElem_map]

/-- The profit of the answer of the knapsack is `achieved`. -/
theorem achieved_eq (hn : ids.Nodup) (hlt : ∀ i ∈ ids, i < inst.numberOfItemTypes) :
    achieved ids solution (selectedCopies o inst dims capacity ids solution)
      = kpProfit (kpItems inst dims ids solution)
          fun k => (o.kp capacity (kpItems inst dims ids solution)).getD k 0 := by
  unfold achieved
  rw [foldl_add_rat, zero_add]
  set kids := kpIds ids solution with hkids
  set ans := o.kp capacity (kpItems inst dims ids solution) with hans
  have hkn : kids.Nodup := kpIds_nodup ids solution hn
  have hsel : ∀ i, i < inst.numberOfItemTypes →
      (selectedCopies o inst dims capacity ids solution).getD i 0
        = if i ∈ kids then ans.getD (kids.idxOf i) 0 else 0 := by
    intro i hi
    unfold selectedCopies
    dsimp only
    rw [← hkids]
    by_cases hk : kids = []
    · rw [if_pos hk, hk]
      simp [hi]
    · rw [if_neg hk, List.getD_eq_getElem _ _ (by simpa using hi)]
      simp [← hans]
  have h1 : (ids.map fun i => ((selectedCopies o inst dims capacity ids solution).getD i 0 : ℚ)
        * value ids solution i).sum
      = (kids.map fun i => (ans.getD (kids.idxOf i) 0 : ℚ) * value ids solution i).sum := by
    rw [hkids]
    unfold kpIds
    have : ∀ l : List Nat, (∀ i ∈ l, i ∈ ids) →
        (l.map fun i => ((selectedCopies o inst dims capacity ids solution).getD i 0 : ℚ)
          * value ids solution i).sum
        = ((l.filter fun i => !decide (value ids solution i ≤ 0)).map fun i =>
            (ans.getD (kids.idxOf i) 0 : ℚ) * value ids solution i).sum := by
      intro l
      induction l with
      | nil => simp
      | cons a l ih =>
        intro hl
        rw [List.map_cons, List.sum_cons, ih fun i hi => hl i (by simp [hi])]
        have ha := hl a (by simp)
        rw [hsel a (hlt a ha)]
        by_cases hv : value ids solution a ≤ 0
        · rw [List.filter_cons_of_neg (by simp [hv]), if_neg]
          · simp
          · intro hm
            have := ((mem_kpIds ids solution).1 hm).2
            linarith
        · rw [List.filter_cons_of_pos (by simp [hv]), if_pos, List.map_cons, List.sum_cons]
          exact (mem_kpIds ids solution).2 ⟨ha, by linarith⟩
    exact this ids fun i hi => hi
  rw [h1]
  unfold kpProfit
  have hlen : (kpItems inst dims ids solution).length = kids.length := by
    unfold kpItems; rw [List.length_map]
  rw [hlen, ← range_sum kids]
  congr 1
  refine List.map_congr_left fun k hk => ?_
  have hk : k < kids.length := List.mem_range.1 hk
  rw [getD_kpItems inst dims ids solution hk, List.getD_eq_getElem _ _ hk,
    hkn.idxOf_getElem k hk]
  dsimp only
  ring

/-- Every collection of items that fits has a total value of at most `achieved`. -/
theorem fits_achieved (hkp : ExactKp o.kp) (hn : ids.Nodup)
    (hlt : ∀ i ∈ ids, i < inst.numberOfItemTypes) (hv : ∀ v ∈ solution, 0 ≤ v)
    (hd : ∀ i, i < inst.numberOfItemTypes → 0 ≤ dims.getD i 0) {s : List Nat}
    (hs : ∀ i ∈ s, i < inst.numberOfItemTypes)
    (hc : ∀ i, (s.count i : Int) ≤ (inst.itemType i).copies)
    (hsum : (s.map fun i => dims.getD i 0).sum ≤ capacity) :
    (s.map (value ids solution)).sum
      ≤ achieved ids solution (selectedCopies o inst dims capacity ids solution) := by
  rw [achieved_eq inst o dims capacity ids solution hn hlt]
  set kids := kpIds ids solution with hkids
  have hkn : kids.Nodup := kpIds_nodup ids solution hn
  have hlen : (kpItems inst dims ids solution).length = kids.length := by
    unfold kpItems; rw [List.length_map]
  have hget : ∀ k ∈ List.range kids.length, (kpItems inst dims ids solution).getD k default
      = ⟨dims.getD (kids.getD k 0) 0, value ids solution (kids.getD k 0),
        (inst.itemType (kids.getD k 0)).copies⟩ := fun k hk =>
    getD_kpItems inst dims ids solution (List.mem_range.1 hk)
  have key := hkp capacity (kpItems inst dims ids solution)
    (fun k => (s.count (kids.getD k 0) : Int)) ⟨?_, ?_⟩
  · refine le_trans (le_of_eq ?_) key
    unfold kpProfit
    rw [hlen, sum_count (value ids solution) kids s hkn, ← range_sum kids]
    · congr 1
      refine List.map_congr_left fun k hk => ?_
      rw [hget k hk]
      simp
    · intro i _ hi
      have h0 := value_nonneg ids solution hv i
      by_cases him : i ∈ ids
      · have : ¬ 0 < value ids solution i := fun h => hi ((mem_kpIds ids solution).2 ⟨him, h⟩)
        linarith
      · unfold value
        rw [if_neg him]
  · intro k hk
    rw [hlen] at hk
    rw [hget k (List.mem_range.2 hk)]
    exact ⟨by positivity, hc _⟩
  · refine le_trans ?_ hsum
    rw [hlen]
    have e : ((List.range kids.length).map fun k =>
          ((kpItems inst dims ids solution).getD k default).length * (s.count (kids.getD k 0) : Int))
        = (List.range kids.length).map fun k =>
          (fun i => dims.getD i 0 * (s.count i : Int)) (kids.getD k 0) :=
      List.map_congr_left fun k hk => by rw [hget k hk]
    rw [e, range_sum kids fun i => dims.getD i 0 * (s.count i : Int)]
    have e2 : (kids.map fun i => dims.getD i 0 * (s.count i : Int)).sum
        = ((s.filter fun i => decide (i ∈ kids)).map fun i => dims.getD i 0).sum := by
      rw [sum_count (fun i => dims.getD i 0) kids _ hkn]
      · congr 1
        refine List.map_congr_left fun i hi => ?_
        rw [List.count_filter (by simpa using hi)]
      · intro i hi hik
        exact absurd (of_decide_eq_true (List.mem_filter.1 hi).2) hik
    rw [e2]
    have : ∀ l : List Nat, (∀ i ∈ l, i < inst.numberOfItemTypes) →
        ((l.filter fun i => decide (i ∈ kids)).map fun i => dims.getD i 0).sum
          ≤ (l.map fun i => dims.getD i 0).sum := by
      intro l
      induction l with
      | nil => simp
      | cons a l ih =>
        intro hl
        have h1 := ih fun i hi => hl i (by simp [hi])
        have h2 := hd a (hl a (by simp))
        rw [List.map_cons, List.sum_cons]
        by_cases ha : a ∈ kids
        · rw [List.filter_cons_of_pos (by simpa using ha), List.map_cons, List.sum_cons]
          linarith
        · rw [List.filter_cons_of_neg (by simpa using ha)]
          linarith
    exact this s hs

end

theorem getD_map_range {R : Type} (f : Nat → R) (z : R) (n i : Nat) :
    ((List.range n).map f).getD i z = if i < n then f i else z := by
  by_cases h : i < n
  · rw [if_pos h, List.getD_eq_getElem _ _ (by simpa using h)]
    simp
  · rw [if_neg h, List.getD_eq_default _ _ (by simpa using h)]

theorem mem_le_sum (f : Nat → Int) : ∀ (s : List Nat), (∀ i ∈ s, 0 ≤ f i) → ∀ i ∈ s,
    f i ≤ (s.map f).sum := by
  intro s
  induction s with
  | nil => simp
  | cons a s ih =>
    intro h i hi
    have h0 : 0 ≤ (s.map f).sum := List.sum_nonneg (by
      intro x hx
      obtain ⟨j, hj, rfl⟩ := List.mem_map.1 hx
      exact h j (by simp [hj]))
    rw [List.map_cons, List.sum_cons]
    rcases List.mem_cons.1 hi with rfl | hi
    · linarith
    · have := ih (fun j hj => h j (by simp [hj])) i hi
      have := h a (by simp)
      linarith

theorem conservative_congr {dim : ItemType → Int} {capacity : Int} {a b : List ℚ} {slack : ℚ}
    (h : Conservative inst dim capacity a slack) (hab : ∀ i, a.getD i 0 = b.getD i 0) :
    Conservative inst dim capacity b slack :=
  ⟨fun i => hab i ▸ h.nonneg i, fun s h1 h2 h3 => by
    have := h.fits s h1 h2 h3
    simp only [hab] at this
    exact this⟩

theorem _root_.PackingSolver.Rect.Spec.Conservative.mono {dim : ItemType → Int} {capacity : Int} {a : List ℚ} {s t : ℚ}
    (h : Conservative inst dim capacity a s) (hst : s ≤ t) : Conservative inst dim capacity a t :=
  ⟨h.nonneg, fun l h1 h2 h3 => le_trans (h.fits l h1 h2 h3) (by linarith)⟩

/-- Dimensions of the items are conservative, also if those of some items are replaced by 0. -/
theorem conservative_original {dim : ItemType → Int} {capacity : Int}
    (hd : ∀ i, i < inst.numberOfItemTypes → 0 ≤ dim (inst.itemType i)) (keep : Nat → Bool) :
    Conservative inst dim capacity ((List.range inst.numberOfItemTypes).map fun i =>
      if keep i = true then (dim (inst.itemType i) : ℚ) else 0) 0 := by
  constructor
  · intro i
    rw [getD_map_range]
    split_ifs with h1 h2
    · exact_mod_cast hd i h1
    · exact le_refl _
    · exact le_refl _
  · intro s h1 _ h3
    rw [add_zero]
    refine le_trans ?_ (Int.cast_le.2 h3)
    rw [Int.cast_list_sum, List.map_map]
    refine List.sum_le_sum fun i hi => ?_
    rw [getD_map_range, if_pos (h1 i hi)]
    have := hd i (h1 i hi)
    have : (0 : ℚ) ≤ (dim (inst.itemType i) : ℚ) := by exact_mod_cast this
    dsimp only [Function.comp]
    split_ifs
    · exact le_refl _
    · exact this

theorem getD_dims (dim : ItemType → Int) {i : Nat} (hi : i < inst.numberOfItemTypes) :
    (inst.itemTypes.map dim).getD i 0 = dim (inst.itemType i) := by
  have hi' : i < inst.itemTypes.length := hi
  unfold Instance.itemType
  rw [List.getD_eq_getElem _ _ (by simpa using hi'), List.getD_eq_getElem _ _ hi',
    List.getElem_map]

theorem scaleTol_nonneg : 0 ≤ scaleTol := by unfold scaleTol; norm_num

/-- The rescaled dimensions found by the cutting-plane loop are conservative up to the
tolerance. -/
theorem scaleLoop_conservative {o : Oracles} (hkp : ExactKp o.kp) (hlp : NonnegLp o.lp)
    {dim : ItemType → Int} {capacity : Int}
    (hd : ∀ i, i < inst.numberOfItemTypes → 0 ≤ dim (inst.itemType i)) (weights : List ℚ)
    {ids : List Nat} (hn : ids.Nodup) (hlt : ∀ i ∈ ids, i < inst.numberOfItemTypes)
    (n : Nat) (rows : List (List Int)) :
    Conservative inst dim capacity
      (scaleLoop o inst (inst.itemTypes.map dim) capacity weights ids n rows) scaleTol := by
  induction n generalizing rows with
  | zero =>
    refine Conservative.mono (conservative_congr (conservative_original hd fun i => decide (i ∈ ids))
      ?_) scaleTol_nonneg
    intro i
    unfold scaleLoop
    rw [getD_map_range, getD_map_range]
    by_cases hi : i < inst.numberOfItemTypes
    · rw [if_pos hi, if_pos hi, getD_dims dim hi]
      simp
    · rw [if_neg hi, if_neg hi]
  | succ n ih =>
    unfold scaleLoop
    dsimp only
    set solution := o.lp ⟨ids, capacity, weights, rows⟩ with hsol
    have hv : ∀ v ∈ solution, 0 ≤ v := hlp _
    split_ifs with hach
    · constructor
      · intro i
        rw [getD_map_range]
        split_ifs
        · exact value_nonneg ids solution hv i
        · exact le_refl _
      · intro s h1 h2 h3
        refine le_trans ?_ hach
        have e : (s.map fun i => ((List.range inst.numberOfItemTypes).map
            (value ids solution)).getD i 0) = s.map (value ids solution) :=
          List.map_congr_left fun i hi => by rw [getD_map_range, if_pos (h1 i hi)]
        rw [e]
        refine fits_achieved inst o (inst.itemTypes.map dim) capacity ids solution hkp hn hlt hv
          (fun i hi => by rw [getD_dims dim hi]; exact hd i hi) h1 h2 ?_
        refine le_trans (le_of_eq ?_) h3
        congr 1
        exact List.map_congr_left fun i hi => getD_dims dim (h1 i hi)
    · exact ih _

theorem scaleLp_conservative {o : Oracles} (hkp : ExactKp o.kp) (hlp : NonnegLp o.lp)
    {dim : ItemType → Int} {capacity : Int}
    (hd : ∀ i, i < inst.numberOfItemTypes → 0 ≤ dim (inst.itemType i)) (weights : List ℚ)
    (hcap : 0 ≤ capacity) :
    Conservative inst dim capacity
      (scaleLp o inst (inst.itemTypes.map dim) capacity weights) scaleTol := by
  unfold scaleLp
  dsimp only
  split_ifs
  · constructor
    · intro i
      simp
    · intro s _ _ _
      have : (s.map fun i => (List.replicate inst.numberOfItemTypes (0 : ℚ)).getD i 0).sum = 0 := by
        simp
      rw [this]
      have h1 : (0 : ℚ) ≤ capacity := by exact_mod_cast hcap
      have := scaleTol_nonneg
      linarith
  · refine scaleLoop_conservative hkp hlp hd weights ?_ ?_ _ _
    · exact List.nodup_range.filter _
    · intro i hi
      exact List.mem_range.1 (List.mem_of_mem_filter hi)

theorem sum_bins_le_rat (f : PlacedItem → ℚ) (B : ℚ) (bins : List (List PlacedItem))
    (h : ∀ items ∈ bins, (items.map f).sum ≤ B) :
    (bins.flatten.map f).sum ≤ bins.length * B := by
  induction bins with
  | nil => simp
  | cons a bins ih =>
    rw [List.flatten_cons, List.map_append, List.sum_append, List.length_cons]
    have h1 := h a List.mem_cons_self
    have h2 := ih fun items hi => h items (List.mem_cons_of_mem _ hi)
    push_cast
    linarith

/-- The rescaled areas of the items packed in a bin. -/
theorem bin_area (h : Positive inst) (ho : inst.allItemTypesOriented = true) {W H : Int}
    (hW : (inst.binType 0).x = W) (hH : (inst.binType 0).y = H) (hW0 : 0 < W) (hH0 : 0 < H)
    {a b : List ℚ} {s t : ℚ} (ha : Conservative inst (·.x) W a s)
    (hb : Conservative inst (·.y) H b t) {items : List PlacedItem}
    (hp : BinPacking inst 0 items) (hc : WithinCopies inst items) :
    (items.map fun p => a.getD p.itemTypeId 0 * b.getD p.itemTypeId 0).sum ≤ (W + s) * (H + t) := by
  have hrot : ∀ p ∈ items, p.rotate = false := by
    intro p hpi
    by_contra hr
    have h1 := hp.rotation p hpi (by simpa using hr)
    unfold Instance.allItemTypesOriented at ho
    rw [List.all_eq_true] at ho
    have := ho _ (DffLemmas.itemType_mem (hp.exist p hpi))
    rw [h1] at this
    cases this
  have hdim : ∀ p ∈ items, (inst.itemType p.itemTypeId).width p.rotate
        = (inst.itemType p.itemTypeId).x
      ∧ (inst.itemType p.itemTypeId).height p.rotate = (inst.itemType p.itemTypeId).y := by
    intro p hpi
    rw [hrot p hpi]
    exact ⟨rfl, rfl⟩
  have hcnt : ∀ c : List PlacedItem, c.Subperm items → ∀ i,
      ((c.map (·.itemTypeId)).count i : Int) ≤ (inst.itemType i).copies := by
    intro c hs i
    by_cases hi : i < inst.numberOfItemTypes
    · refine le_trans ?_ (hc i hi)
      rw [← DffLemmas.count_eq]
      obtain ⟨s', hs1, hs2⟩ := hs
      rw [← (hs1.map _).count_eq]
      exact_mod_cast (hs2.map _).count_le i
    · have h0 : (c.map (·.itemTypeId)).count i = 0 := by
        rw [List.count_eq_zero]
        intro hm
        obtain ⟨p, hp1, rfl⟩ := List.mem_map.1 hm
        exact hi (hp.exist p (hs.subset hp1))
      rw [h0]
      unfold Instance.itemType
      rw [List.getD_eq_default _ _ (by unfold Instance.numberOfItemTypes at hi; omega)]
      decide
  refine Columns.product_bound_rat (α := PlacedItem) (fun p => p.x) (fun p => p.y)
    (fun p => (inst.itemType p.itemTypeId).width p.rotate)
    (fun p => (inst.itemType p.itemTypeId).height p.rotate) W H
    (fun p => a.getD p.itemTypeId 0) (fun p => b.getD p.itemTypeId 0) _ _ hH0.le hW0.le items
    ?_ ?_ ?_ hp.separated (fun p _ => hb.nonneg _) ?_ ?_
  · intro p hpi
    rw [(hdim p hpi).1]
    exact (h.items _ (DffLemmas.itemType_mem (hp.exist p hpi))).1
  · intro p hpi
    rw [(hdim p hpi).2]
    exact (h.items _ (DffLemmas.itemType_mem (hp.exist p hpi))).2.1
  · intro p hpi
    have := hp.inside p hpi
    rw [hW, hH] at this
    exact this
  · intro c hs hsum
    have := ha.fits (c.map (·.itemTypeId)) (by
      intro i hi
      obtain ⟨p, hp1, rfl⟩ := List.mem_map.1 hi
      exact hp.exist p (hs.subset hp1)) (hcnt c hs) (by
      rw [List.map_map]
      refine le_trans (le_of_eq ?_) hsum
      congr 1
      exact List.map_congr_left fun p hpc => ((hdim p (hs.subset hpc)).1).symm)
    rw [List.map_map] at this
    exact this
  · intro c hs hsum
    have := hb.fits (c.map (·.itemTypeId)) (by
      intro i hi
      obtain ⟨p, hp1, rfl⟩ := List.mem_map.1 hi
      exact hp.exist p (hs.subset hp1)) (hcnt c hs) (by
      rw [List.map_map]
      refine le_trans (le_of_eq ?_) hsum
      congr 1
      exact List.map_congr_left fun p hpc => ((hdim p (hs.subset hpc)).2).symm)
    rw [List.map_map] at this
    exact this

/-- The bound of a pair, with the tolerances. -/
theorem boundForPair_le (h : Positive inst) (ho : inst.allItemTypesOriented = true) {W H : Int}
    (hW : (inst.binType 0).x = W) (hH : (inst.binType 0).y = H) (hW0 : 0 < W) (hH0 : 0 < H)
    {a b : List ℚ} {s t : ℚ} (ha : Conservative inst (·.x) W a s)
    (hb : Conservative inst (·.y) H b t) {bins : List (List PlacedItem)}
    (hp : FullPacking inst bins)
    (hst : (bins.length : ℚ) * ((W + s) * (H + t)) ≤ (bins.length + scaleTol) * (W * H)) :
    boundForPair inst a b (W * H) ≤ bins.length := by
  unfold boundForPair
  rw [Int.ceil_le]
  have hA : (0 : ℚ) < W * H := by exact_mod_cast Int.mul_pos hW0 hH0
  rw [sub_le_iff_le_add, div_le_iff₀ hA, foldl_add_rat, zero_add]
  have e : ((List.range inst.numberOfItemTypes).map fun i =>
        ((inst.itemType i).copies : ℚ) * a.getD i 0 * b.getD i 0)
      = (List.range inst.numberOfItemTypes).map fun i =>
        (Spec.count bins.flatten i : ℚ) * (a.getD i 0 * b.getD i 0) := by
    apply List.map_congr_left
    intro i hi
    rw [hp.all i (List.mem_range.1 hi)]
    ring
  rw [e, ← DffLemmas.sum_by_type_rat bins.flatten _ fun i => a.getD i 0 * b.getD i 0]
  · refine le_trans (sum_bins_le_rat _ ((W + s) * (H + t)) bins fun items hi =>
      bin_area h ho hW hH hW0 hH0 ha hb (hp.each items hi)
        (DffLemmas.withinCopies_of_full hp hi)) ?_
    refine le_trans hst (le_of_eq ?_)
    push_cast
    ring
  · intro p hpm
    obtain ⟨items, hi, hpi⟩ := List.mem_flatten.1 hpm
    exact (hp.each items hi).exist p hpi

theorem boundForPair_comm (a b : List ℚ) (A : ℚ) :
    boundForPair inst a b A = boundForPair inst b a A := by
  unfold boundForPair
  congr 4
  funext acc i
  ring

theorem scalesLoop_le {o : Oracles} (hkp : ExactKp o.kp) (hlp : NonnegLp o.lp)
    (h : Positive inst) (ho : inst.allItemTypesOriented = true) {W H : Int}
    (hW : (inst.binType 0).x = W) (hH : (inst.binType 0).y = H) (hW0 : 0 < W) (hH0 : 0 < H)
    {bins : List (List PlacedItem)} (hp : FullPacking inst bins)
    (hst : (bins.length : ℚ) * (W + H + scaleTol) ≤ W * H) (stop : Nat → Bool)
    (n it : Nat) (widths heights : List (List ℚ)) (bounds : List Int)
    (hw : ∀ w ∈ widths, Conservative inst (·.x) W w scaleTol)
    (hh : ∀ w ∈ heights, Conservative inst (·.y) H w scaleTol)
    (hb : ∀ b ∈ bounds, b ≤ bins.length) :
    ∀ b ∈ scalesLoop o inst stop (W * H) (inst.itemTypes.map (·.x)) (inst.itemTypes.map (·.y))
      n it widths heights bounds, b ≤ bins.length := by
  have hcond : (bins.length : ℚ) * ((W + scaleTol) * (H + scaleTol)) ≤ (bins.length + scaleTol) * (W * H) := by
    have h1 : (bins.length : ℚ) * ((W + scaleTol) * (H + scaleTol))
        = bins.length * (W * H) + scaleTol * (bins.length * (W + H + scaleTol)) := by ring
    have h2 := mul_le_mul_of_nonneg_left hst scaleTol_nonneg
    rw [h1]
    linarith
  have hdx : ∀ i, i < inst.numberOfItemTypes → 0 ≤ (inst.itemType i).x := fun i hi =>
    (h.items _ (DffLemmas.itemType_mem hi)).1.le
  have hdy : ∀ i, i < inst.numberOfItemTypes → 0 ≤ (inst.itemType i).y := fun i hi =>
    (h.items _ (DffLemmas.itemType_mem hi)).2.1.le
  induction n generalizing it widths heights bounds with
  | zero => exact hb
  | succ n ih =>
    unfold scalesLoop
    dsimp only
    rw [hW, hH]
    by_cases hstop : stop it = true
    · rw [if_pos hstop]
      exact hb
    rw [if_neg hstop]
    set nw := scaleLp o inst (inst.itemTypes.map (·.x)) W (heights.getD (it - 1) []) with hnw
    have hcw : Conservative inst (·.x) W nw scaleTol :=
      scaleLp_conservative hkp hlp hdx _ hW0.le
    have hw' : ∀ w ∈ widths ++ [nw], Conservative inst (·.x) W w scaleTol := by
      intro w hm
      rcases List.mem_append.1 hm with hm | hm
      · exact hw w hm
      · rw [List.mem_singleton.1 hm]; exact hcw
    set nh := scaleLp o inst (inst.itemTypes.map (·.y)) H ((widths ++ [nw]).getD (it - 1) [])
      with hnh
    have hch : Conservative inst (·.y) H nh scaleTol :=
      scaleLp_conservative hkp hlp hdy _ hH0.le
    have hh' : ∀ w ∈ heights ++ [nh], Conservative inst (·.y) H w scaleTol := by
      intro w hm
      rcases List.mem_append.1 hm with hm | hm
      · exact hh w hm
      · rw [List.mem_singleton.1 hm]; exact hch
    have hb' : ∀ b ∈ (bounds ++ heights.map fun h => boundForPair inst nw h (W * H))
        ++ (widths ++ [nw]).map fun w => boundForPair inst nh w (W * H), b ≤ bins.length := by
      intro b hm
      rcases List.mem_append.1 hm with hm | hm
      · rcases List.mem_append.1 hm with hm | hm
        · exact hb b hm
        · obtain ⟨v, hv, rfl⟩ := List.mem_map.1 hm
          exact boundForPair_le h ho hW hH hW0 hH0 hcw (hh v hv) hp hcond
      · obtain ⟨v, hv, rfl⟩ := List.mem_map.1 hm
        rw [boundForPair_comm]
        exact boundForPair_le h ho hW hH hW0 hH0 (hw' v hv) hch hp hcond
    split_ifs
    · exact hb'
    · exact ih _ _ _ _ hw' hh' hb'

end PackingSolver.Rect.ScaleLemmas
