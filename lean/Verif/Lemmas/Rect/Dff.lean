import Verif.Model.Rect.Dff
import Verif.Lemmas.Dff
import Verif.Lemmas.OneDim.Dff
import Verif.Lemmas.Rect.Columns

/-!
# Lemmas on the dual feasible functions of the rectangle solver
-/

namespace PackingSolver.Rect.DffLemmas

open Dff Rect.Spec

variable {inst : Instance}

theorem itemTypes_eq (inst : Instance) :
    inst.itemTypes = (List.range inst.numberOfItemTypes).map inst.itemType := by
  apply List.ext_getElem
  · simp [Instance.numberOfItemTypes]
  · intro k h1 h2
    simp [Instance.itemType, h1]

theorem itemType_mem {i : Nat} (hi : i < inst.numberOfItemTypes) :
    inst.itemType i ∈ inst.itemTypes := by
  unfold Instance.itemType
  rw [List.getD_eq_getElem _ _ hi]
  exact List.getElem_mem _

/-! ## One axis -/

/-- The pool length of an item type. -/
def plen (inst : Instance) (own other : ItemType → Int) (C k : Int) (i : Nat) : Int :=
  mediumPoolLength (inst.itemType i) (own (inst.itemType i)) (other (inst.itemType i)) k (C.tdiv 2)

/-- The ids of the item types in the pool. -/
def mediumIds (inst : Instance) (own other : ItemType → Int) (C k : Int) : List Nat :=
  (List.range inst.numberOfItemTypes).filter fun i => decide (plen inst own other C k i ≥ 0)

theorem dffPool_eq (inst : Instance) (own other : ItemType → Int) (C k : Int) :
    dffPool inst own other C k = (mediumIds inst own other C k).map fun i =>
      (plen inst own other C k i, (inst.itemType i).copies) := by
  unfold dffPool mediumIds
  conv_lhs => rw [itemTypes_eq inst]
  rw [List.filterMap_map]
  generalize List.range inst.numberOfItemTypes = l
  induction l with
  | nil => rfl
  | cons i l ih =>
    rw [List.filterMap_cons, Function.comp_apply]
    dsimp only
    have e : mediumPoolLength (inst.itemType i) (own (inst.itemType i))
      (other (inst.itemType i)) k (C.tdiv 2) = plen inst own other C k i := rfl
    rw [e]
    by_cases h : plen inst own other C k i ≥ 0
    · rw [if_pos h, List.filter_cons_of_pos (by simpa using h), List.map_cons, ← ih]
    · rw [if_neg h, List.filter_cons_of_neg (by simpa using h), ← ih]

/-- The dimensions along an axis are positive. -/
def AxisPos (inst : Instance) (own other : ItemType → Int) : Prop :=
  ∀ it ∈ inst.itemTypes, 0 < own it ∧ 0 < other it ∧ 0 ≤ it.copies

theorem plen_pos {own other : ItemType → Int} {C k : Int}
    (hk : 1 ≤ k) {i : Nat} (hi : i ∈ mediumIds inst own other C k) :
    0 < plen inst own other C k i := by
  unfold mediumIds at hi
  rw [List.mem_filter] at hi
  have h2 : plen inst own other C k i ≥ 0 := by simpa using hi.2
  revert h2
  unfold plen mediumPoolLength
  dsimp only
  split_ifs <;> intro h2 <;> omega

theorem dffPool_pos {own other : ItemType → Int} (h : AxisPos inst own other) (C k : Int)
    (hk : 1 ≤ k) : ∀ p ∈ dffPool inst own other C k, 0 < p.1 ∧ 0 ≤ p.2 := by
  intro p hp
  rw [dffPool_eq] at hp
  obtain ⟨i, hi, rfl⟩ := List.mem_map.mp hp
  have hi' := List.mem_range.mp (List.mem_filter.mp hi).1
  exact ⟨plen_pos hk hi, (h _ (itemType_mem hi')).2.2⟩

theorem mem_dffLengths {own other : ItemType → Int} {x : Int} :
    x ∈ dffLengths inst own other ↔ ∃ it ∈ inst.itemTypes,
      x = own it ∨ (it.oriented = false ∧ x = other it) := by
  unfold dffLengths
  rw [List.mem_flatMap]
  refine exists_congr fun it => and_congr_right fun _ => ?_
  cases it.oriented <;> simp

theorem dffLengths_pos {own other : ItemType → Int} (h : AxisPos inst own other) :
    ∀ x ∈ dffLengths inst own other, 0 < x := by
  intro x hx
  rw [mem_dffLengths] at hx
  obtain ⟨it, hit, rfl | ⟨_, rfl⟩⟩ := hx
  · exact (h it hit).1
  · exact (h it hit).2.1

/-- The tables of a breakpoint of one axis are right. -/
structure GoodAxis (inst : Instance) (own other : ItemType → Int) (C : Int)
    (t : BreakpointTables) : Prop where
  k1 : 1 ≤ t.k
  k2 : t.k ≤ C / 2
  ok : TablesOk C (bigValues C (dffLengths inst own other)) (dffPool inst own other C t.k) t

/-- The value of a length on one axis. -/
def acoef (inst : Instance) (own other : ItemType → Int) (C : Int) (t : BreakpointTables)
    (family : Nat) (x : Int) : Int :=
  coef C t.k (cardOf (dffPool inst own other C t.k)) family x

/-- The value of the bin on one axis. -/
def abin (inst : Instance) (own other : ItemType → Int) (C : Int) (t : BreakpointTables)
    (family : Nat) : Int :=
  binCoef C t.k (cardOf (dffPool inst own other C t.k)) family

/-- The length of a placed item along the axis. -/
def along (inst : Instance) (own other : ItemType → Int) (p : PlacedItem) : Int :=
  if p.rotate then other (inst.itemType p.itemTypeId) else own (inst.itemType p.itemTypeId)

/-- Items whose lengths fit in the capacity of the axis have a total value of at most that of the
bin. -/
theorem axis_valid {own other : ItemType → Int} (h : AxisPos inst own other) {C : Int}
    (hC : 0 < C) {t : BreakpointTables} (ht : GoodAxis inst own other C t) (family : Nat)
    {c : List PlacedItem} (hty : ∀ p ∈ c, p.itemTypeId < inst.numberOfItemTypes)
    (hrot : ∀ p ∈ c, p.rotate = true → (inst.itemType p.itemTypeId).oriented = false)
    (hcount : ∀ i, i < inst.numberOfItemTypes →
      ((c.map (·.itemTypeId)).count i : Int) ≤ (inst.itemType i).copies)
    (hsum : (c.map (along inst own other)).sum ≤ C) :
    (c.map fun p => acoef inst own other C t family (along inst own other p)).sum
      ≤ abin inst own other C t family := by
  have hpos : ∀ p ∈ c, 0 < along inst own other p := by
    intro p hp
    have := h _ (itemType_mem (hty p hp))
    unfold along
    split_ifs <;> omega
  have := coef_valid (M := cardOf (dffPool inst own other C t.k)) ht.k1 ht.k2
    (l := c.map (along inst own other)) (by
      intro x hx
      obtain ⟨p, hp, rfl⟩ := List.mem_map.mp hx
      exact hpos p hp) hsum (by
      intro s cap hs hmed hsums
      obtain ⟨u, hu, rfl⟩ := List.sublist_map_iff.mp hs
      have h2 : C.tdiv 2 = C / 2 := Int.tdiv_eq_ediv_of_nonneg hC.le
      have key : ∀ p ∈ u, 0 ≤ plen inst own other C t.k p.itemTypeId ∧
          plen inst own other C t.k p.itemTypeId ≤ along inst own other p := by
        intro p hp
        have hpc := hu.subset hp
        have h1 := hmed (along inst own other p) (List.mem_map.mpr ⟨p, hp, rfl⟩)
        have h3 := h _ (itemType_mem (hty p hpc))
        have h4 := hrot p hpc
        have hk := ht.k1
        unfold plen mediumPoolLength
        unfold along at h1 ⊢
        rw [h2]
        dsimp only
        cases ho : (inst.itemType p.itemTypeId).oriented with
        | true =>
          rw [ho] at h4
          cases hr : p.rotate with
          | true => exact absurd (h4 hr) (by decide)
          | false =>
            rw [hr] at h1
            simp only [Bool.false_eq_true, if_false, if_true] at h1 ⊢
            rw [if_pos h1]
            omega
        | false =>
          simp only [Bool.false_eq_true, if_false]
          cases hr : p.rotate with
          | true =>
            rw [hr] at h1
            simp only [if_true] at h1 ⊢
            split_ifs <;> omega
          | false =>
            rw [hr] at h1
            simp only [Bool.false_eq_true, if_false] at h1 ⊢
            split_ifs <;> omega
      rw [dffPool_eq, List.length_map]
      have hlen : u.length = (u.map (·.itemTypeId)).length := by rw [List.length_map]
      rw [hlen]
      apply medium_count (mediumIds inst own other C t.k) (plen inst own other C t.k)
        (fun i => (inst.itemType i).copies)
      · intro i hi
        have hi' := List.mem_range.mp (List.mem_filter.mp hi).1
        exact ⟨plen_pos ht.k1 hi, (h _ (itemType_mem hi')).2.2⟩
      · exact List.nodup_range.filter _
      · intro i hi
        obtain ⟨p, hp, rfl⟩ := List.mem_map.mp hi
        unfold mediumIds
        rw [List.mem_filter, List.mem_range, decide_eq_true_eq]
        exact ⟨hty p (hu.subset hp), (key p hp).1⟩
      · intro i hi
        obtain ⟨p, hp, rfl⟩ := List.mem_map.mp hi
        refine le_trans ?_ (hcount p.itemTypeId (hty p (hu.subset hp)))
        exact_mod_cast (hu.map _).count_le _
      · refine le_trans ?_ hsums
        rw [List.map_map]
        exact List.sum_le_sum fun p hp => (key p hp).2) family
  rw [List.map_map] at this
  exact this

/-! ## Both axes -/

/-- A combination computed by the code. -/
structure GoodCombo (inst : Instance) (bt : BinType) (c : Combo) : Prop where
  w : GoodAxis inst (·.x) (·.y) bt.x c.tw
  h : GoodAxis inst (·.y) (·.x) bt.y c.th

/-- The value of a width. -/
def wcoef (inst : Instance) (bt : BinType) (c : Combo) (x : Int) : Int :=
  acoef inst (·.x) (·.y) bt.x c.tw c.familyW x

/-- The value of a height. -/
def hcoef (inst : Instance) (bt : BinType) (c : Combo) (x : Int) : Int :=
  acoef inst (·.y) (·.x) bt.y c.th c.familyH x

/-- The coefficient of an item type. -/
def icoef (inst : Instance) (bt : BinType) (c : Combo) (i : Nat) : Int :=
  let it := inst.itemType i
  if it.oriented then wcoef inst bt c it.x * hcoef inst bt c it.y
  else min (wcoef inst bt c it.x * hcoef inst bt c it.y)
    (wcoef inst bt c it.y * hcoef inst bt c it.x)

/-- The coefficient of the bin. -/
def bcoef (inst : Instance) (bt : BinType) (c : Combo) : Int :=
  abin inst (·.x) (·.y) bt.x c.tw c.familyW * abin inst (·.y) (·.x) bt.y c.th c.familyH

theorem posW (h : Positive inst) : AxisPos inst (·.x) (·.y) := h.items

theorem posH (h : Positive inst) : AxisPos inst (·.y) (·.x) := fun it hit =>
  ⟨(h.items it hit).2.1, (h.items it hit).1, (h.items it hit).2.2⟩

theorem dffTables_ok (h : Positive inst) {bt : BinType} (hb : 0 < bt.x ∧ 0 < bt.y) :
    ∃ ts, dffTables inst bt = .ok ts ∧ ∀ c ∈ combos ts, GoodCombo inst bt c := by
  obtain ⟨tw, hw, hw2⟩ := axisTables_ok (pool := dffPool inst (·.x) (·.y) bt.x) hb.1
    (dffLengths_pos (posW h)) fun k hk => dffPool_pos (posW h) bt.x k hk
  obtain ⟨th, hh, hh2⟩ := axisTables_ok (pool := dffPool inst (·.y) (·.x) bt.y) hb.2
    (dffLengths_pos (posH h)) fun k hk => dffPool_pos (posH h) bt.y k hk
  refine ⟨⟨tw, th⟩, ?_, ?_⟩
  · unfold dffTables
    rw [hw, hh]
    rfl
  · intro c hc
    unfold combos at hc
    simp only [List.mem_flatMap, List.mem_map] at hc
    obtain ⟨a, ha, b, hb, fw, _, fh, _, rfl⟩ := hc
    obtain ⟨h1, h2, h3⟩ := hw2 a ha
    obtain ⟨h4, h5, h6⟩ := hh2 b hb
    exact ⟨⟨h1, h2, h3⟩, ⟨h4, h5, h6⟩⟩

theorem comboBin_eq (h : Positive inst) {bt : BinType} (hb : 0 < bt.x ∧ 0 < bt.y) {c : Combo}
    (hc : GoodCombo inst bt c) : comboBin bt c = .ok (bcoef inst bt c) := by
  unfold comboBin
  rw [binCoefficient_eq hb.1 hc.w.k1 (dffPool_pos (posW h) _ _ hc.w.k1) hc.w.ok,
    binCoefficient_eq hb.2 hc.h.k1 (dffPool_pos (posH h) _ _ hc.h.k1) hc.h.ok]
  rfl

theorem itemCoefficient_eq (h : Positive inst) {bt : BinType} (hb : 0 < bt.x ∧ 0 < bt.y)
    {c : Combo} (hc : GoodCombo inst bt c) {i : Nat} (hi : i < inst.numberOfItemTypes) :
    itemCoefficient bt c (inst.itemType i) = .ok (icoef inst bt c i) := by
  have hm := itemType_mem hi
  have hp := h.items _ hm
  have hwx : ∀ x, x ∈ dffLengths inst (·.x) (·.y) → 0 < x →
      axisCoefficient bt.x c.familyW c.tw x = .ok (wcoef inst bt c x) := fun x hx hx0 =>
    axisCoefficient_eq hb.1 hc.w.k1 (dffPool_pos (posW h) _ _ hc.w.k1) hc.w.ok c.familyW hx hx0
  have hhx : ∀ x, x ∈ dffLengths inst (·.y) (·.x) → 0 < x →
      axisCoefficient bt.y c.familyH c.th x = .ok (hcoef inst bt c x) := fun x hx hx0 =>
    axisCoefficient_eq hb.2 hc.h.k1 (dffPool_pos (posH h) _ _ hc.h.k1) hc.h.ok c.familyH hx hx0
  unfold itemCoefficient icoef
  dsimp only
  rw [hwx _ (mem_dffLengths.2 ⟨_, hm, .inl rfl⟩) hp.1,
    hhx _ (mem_dffLengths.2 ⟨_, hm, .inl rfl⟩) hp.2.1]
  cases ho : (inst.itemType i).oriented with
  | true => rfl
  | false =>
    rw [hwx _ (mem_dffLengths.2 ⟨_, hm, .inr ⟨ho, rfl⟩⟩) hp.2.1,
      hhx _ (mem_dffLengths.2 ⟨_, hm, .inr ⟨ho, rfl⟩⟩) hp.1]
    rfl

theorem comboVolumes_eq (h : Positive inst) {bt : BinType} (hb : 0 < bt.x ∧ 0 < bt.y)
    {c : Combo} (hc : GoodCombo inst bt c) :
    comboVolumes inst bt c = .ok ((List.range inst.numberOfItemTypes).map (icoef inst bt c)) := by
  unfold comboVolumes
  conv_lhs => rw [itemTypes_eq inst]
  have : ∀ l : List Nat, (∀ i ∈ l, i < inst.numberOfItemTypes) →
      (l.map inst.itemType).mapM (itemCoefficient bt c) = .ok (l.map (icoef inst bt c)) := by
    intro l
    induction l with
    | nil => intro _; rfl
    | cons i l ih =>
      intro hl
      rw [List.map_cons, List.mapM_cons, itemCoefficient_eq h hb hc (hl i (by simp)),
        ih fun j hj => hl j (by simp [hj])]
      rfl
  exact this _ fun i hi => List.mem_range.mp hi

theorem wcoef_nonneg (h : Positive inst) {bt : BinType} (hb : 0 < bt.x ∧ 0 < bt.y)
    {c : Combo} (hc : GoodCombo inst bt c) {x : Int} (hx : 0 < x) : 0 ≤ wcoef inst bt c x :=
  coef_nonneg hc.w.k1 hb.1.le (cardOf_mono (dffPool_pos (posW h) _ _ hc.w.k1)) _ hx

theorem hcoef_nonneg (h : Positive inst) {bt : BinType} (hb : 0 < bt.x ∧ 0 < bt.y)
    {c : Combo} (hc : GoodCombo inst bt c) {x : Int} (hx : 0 < x) : 0 ≤ hcoef inst bt c x :=
  coef_nonneg hc.h.k1 hb.2.le (cardOf_mono (dffPool_pos (posH h) _ _ hc.h.k1)) _ hx

theorem icoef_nonneg (h : Positive inst) {bt : BinType} (hb : 0 < bt.x ∧ 0 < bt.y)
    {c : Combo} (hc : GoodCombo inst bt c) {i : Nat} (hi : i < inst.numberOfItemTypes) :
    0 ≤ icoef inst bt c i := by
  have hp := h.items _ (itemType_mem hi)
  have h1 := mul_nonneg (wcoef_nonneg h hb hc hp.1) (hcoef_nonneg h hb hc hp.2.1)
  have h2 := mul_nonneg (wcoef_nonneg h hb hc hp.2.1) (hcoef_nonneg h hb hc hp.1)
  unfold icoef
  dsimp only
  split_ifs
  · exact h1
  · exact le_min h1 h2

theorem count_eq (items : List PlacedItem) (i : Nat) :
    ((items.map (·.itemTypeId)).count i : Int) = Spec.count items i := by
  unfold Spec.count
  rw [List.count, List.countP_map]
  norm_cast

/-- **The main inequality**: the items placed in a bin without overlap have a total coefficient
of at most that of the bin. -/
theorem bin_valid (h : Positive inst) {b : Nat}
    (hb : 0 < (inst.binType b).x ∧ 0 < (inst.binType b).y) {c : Combo}
    (hc : GoodCombo inst (inst.binType b) c) {items : List PlacedItem}
    (hp : BinPacking inst b items) (hcopies : WithinCopies inst items) :
    (items.map fun p => icoef inst (inst.binType b) c p.itemTypeId).sum
      ≤ bcoef inst (inst.binType b) c := by
  set bt := inst.binType b with hbt
  have hdim : ∀ p ∈ items, 0 < (inst.itemType p.itemTypeId).width p.rotate
      ∧ 0 < (inst.itemType p.itemTypeId).height p.rotate := by
    intro p hpi
    have := h.items _ (itemType_mem (hp.exist p hpi))
    unfold ItemType.width ItemType.height
    constructor <;> split_ifs <;> omega
  have hcnt : ∀ s : List PlacedItem, s.Subperm items → ∀ i, i < inst.numberOfItemTypes →
      ((s.map (·.itemTypeId)).count i : Int) ≤ (inst.itemType i).copies := by
    intro s hs i hi
    refine le_trans ?_ (hcopies i hi)
    rw [← count_eq]
    obtain ⟨s', hs1, hs2⟩ := hs
    rw [← (hs1.map _).count_eq]
    exact_mod_cast (hs2.map _).count_le i
  have key := Columns.product_bound (α := PlacedItem) (fun p => p.x) (fun p => p.y)
    (fun p => (inst.itemType p.itemTypeId).width p.rotate)
    (fun p => (inst.itemType p.itemTypeId).height p.rotate) bt.x bt.y
    (fun p => wcoef inst bt c ((inst.itemType p.itemTypeId).width p.rotate))
    (fun p => hcoef inst bt c ((inst.itemType p.itemTypeId).height p.rotate))
    (abin inst (·.x) (·.y) bt.x c.tw c.familyW) (abin inst (·.y) (·.x) bt.y c.th c.familyH)
    hb.2.le hb.1.le items (fun p hpi => (hdim p hpi).1) (fun p hpi => (hdim p hpi).2)
    (fun p hpi => hp.inside p hpi) hp.separated
    (fun p hpi => hcoef_nonneg h hb hc (hdim p hpi).2)
    (fun s hs hsum => axis_valid (posW h) hb.1 hc.w c.familyW
      (fun p hps => hp.exist p (hs.subset hps)) (fun p hps => hp.rotation p (hs.subset hps))
      (hcnt s hs) hsum)
    (fun s hs hsum => axis_valid (posH h) hb.2 hc.h c.familyH
      (fun p hps => hp.exist p (hs.subset hps)) (fun p hps => hp.rotation p (hs.subset hps))
      (hcnt s hs) hsum)
  refine le_trans ?_ key
  refine List.sum_le_sum fun p hpi => ?_
  have h4 := hp.rotation p hpi
  unfold icoef ItemType.width ItemType.height
  dsimp only
  cases ho : (inst.itemType p.itemTypeId).oriented with
  | true =>
    cases hr : p.rotate with
    | true => rw [ho] at h4; exact absurd (h4 hr) (by decide)
    | false => simp
  | false =>
    cases hr : p.rotate with
    | true => simp
    | false => simp

end PackingSolver.Rect.DffLemmas
