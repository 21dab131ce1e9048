import Verif.Model.Box.Dff
import Verif.Spec.BoxPacking
import Verif.Lemmas.Dff
import Mathlib.Data.List.GetD
import Verif.Lemmas.Box.Columns

/-!
# Lemmas on the dual feasible functions of the box solver
-/

namespace PackingSolver.Box.DffLemmas

open Dff Box.Spec

variable {inst : Instance}

theorem itemTypes_eq (inst : Instance) :
    inst.itemTypes = (List.range inst.numberOfItemTypes).map inst.itemType := by
  apply List.ext_getElem
  · simp [Instance.numberOfItemTypes]
  · intro k h1 h2
    simp [Instance.itemType, h1]

theorem itemType_mem {i : Nat} (hi : i < inst.numberOfItemTypes) :
    inst.itemType i ∈ inst.itemTypes := by
  unfold Instance.itemType
  rw [List.getD_eq_getElem _ _ hi]
  exact List.getElem_mem _

/-! ## One axis -/

theorem mem_possibleAxisValues {it : ItemType} {a : Nat} {v : Int} :
    v ∈ possibleAxisValues it a ↔ ∃ r ∈ it.rotations, v = axisComponent (it.box.rotate r) a := by
  unfold possibleAxisValues
  rw [mem_sortUnique, List.mem_map]
  exact exists_congr fun r => and_congr_right fun _ => eq_comm

theorem component_pos {d : Dims} (h : 0 < d.x ∧ 0 < d.y ∧ 0 < d.z) (r : Rotation) (a : Nat) :
    0 < axisComponent (d.rotate r) a := by
  unfold axisComponent
  cases r <;> simp only [Dims.rotate] <;> split_ifs <;> omega

/-- The smallest value of a list in a range, or -1. -/
theorem medium_fold (k half : Int) (hk : 1 ≤ k) : ∀ (l : List Int) (b : Int), (b < 0 ∨ k ≤ b) →
    let m := l.foldl (fun best v => if k ≤ v ∧ v ≤ half ∧ (best < 0 ∨ v < best) then v else best) b
    (m < 0 ∨ k ≤ m) ∧ (0 ≤ b → 0 ≤ m ∧ m ≤ b) ∧
      ∀ v ∈ l, k ≤ v → v ≤ half → 0 ≤ m ∧ m ≤ v := by
  intro l
  induction l with
  | nil =>
    intro b hb
    exact ⟨hb, fun h => ⟨h, le_refl _⟩, by simp⟩
  | cons v l ih =>
    intro b hb
    dsimp only
    rw [List.foldl_cons]
    by_cases hc : k ≤ v ∧ v ≤ half ∧ (b < 0 ∨ v < b)
    · rw [if_pos hc]
      obtain ⟨h1, h2, h3⟩ := ih v (.inr hc.1)
      have h2 := h2 (by omega)
      refine ⟨h1, fun h => ⟨h2.1, by omega⟩, ?_⟩
      intro u hu hu1 hu2
      rcases List.mem_cons.1 hu with rfl | hu
      · exact h2
      · exact h3 u hu hu1 hu2
    · rw [if_neg hc]
      obtain ⟨h1, h2, h3⟩ := ih b hb
      refine ⟨h1, h2, ?_⟩
      intro u hu hu1 hu2
      rcases List.mem_cons.1 hu with rfl | hu
      · have h2 := h2 (by omega)
        exact ⟨h2.1, by omega⟩
      · exact h3 u hu hu1 hu2

/-- The pool length of an item type. -/
def plen (inst : Instance) (a : Nat) (C k : Int) (i : Nat) : Int :=
  mediumPoolLength (inst.itemType i) a k (C.tdiv 2)

/-- The ids of the item types in the pool. -/
def mediumIds (inst : Instance) (a : Nat) (C k : Int) : List Nat :=
  (List.range inst.numberOfItemTypes).filter fun i => decide (plen inst a C k i ≥ 0)

theorem axisPool_eq (inst : Instance) (a : Nat) (C k : Int) :
    axisPool inst a C k = (mediumIds inst a C k).map fun i =>
      (plen inst a C k i, (inst.itemType i).copies) := by
  unfold axisPool mediumIds
  conv_lhs => rw [itemTypes_eq inst]
  rw [List.filterMap_map]
  generalize List.range inst.numberOfItemTypes = l
  induction l with
  | nil => rfl
  | cons i l ih =>
    rw [List.filterMap_cons, Function.comp_apply]
    dsimp only
    have e : mediumPoolLength (inst.itemType i) a k (C.tdiv 2) = plen inst a C k i := rfl
    rw [e]
    by_cases h : plen inst a C k i ≥ 0
    · rw [if_pos h, List.filter_cons_of_pos (by simpa using h), List.map_cons, ← ih]
    · rw [if_neg h, List.filter_cons_of_neg (by simpa using h), ← ih]

theorem plen_pos {a : Nat} {C k : Int} (hk : 1 ≤ k) {i : Nat} (hi : i ∈ mediumIds inst a C k) :
    0 < plen inst a C k i := by
  unfold mediumIds at hi
  rw [List.mem_filter] at hi
  have h2 : plen inst a C k i ≥ 0 := by simpa using hi.2
  have := (medium_fold k (C.tdiv 2) hk (possibleAxisValues (inst.itemType i) a) (-1)
    (.inl (by omega))).1
  unfold plen mediumPoolLength at h2 ⊢
  omega

theorem axisPool_pos (h : Positive inst) (a : Nat) (C k : Int) (hk : 1 ≤ k) :
    ∀ p ∈ axisPool inst a C k, 0 < p.1 ∧ 0 ≤ p.2 := by
  intro p hp
  rw [axisPool_eq] at hp
  obtain ⟨i, hi, rfl⟩ := List.mem_map.mp hp
  have hi' := List.mem_range.mp (List.mem_filter.mp hi).1
  exact ⟨plen_pos hk hi, (h.items _ (itemType_mem hi')).2.1⟩

theorem mem_axisValues {a : Nat} {x : Int} : x ∈ axisValues inst a ↔
    ∃ it ∈ inst.itemTypes, ∃ r ∈ it.rotations, x = axisComponent (it.box.rotate r) a := by
  unfold axisValues
  rw [List.mem_flatMap]
  exact exists_congr fun it => and_congr_right fun _ => mem_possibleAxisValues

theorem axisValues_pos (h : Positive inst) (a : Nat) : ∀ x ∈ axisValues inst a, 0 < x := by
  intro x hx
  obtain ⟨it, hit, r, _, rfl⟩ := mem_axisValues.1 hx
  exact component_pos (h.items it hit).1 r a

/-- The tables of a breakpoint of one axis are right. -/
structure GoodAxis (inst : Instance) (a : Nat) (C : Int) (t : BreakpointTables) : Prop where
  k1 : 1 ≤ t.k
  k2 : t.k ≤ C / 2
  ok : TablesOk C (axisBigValues C (axisValues inst a)) (axisPool inst a C t.k) t

theorem axisThresholds_range {C : Int} {values : List Int} (hc : 2 ≤ C)
    (hpos : ∀ x ∈ values, 0 < x) {k : Int} (hk : k ∈ axisThresholds C values) :
    1 ≤ k ∧ k ≤ C / 2 := by
  refine breakpoints_range (lengths := values) (by omega) hpos ?_
  have h2 : C.tdiv 2 = C / 2 := Int.tdiv_eq_ediv_of_nonneg (by omega)
  unfold axisThresholds at hk
  unfold breakpoints
  rw [if_pos (by omega)]
  exact hk

theorem axisTables_ok (h : Positive inst) {C : Int} (hc : 2 ≤ C) (a : Nat) :
    ∃ ts, axisTables inst C a = .ok ts ∧ ∀ t ∈ ts, GoodAxis inst a C t := by
  set values := axisValues inst a with hvals
  set pool := axisPool inst a C with hpl
  have hpos := axisValues_pos h a
  have hpool : ∀ k, 1 ≤ k → ∀ p ∈ pool k, 0 < p.1 ∧ 0 ≤ p.2 := fun k hk => axisPool_pos h a C k hk
  obtain ⟨ts, h1, h2⟩ := mapM_ok (f := breakpointTables C (axisBigValues C values) pool)
    (l := axisThresholds C values)
    (R := fun k t => t.k = k ∧ TablesOk C (axisBigValues C values) (pool k) t) (by
      intro k hk
      have hk1 := (axisThresholds_range hc hpos hk).1
      have hv := (cardOf_spec (hpool k hk1) C).1
      obtain ⟨m, hm, hmf⟩ := mapM_ok (l := axisBigValues C values)
        (f := fun big => (do
          return (big, ← greedyMaximumCardinality (C - big) (sortPool (pool k))) :
          Except Err (Int × Int)))
        (R := fun x y => y.1 = x ∧ y.2 = cardOf (pool k) (C - x)) (by
          intro x hx
          have hw := (cardOf_spec (hpool k hk1) (C - x)).1
          exact ⟨(x, cardOf (pool k) (C - x)), by rw [hw]; rfl, rfl, rfl⟩)
      refine ⟨⟨k, cardOf (pool k) C, m⟩, ?_, rfl, rfl, fun x hx => ?_⟩
      swap
      · obtain ⟨v, h1, h2⟩ := excludedAt_ok (P := fun x y => y = cardOf (pool k) (C - x))
          hmf hx
        rw [h1, h2]
      unfold breakpointTables
      simp only [bind, Except.bind] at hm ⊢
      rw [hv]
      simp only []
      rw [hm]
      rfl)
  refine ⟨ts, h1, fun t ht => ?_⟩
  obtain ⟨i, hi, rfl⟩ := List.getElem_of_mem ht
  have hi' : i < (axisThresholds C values).length := by rw [h2.length_eq]; exact hi
  obtain ⟨h3, h4⟩ := h2.get hi' hi
  simp only [List.get_eq_getElem] at h3 h4
  have := axisThresholds_range hc hpos (List.getElem_mem hi')
  rw [← h3] at this h4
  exact ⟨this.1, this.2, h4⟩

/-- The value of a length on one axis. -/
def acoef (inst : Instance) (a : Nat) (C : Int) (t : BreakpointTables) (family : Nat) (x : Int) :
    Int :=
  coef C t.k (cardOf (axisPool inst a C t.k)) family x

/-- The value of the bin on one axis. -/
def abin (inst : Instance) (a : Nat) (C : Int) (t : BreakpointTables) (family : Nat) : Int :=
  binCoef C t.k (cardOf (axisPool inst a C t.k)) family

/-- The length of a placed item along the axis. -/
def along (inst : Instance) (a : Nat) (p : PlacedItem) : Int :=
  axisComponent ((inst.itemType p.itemTypeId).box.rotate p.rotation) a

/-- Items whose lengths fit in the capacity of the axis have a total value of at most that of the
bin. -/
theorem axis_valid (h : Positive inst) {a : Nat} {C : Int}
    (hC : 2 ≤ C) {t : BreakpointTables} (ht : GoodAxis inst a C t) (family : Nat)
    {c : List PlacedItem} (hty : ∀ p ∈ c, p.itemTypeId < inst.numberOfItemTypes)
    (hrot : ∀ p ∈ c, p.rotation ∈ (inst.itemType p.itemTypeId).rotations)
    (hcount : ∀ i, i < inst.numberOfItemTypes →
      ((c.map (·.itemTypeId)).count i : Int) ≤ (inst.itemType i).copies)
    (hsum : (c.map (along inst a)).sum ≤ C) :
    (c.map fun p => acoef inst a C t family (along inst a p)).sum ≤ abin inst a C t family := by
  have hpos : ∀ p ∈ c, 0 < along inst a p := fun p hp =>
    component_pos (h.items _ (itemType_mem (hty p hp))).1 _ _
  have := coef_valid (M := cardOf (axisPool inst a C t.k)) ht.k1 ht.k2
    (l := c.map (along inst a)) (by
      intro x hx
      obtain ⟨p, hp, rfl⟩ := List.mem_map.mp hx
      exact hpos p hp) hsum (by
      intro s cap hs hmed hsums
      obtain ⟨u, hu, rfl⟩ := List.sublist_map_iff.mp hs
      have h2 : C.tdiv 2 = C / 2 := Int.tdiv_eq_ediv_of_nonneg (by omega)
      have key : ∀ p ∈ u, 0 ≤ plen inst a C t.k p.itemTypeId ∧
          plen inst a C t.k p.itemTypeId ≤ along inst a p := by
        intro p hp
        have hpc := hu.subset hp
        have h1 := hmed (along inst a p) (List.mem_map.mpr ⟨p, hp, rfl⟩)
        exact (medium_fold t.k (C.tdiv 2) ht.k1
          (possibleAxisValues (inst.itemType p.itemTypeId) a) (-1) (.inl (by omega))).2.2
          (along inst a p) (mem_possibleAxisValues.2 ⟨_, hrot p hpc, rfl⟩) h1.1 (by omega)
      rw [axisPool_eq, List.length_map]
      have hlen : u.length = (u.map (·.itemTypeId)).length := by rw [List.length_map]
      rw [hlen]
      apply medium_count (mediumIds inst a C t.k) (plen inst a C t.k)
        (fun i => (inst.itemType i).copies)
      · intro i hi
        have hi' := List.mem_range.mp (List.mem_filter.mp hi).1
        exact ⟨plen_pos ht.k1 hi, (h.items _ (itemType_mem hi')).2.1⟩
      · exact List.nodup_range.filter _
      · intro i hi
        obtain ⟨p, hp, rfl⟩ := List.mem_map.mp hi
        unfold mediumIds
        rw [List.mem_filter, List.mem_range, decide_eq_true_eq]
        exact ⟨hty p (hu.subset hp), (key p hp).1⟩
      · intro i hi
        obtain ⟨p, hp, rfl⟩ := List.mem_map.mp hi
        refine le_trans ?_ (hcount p.itemTypeId (hty p (hu.subset hp)))
        exact_mod_cast (hu.map _).count_le _
      · refine le_trans ?_ hsums
        rw [List.map_map]
        exact List.sum_le_sum fun p hp => (key p hp).2) family
  rw [List.map_map] at this
  exact this

theorem acoef_nonneg (h : Positive inst) {a : Nat} {C : Int} (hC : 2 ≤ C) {t : BreakpointTables}
    (ht : GoodAxis inst a C t) (family : Nat) {x : Int} (hx : 0 < x) :
    0 ≤ acoef inst a C t family x :=
  coef_nonneg ht.k1 (by omega) (cardOf_mono (axisPool_pos h a C _ ht.k1)) _ hx

theorem cardOf_zero {pool : List (Int × Int)} (hpos : ∀ p ∈ pool, 0 < p.1 ∧ 0 ≤ p.2) :
    cardOf pool 0 = 0 := by
  have hs := (cardOf_spec hpos 0).2
  have h0 := hs.nonneg (le_refl 0)
  obtain ⟨s, hsel, hlen⟩ := hs.attained (le_refl 0)
  have hsp : ∀ x ∈ s, 0 < x := by
    intro x hx
    obtain ⟨p, hp, hx⟩ := List.mem_flatMap.1 (hsel.available.subset hx)
    rw [(List.mem_replicate.1 hx).2]
    exact (hpos p hp).1
  cases s with
  | nil => simpa using hlen.symm
  | cons x s =>
    have := sum_pos_of_mem hsp (List.mem_cons_self (a := x) (l := s))
    have hfit := hsel.fits
    have := hsp x List.mem_cons_self
    omega

theorem evalAxis_eq (h : Positive inst) {a : Nat} {C : Int} (hC : 2 ≤ C) {t : BreakpointTables}
    (ht : GoodAxis inst a C t) (family : Nat) {x : Int} (hx : x ∈ axisValues inst a) :
    evalAxis C family t x = .ok (acoef inst a C t family (min x C)) := by
  have hx0 := axisValues_pos h a x hx
  have h2 : C.tdiv 2 = C / 2 := Int.tdiv_eq_ediv_of_nonneg (by omega)
  have hpool := axisPool_pos h a C t.k ht.k1
  match family with
  | 0 => rfl
  | 1 =>
    simp only [evalAxis, acoef, coef, fCcm1Axis]
    by_cases hge : min x C ≥ C
    · have e : min x C = C := by omega
      rw [if_pos hge, e, if_pos (by omega), sub_self, cardOf_zero hpool, sub_zero]
      unfold fCcm1
      have := (cardOf_spec hpool C).2.nonneg (by omega)
      rw [if_pos (by omega), ht.ok.full, if_neg (by omega)]
    · have e : min x C = x := by omega
      rw [if_neg hge, e]
      by_cases hb : x > C / 2
      · rw [if_pos (by omega), if_pos hb]
        have h1 := ht.ok.excluded x (by
          unfold axisBigValues
          rw [mem_sortUnique, List.mem_filter, decide_eq_true_eq]
          exact ⟨hx, by omega, by omega⟩)
        rw [h1, ht.ok.full]
        have h3 := cardOf_mono hpool (C - x) C (by omega) (by omega)
        show fCcm1 _ _ _ _ = _
        unfold fCcm1
        rw [if_pos (by omega), if_neg (by omega)]
      · rw [if_neg (by omega), if_neg hb]
        unfold fCcm1
        rw [if_neg (by omega)]
        split_ifs <;> rfl
  | _ + 2 =>
    simp only [evalAxis, acoef, coef, fCcm2]
    have hk := ht.k1
    rw [if_neg (by omega), h2, tmod_two (by omega)]
    have h4 : C.tdiv t.k = C / t.k := Int.tdiv_eq_ediv_of_nonneg (by omega)
    have h5 : (min x C).tdiv t.k = min x C / t.k := Int.tdiv_eq_ediv_of_nonneg (by omega)
    rw [h4, h5]
    split_ifs <;> rfl

/-! ## The three axes -/

/-- A combination computed by the code. -/
structure GoodTriple (inst : Instance) (bin : Dims) (t : Triple) : Prop where
  x : GoodAxis inst 0 bin.x t.x
  y : GoodAxis inst 1 bin.y t.y
  z : GoodAxis inst 2 bin.z t.z

/-- The sides of the bin are at least 2. -/
def Wide (bin : Dims) : Prop := 2 ≤ bin.x ∧ 2 ≤ bin.y ∧ 2 ≤ bin.z

/-- The value of a box. -/
def boxCoef (inst : Instance) (bin : Dims) (t : Triple) (f : Families) (d : Dims) : Int :=
  acoef inst 0 bin.x t.x f.x (min d.x bin.x)
    * (acoef inst 1 bin.y t.y f.y (min d.y bin.y) * acoef inst 2 bin.z t.z f.z (min d.z bin.z))

/-- The coefficient of an item type. -/
def icoef (inst : Instance) (bin : Dims) (t : Triple) (f : Families) (i : Nat) : Int :=
  (inst.itemType i).rotations.foldl (fun best r =>
    if best < 0 ∨ boxCoef inst bin t f ((inst.itemType i).box.rotate r) < best then
      boxCoef inst bin t f ((inst.itemType i).box.rotate r) else best) (-1)

/-- The coefficient of the bin. -/
def bcoef (inst : Instance) (bin : Dims) (t : Triple) (f : Families) : Int :=
  abin inst 0 bin.x t.x f.x * (abin inst 1 bin.y t.y f.y * abin inst 2 bin.z t.z f.z)

theorem allTriples_ok (h : Positive inst) {bin : Dims} (hb : Wide bin) :
    ∃ ts, allTriples inst bin = .ok ts ∧ ∀ t ∈ ts, GoodTriple inst bin t := by
  obtain ⟨tx, hx, hx2⟩ := axisTables_ok h hb.1 0
  obtain ⟨ty, hy, hy2⟩ := axisTables_ok h hb.2.1 1
  obtain ⟨tz, hz, hz2⟩ := axisTables_ok h hb.2.2 2
  refine ⟨triples tx ty tz, ?_, ?_⟩
  · unfold allTriples
    rw [hx, hy, hz]
    rfl
  · intro c hc
    unfold triples at hc
    simp only [List.mem_flatMap, List.mem_map] at hc
    obtain ⟨a, ha, b, hb, c, hc, rfl⟩ := hc
    exact ⟨hx2 a ha, hy2 b hb, hz2 c hc⟩

theorem fBinAxis_eq (h : Positive inst) {a : Nat} {C : Int} (hC : 2 ≤ C) {t : BreakpointTables}
    (ht : GoodAxis inst a C t) :
    fBinAxis C t = .ok [abin inst a C t 0, abin inst a C t 1, abin inst a C t 2] := by
  have hpool := axisPool_pos h a C t.k ht.k1
  unfold fBinAxis
  rw [binCoefficient_eq (by omega) ht.k1 hpool ht.ok,
    binCoefficient_eq (by omega) ht.k1 hpool ht.ok, binCoefficient_eq (by omega) ht.k1 hpool ht.ok]
  rfl

theorem mem_allFamilies {f : Families} (hf : f ∈ allFamilies) : f.x < 3 ∧ f.y < 3 ∧ f.z < 3 := by
  revert hf f
  decide

theorem getD_three (g : Nat → Int) {n : Nat} (hn : n < 3) : [g 0, g 1, g 2].getD n 0 = g n := by
  match n, hn with
  | 0, _ => rfl
  | 1, _ => rfl
  | 2, _ => rfl

theorem fBin_eq (h : Positive inst) {bin : Dims} (hb : Wide bin) {t : Triple}
    (ht : GoodTriple inst bin t) : ∃ b, fBin bin t = .ok b ∧
      ∀ f ∈ allFamilies, b f = bcoef inst bin t f := by
  unfold fBin
  rw [fBinAxis_eq h hb.1 ht.x, fBinAxis_eq h hb.2.1 ht.y, fBinAxis_eq h hb.2.2 ht.z]
  refine ⟨_, rfl, ?_⟩
  intro f hf
  obtain ⟨h1, h2, h3⟩ := mem_allFamilies hf
  rw [getD_three (fun n => abin inst 0 bin.x t.x n) h1,
    getD_three (fun n => abin inst 1 bin.y t.y n) h2,
    getD_three (fun n => abin inst 2 bin.z t.z n) h3]
  unfold bcoef
  ring

theorem rotationValue_eq (h : Positive inst) {bin : Dims} (hb : Wide bin) {t : Triple}
    (ht : GoodTriple inst bin t) (f : Families) {i : Nat} (hi : i < inst.numberOfItemTypes)
    {r : Rotation} (hr : r ∈ (inst.itemType i).rotations) :
    rotationValue bin t f (inst.itemType i) r
      = .ok (boxCoef inst bin t f ((inst.itemType i).box.rotate r)) := by
  have hm : ∀ a, axisComponent ((inst.itemType i).box.rotate r) a ∈ axisValues inst a := fun a =>
    mem_axisValues.2 ⟨_, itemType_mem hi, r, hr, rfl⟩
  have hx : ((inst.itemType i).box.rotate r).x ∈ axisValues inst 0 := hm 0
  have hy : ((inst.itemType i).box.rotate r).y ∈ axisValues inst 1 := hm 1
  have hz : ((inst.itemType i).box.rotate r).z ∈ axisValues inst 2 := hm 2
  unfold rotationValue
  rw [evalAxis_eq h hb.1 ht.x f.x hx, evalAxis_eq h hb.2.1 ht.y f.y hy,
    evalAxis_eq h hb.2.2 ht.z f.z hz]
  show Except.ok _ = _
  unfold boxCoef
  congr 1
  ring

theorem itemCoefficient_eq (h : Positive inst) {bin : Dims} (hb : Wide bin) {t : Triple}
    (ht : GoodTriple inst bin t) (f : Families) {i : Nat} (hi : i < inst.numberOfItemTypes) :
    itemCoefficient bin t f (inst.itemType i) = .ok (icoef inst bin t f i) := by
  unfold itemCoefficient icoef
  have : ∀ (l : List Rotation) (b : Int), (∀ r ∈ l, r ∈ (inst.itemType i).rotations) →
      l.foldlM (fun best r => (do
        let value ← rotationValue bin t f (inst.itemType i) r
        return if best < 0 ∨ value < best then value else best : Except Err Int)) b
      = .ok (l.foldl (fun best r =>
        if best < 0 ∨ boxCoef inst bin t f ((inst.itemType i).box.rotate r) < best then
          boxCoef inst bin t f ((inst.itemType i).box.rotate r) else best) b) := by
    intro l
    induction l with
    | nil => intro b _; rfl
    | cons r l ih =>
      intro b hl
      rw [List.foldlM_cons, rotationValue_eq h hb ht f hi (hl r (by simp)), List.foldl_cons,
        ← ih _ fun s hs => hl s (by simp [hs])]
      rfl
  exact this _ _ fun r hr => hr

theorem volumes_eq (h : Positive inst) {bin : Dims} (hb : Wide bin) {t : Triple}
    (ht : GoodTriple inst bin t) (f : Families) :
    volumes inst bin t f = .ok ((List.range inst.numberOfItemTypes).map (icoef inst bin t f)) := by
  unfold volumes
  conv_lhs => rw [itemTypes_eq inst]
  have : ∀ l : List Nat, (∀ i ∈ l, i < inst.numberOfItemTypes) →
      (l.map inst.itemType).mapM (itemCoefficient bin t f) = .ok (l.map (icoef inst bin t f)) := by
    intro l
    induction l with
    | nil => intro _; rfl
    | cons i l ih =>
      intro hl
      rw [List.map_cons, List.mapM_cons, itemCoefficient_eq h hb ht f (hl i (by simp)),
        ih fun j hj => hl j (by simp [hj])]
      rfl
  exact this _ fun i hi => List.mem_range.mp hi

theorem boxCoef_nonneg (h : Positive inst) {bin : Dims} (hb : Wide bin) {t : Triple}
    (ht : GoodTriple inst bin t) (f : Families) {d : Dims} (hd : 0 < d.x ∧ 0 < d.y ∧ 0 < d.z) :
    0 ≤ boxCoef inst bin t f d := by
  obtain ⟨h1, h2, h3⟩ := hb
  exact mul_nonneg (acoef_nonneg h h1 ht.x _ (by omega))
    (mul_nonneg (acoef_nonneg h h2 ht.y _ (by omega)) (acoef_nonneg h h3 ht.z _ (by omega)))

theorem min_fold (g : Rotation → Int) : ∀ (l : List Rotation) (b : Int), (∀ r ∈ l, 0 ≤ g r) →
    let m := l.foldl (fun best r => if best < 0 ∨ g r < best then g r else best) b
    ((0 ≤ b ∨ l ≠ []) → 0 ≤ m) ∧ (0 ≤ b → m ≤ b) ∧ ∀ r ∈ l, m ≤ g r := by
  intro l
  induction l with
  | nil =>
    intro b _
    exact ⟨fun h => h.resolve_right (by simp), fun _ => le_refl _, by simp⟩
  | cons r l ih =>
    intro b hl
    have hr := hl r (by simp)
    have hl' := fun s (hs : s ∈ l) => hl s (by simp [hs])
    dsimp only
    rw [List.foldl_cons]
    by_cases hc : b < 0 ∨ g r < b
    · rw [if_pos hc]
      obtain ⟨h1, h2, h3⟩ := ih (g r) hl'
      have h2 := h2 hr
      refine ⟨fun _ => h1 (.inl hr), fun hb => by omega, ?_⟩
      intro s hs
      rcases List.mem_cons.1 hs with rfl | hs
      · exact h2
      · exact h3 s hs
    · rw [if_neg hc]
      obtain ⟨h1, h2, h3⟩ := ih b hl'
      refine ⟨fun _ => h1 (.inl (by omega)), fun hb => h2 hb, ?_⟩
      intro s hs
      rcases List.mem_cons.1 hs with rfl | hs
      · have h2 := h2 (by omega)
        omega
      · exact h3 s hs

theorem rotate_pos {d : Dims} (h : 0 < d.x ∧ 0 < d.y ∧ 0 < d.z) (r : Rotation) :
    0 < (d.rotate r).x ∧ 0 < (d.rotate r).y ∧ 0 < (d.rotate r).z :=
  ⟨component_pos h r 0, component_pos h r 1, component_pos h r 2⟩

theorem icoef_nonneg (h : Positive inst) {bin : Dims} (hb : Wide bin) {t : Triple}
    (ht : GoodTriple inst bin t) (f : Families) {i : Nat} (hi : i < inst.numberOfItemTypes) :
    0 ≤ icoef inst bin t f i := by
  have hp := h.items _ (itemType_mem hi)
  exact (min_fold (fun r => boxCoef inst bin t f ((inst.itemType i).box.rotate r)) _ (-1)
    (fun r _ => boxCoef_nonneg h hb ht f (rotate_pos hp.1 r))).1 (.inr hp.2.2)

theorem icoef_le (h : Positive inst) {bin : Dims} (hb : Wide bin) {t : Triple}
    (ht : GoodTriple inst bin t) (f : Families) {i : Nat} (hi : i < inst.numberOfItemTypes)
    {r : Rotation} (hr : r ∈ (inst.itemType i).rotations) :
    icoef inst bin t f i ≤ boxCoef inst bin t f ((inst.itemType i).box.rotate r) := by
  have hp := h.items _ (itemType_mem hi)
  exact (min_fold (fun r => boxCoef inst bin t f ((inst.itemType i).box.rotate r)) _ (-1)
    (fun r _ => boxCoef_nonneg h hb ht f (rotate_pos hp.1 r))).2.2 r hr

theorem count_eq (items : List PlacedItem) (i : Nat) :
    ((items.map (·.itemTypeId)).count i : Int) = Spec.count items i := by
  unfold Spec.count
  rw [List.count, List.countP_map]
  norm_cast

theorem occupies_eq (inst : Instance) (p : PlacedItem) : occupies inst p
    = ⟨p.x, p.y, p.z, along inst 0 p, along inst 1 p, along inst 2 p⟩ := by
  unfold occupies along axisComponent rotated Dims.rotate
  cases p.rotation <;> rfl

/-- **The main inequality**: the items placed in a bin without overlap have a total coefficient
of at most that of the bin. -/
theorem bin_valid (h : Positive inst) {b : Nat} (hb : Wide (inst.binType b).box) {t : Triple}
    (ht : GoodTriple inst (inst.binType b).box t) (f : Families) {items : List PlacedItem}
    (hp : BinPacking inst b items) (hcopies : WithinCopies inst items) :
    (items.map fun p => icoef inst (inst.binType b).box t f p.itemTypeId).sum
      ≤ bcoef inst (inst.binType b).box t f := by
  set bin := (inst.binType b).box with hbin
  have hdim : ∀ p ∈ items, ∀ a, 0 < along inst a p := fun p hpi a =>
    component_pos (h.items _ (itemType_mem (hp.exist p hpi))).1 _ _
  have hin : ∀ p ∈ items, (0 ≤ p.x ∧ p.x + along inst 0 p ≤ bin.x) ∧
      (0 ≤ p.y ∧ p.y + along inst 1 p ≤ bin.y) ∧ (0 ≤ p.z ∧ p.z + along inst 2 p ≤ bin.z) := by
    intro p hpi
    have := hp.inside p hpi
    rw [occupies_eq] at this
    obtain ⟨h1, h2, h3, h4, h5, h6⟩ := this
    exact ⟨⟨h1, h2⟩, ⟨h3, h4⟩, ⟨h5, h6⟩⟩
  have hcnt : ∀ s : List PlacedItem, s.Subperm items → ∀ i, i < inst.numberOfItemTypes →
      ((s.map (·.itemTypeId)).count i : Int) ≤ (inst.itemType i).copies := by
    intro s hs i hi
    refine le_trans ?_ (hcopies i hi)
    rw [← count_eq]
    obtain ⟨s', hs1, hs2⟩ := hs
    rw [← (hs1.map _).count_eq]
    exact_mod_cast (hs2.map _).count_le i
  obtain ⟨hbx, hby, hbz⟩ := hb
  have key := Columns.product_bound (α := PlacedItem) (fun p => p.x) (fun p => p.y) (fun p => p.z)
    (along inst 0) (along inst 1) (along inst 2) bin.x bin.y bin.z
    (fun p => acoef inst 0 bin.x t.x f.x (along inst 0 p))
    (fun p => acoef inst 1 bin.y t.y f.y (along inst 1 p))
    (fun p => acoef inst 2 bin.z t.z f.z (along inst 2 p))
    (abin inst 0 bin.x t.x f.x) (abin inst 1 bin.y t.y f.y) (abin inst 2 bin.z t.z f.z)
    (by omega) (by omega) (by omega) items (fun p hpi => hdim p hpi 0) (fun p hpi => hdim p hpi 1)
    (fun p hpi => hdim p hpi 2) (fun p hpi => (hin p hpi).1) (fun p hpi => (hin p hpi).2.1)
    (fun p hpi => (hin p hpi).2.2) (by
      refine hp.separated.imp ?_
      intro p q hpq
      rw [occupies_eq, occupies_eq] at hpq
      exact hpq)
    (fun p hpi => acoef_nonneg h hby ht.y _ (hdim p hpi 1))
    (fun p hpi => acoef_nonneg h hbz ht.z _ (hdim p hpi 2))
    (fun s hs hsum => axis_valid h hbx ht.x f.x
      (fun p hps => hp.exist p (hs.subset hps)) (fun p hps => hp.rotation p (hs.subset hps))
      (hcnt s hs) hsum)
    (fun s hs hsum => axis_valid h hby ht.y f.y
      (fun p hps => hp.exist p (hs.subset hps)) (fun p hps => hp.rotation p (hs.subset hps))
      (hcnt s hs) hsum)
    (fun s hs hsum => axis_valid h hbz ht.z f.z
      (fun p hps => hp.exist p (hs.subset hps)) (fun p hps => hp.rotation p (hs.subset hps))
      (hcnt s hs) hsum)
  refine le_trans ?_ key
  refine List.sum_le_sum fun p hpi => ?_
  refine (icoef_le h ⟨hbx, hby, hbz⟩ ht f (hp.exist p hpi) (hp.rotation p hpi)).trans (le_of_eq ?_)
  obtain ⟨⟨h1, h2⟩, ⟨h3, h4⟩, ⟨h5, h6⟩⟩ := hin p hpi
  unfold boxCoef
  have ex : ((inst.itemType p.itemTypeId).box.rotate p.rotation).x = along inst 0 p := rfl
  have ey : ((inst.itemType p.itemTypeId).box.rotate p.rotation).y = along inst 1 p := rfl
  have ez : ((inst.itemType p.itemTypeId).box.rotate p.rotation).z = along inst 2 p := rfl
  rw [ex, ey, ez, min_eq_left (by omega), min_eq_left (by omega), min_eq_left (by omega)]

end PackingSolver.Box.DffLemmas
