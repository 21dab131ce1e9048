import Verif.Spec.RectTree
import Verif.Lemmas.Rect.Skyline
import Verif.Lemmas.Rect.ItemLoop

/-! Helper lemmas: what the rectangle branching scheme keeps about the last bin. -/

namespace PackingSolver.Rect.TreeSearch

open Rect.Spec
open PackingSolver.OneDim (itemConsumption_of_empty itemConsumption_nonneg prefix_snoc)

/-! ### Skyline -/

/-- The skyline describes the items of the bin. -/
structure Sky (J : Instance) (b : Nat) (L : List PlacedItem) (us : List UncoveredItem) : Prop where
  tiles : Tiles 0 us (J.binType b).y
  cover : ∀ u ∈ us, ∀ p ∈ L, u.Meets p.y (upperEnd J p) → rightEnd J p ≤ u.xe
  attained : ∀ u ∈ us, u.xe = 0 ∨ ∃ p ∈ L, u.xe = rightEnd J p ∧ u.ye ≤ upperEnd J p
  item : ∀ u ∈ us, ∀ p ∈ L, u.Meets p.y (upperEnd J p) → ∃ i, u.itemTypeId = some i
    ∧ (J.parameters.unloadingConstraint = .onlyXMovements →
      (J.itemType i).groupId ≤ groupOf J p)

variable {J : Instance} {b : Nat} {L : List PlacedItem} {us : List UncoveredItem} {a : PlacedItem}

theorem rightEnd_eq (J : Instance) (p : PlacedItem) :
    rightEnd J p = p.x + (J.itemType p.itemTypeId).width p.rotate := rfl

theorem upperEnd_eq (J : Instance) (p : PlacedItem) :
    upperEnd J p = p.y + (J.itemType p.itemTypeId).height p.rotate := rfl

/-- The uncovered item of a new item. -/
def newUncovered (J : Instance) (a : PlacedItem) : UncoveredItem :=
  ⟨some a.itemTypeId, a.x, rightEnd J a, rightEnd J a, a.y, upperEnd J a⟩

theorem Sky.congr {vs : List UncoveredItem} (h : Sky J b L us) (e : vs.map core = us.map core) :
    Sky J b L vs := by
  refine ⟨(Tiles.core_iff e).mpr h.tiles, ?_, ?_, ?_⟩
  · intro v hv p hp hm
    obtain ⟨u, hu, -, -, e3, e4, e5⟩ := mem_core e hv
    unfold UncoveredItem.Meets at hm
    rw [e4, e5] at hm
    rw [e3]
    exact h.cover u hu p hp hm
  · intro v hv
    obtain ⟨u, hu, -, -, e3, -, e5⟩ := mem_core e hv
    rw [e3, e5]
    exact h.attained u hu
  · intro v hv p hp hm
    obtain ⟨u, hu, e1, -, -, e4, e5⟩ := mem_core e hv
    unfold UncoveredItem.Meets at hm
    rw [e4, e5] at hm
    rw [e1]
    exact h.item u hu p hp hm

/-- The skyline of a bin with one item. -/
theorem sky_new (h1 : 0 ≤ a.y) (h2 : a.y < upperEnd J a) (h3 : upperEnd J a ≤ (J.binType b).y) :
    Sky J b [a] (newBinSkyline a.itemTypeId a.x (rightEnd J a) a.y (upperEnd J a)
      (J.binType b).y).1
    ∧ (newBinSkyline a.itemTypeId a.x (rightEnd J a) a.y (upperEnd J a) (J.binType b).y).2
      = some (if a.y > 0 then 1 else 0)
    ∧ skyArea (newBinSkyline a.itemTypeId a.x (rightEnd J a) a.y (upperEnd J a)
      (J.binType b).y).1 = rightEnd J a * (upperEnd J a - a.y) := by
  set lo : List UncoveredItem := if a.y > 0 then [⟨none, 0, 0, 0, 0, a.y⟩] else [] with hlo
  set hi : List UncoveredItem := if upperEnd J a < (J.binType b).y
    then [⟨none, 0, 0, 0, upperEnd J a, (J.binType b).y⟩] else [] with hhi
  have e : newBinSkyline a.itemTypeId a.x (rightEnd J a) a.y (upperEnd J a) (J.binType b).y
      = (lo ++ [newUncovered J a] ++ hi, some lo.length) := rfl
  have tlo : Tiles 0 lo a.y := by
    rw [hlo]; split_ifs with h
    · exact ⟨rfl, h, rfl⟩
    · exact le_antisymm h1 (not_lt.mp h)
  have thi : Tiles (upperEnd J a) hi (J.binType b).y := by
    rw [hhi]; split_ifs with h
    · exact ⟨rfl, h, rfl⟩
    · exact le_antisymm h3 (not_lt.mp h)
  have mem : ∀ u ∈ lo ++ [newUncovered J a] ++ hi, u = newUncovered J a
      ∨ (u.xe = 0 ∧ (u.ye ≤ a.y ∨ u.ys ≥ upperEnd J a)) := by
    intro u hu
    rw [List.mem_append, List.mem_append, List.mem_singleton] at hu
    rcases hu with (hu | hu) | hu
    · right
      refine ⟨?_, Or.inl (tlo.mem u hu).2.2⟩
      rw [hlo] at hu; split_ifs at hu
      · rw [List.mem_singleton.mp hu]
      · simp at hu
    · exact Or.inl hu
    · right
      refine ⟨?_, Or.inr (thi.mem u hu).1⟩
      rw [hhi] at hu; split_ifs at hu
      · rw [List.mem_singleton.mp hu]
      · simp at hu
  rw [e]
  refine ⟨⟨?_, ?_, ?_, ?_⟩, ?_, ?_⟩
  · exact Tiles.append (Tiles.append tlo ⟨rfl, h2, rfl⟩) thi
  · intro u hu p hp hm
    rw [List.mem_singleton.mp hp] at hm ⊢
    rcases mem u hu with rfl | ⟨-, h⟩
    · exact le_refl _
    · exact absurd h hm
  · intro u hu
    rcases mem u hu with rfl | ⟨h, -⟩
    · exact Or.inr ⟨a, List.mem_singleton.mpr rfl, rfl, le_refl _⟩
    · exact Or.inl h
  · intro u hu p hp hm
    rw [List.mem_singleton.mp hp] at hm ⊢
    rcases mem u hu with rfl | ⟨-, h⟩
    · exact ⟨_, rfl, fun _ => le_refl _⟩
    · exact absurd h hm
  · rw [hlo]; split_ifs <;> rfl
  · dsimp only
    have elo : skyArea lo = 0 := by rw [hlo]; split_ifs <;> simp [skyArea]
    have ehi : skyArea hi = 0 := by rw [hhi]; split_ifs <;> simp [skyArea]
    rw [skyArea_append, skyArea_append, elo, ehi, skyArea_cons]
    simp [skyArea, newUncovered]

/-- Items that share a row with a new item end before it. -/
theorem row_clear (h : Sky J b L us) {y ye x : Int} (h1 : 0 ≤ y) (h3 : ye ≤ (J.binType b).y)
    (over : ∀ u ∈ us, u.Meets y ye → u.xe ≤ x) {p : PlacedItem} (hp : p ∈ L)
    (hy : p.y < ye) (hy' : y < upperEnd J p) (hh : p.y < upperEnd J p) (hye : y < ye) :
    rightEnd J p ≤ x ∧ ∃ u ∈ us, u.Meets y ye ∧ u.Meets p.y (upperEnd J p) := by
  obtain ⟨u, hu, hu1, hu2⟩ := h.tiles.lookup (y := max p.y y) (by omega) (by omega)
  have m1 : u.Meets p.y (upperEnd J p) := by unfold UncoveredItem.Meets; omega
  have m2 : u.Meets y ye := by unfold UncoveredItem.Meets; omega
  exact ⟨le_trans (h.cover u hu p hp m1) (over u hu m2), u, hu, m2, m1⟩

/-- The skyline after an insertion in the same bin. -/
theorem sky_same (h : Sky J b L us) (hL : ∀ p ∈ L, p.y < upperEnd J p)
    (h1 : 0 ≤ a.y) (h2 : a.y < upperEnd J a) (h3 : upperEnd J a ≤ (J.binType b).y)
    (hw : a.x ≤ rightEnd J a)
    (over : ∀ u ∈ us, u.Meets a.y (upperEnd J a) → u.xe ≤ a.x)
    (hu : J.parameters.unloadingConstraint = .onlyXMovements →
      ∀ u ∈ us, u.Meets a.y (upperEnd J a) → ∀ i, u.itemTypeId = some i →
        groupOf J a ≤ (J.itemType i).groupId) :
    sameBinSkyline us (newUncovered J a)
        = (below us a.y ++ [newUncovered J a] ++ above us (upperEnd J a), some (below us a.y).length)
    ∧ Sky J b (L ++ [a]) (below us a.y ++ [newUncovered J a] ++ above us (upperEnd J a))
    ∧ skyArea us + (rightEnd J a - a.x) * (upperEnd J a - a.y)
        ≤ skyArea (below us a.y ++ [newUncovered J a] ++ above us (upperEnd J a)) := by
  have hmem : ∀ v ∈ below us a.y ++ [newUncovered J a] ++ above us (upperEnd J a),
      v = newUncovered J a ∨ (¬ v.Meets a.y (upperEnd J a)
        ∧ ∃ u ∈ us, v.itemTypeId = u.itemTypeId ∧ v.xe = u.xe ∧ u.ys ≤ v.ys ∧ v.ye ≤ u.ye) := by
    intro v hv
    rw [List.mem_append, List.mem_append, List.mem_singleton] at hv
    rcases hv with (hv | hv) | hv
    · obtain ⟨u, hu, e1, -, e2, e3, e4, e5⟩ := mem_below hv
      refine Or.inr ⟨?_, u, hu, e1, e2, by omega, by omega⟩
      unfold UncoveredItem.Meets; omega
    · exact Or.inl hv
    · obtain ⟨u, hu, e1, -, e2, e3, e4, e5⟩ := mem_above hv
      refine Or.inr ⟨?_, u, hu, e1, e2, by omega, by omega⟩
      unfold UncoveredItem.Meets; omega
  have hmeets : ∀ (v u : UncoveredItem) (y ye : Int), u.ys ≤ v.ys → v.ye ≤ u.ye → v.Meets y ye →
      u.Meets y ye := by
    intro v u y ye h1 h2 h3
    unfold UncoveredItem.Meets at h3 ⊢; omega
  refine ⟨?_, ⟨?_, ?_, ?_, ?_⟩, ?_⟩
  · exact sameBinSkyline_eq h.tiles h1 (show a.y < (J.binType b).y by omega) h2
  · exact tiles_sameBin (new := newUncovered J a) h.tiles h1 h3 h2
  · intro v hv p hp hm
    rcases hmem v hv with rfl | ⟨hn, u, hu, -, e2, e3, e4⟩
    · rcases List.mem_append.mp hp with hp | hp
      · have hm' : p.y < upperEnd J a ∧ a.y < upperEnd J p := by
          unfold UncoveredItem.Meets newUncovered at hm; dsimp only at hm; omega
        exact le_trans (row_clear h h1 h3 over hp hm'.1 hm'.2 (hL p hp) h2).1 hw
      · rw [List.mem_singleton.mp hp]; exact le_refl _
    · rcases List.mem_append.mp hp with hp | hp
      · rw [e2]; exact h.cover u hu p hp (hmeets v u _ _ e3 e4 hm)
      · rw [List.mem_singleton.mp hp] at hm; exact absurd hm hn
  · intro v hv
    rcases hmem v hv with rfl | ⟨hn, u, hu, -, e2, e3, e4⟩
    · exact Or.inr ⟨a, by simp, rfl, le_refl _⟩
    · rw [e2]
      rcases h.attained u hu with h0 | ⟨p, hp, h0, h0'⟩
      · exact Or.inl h0
      · exact Or.inr ⟨p, List.mem_append_left _ hp, h0, by omega⟩
  · intro v hv p hp hm
    rcases hmem v hv with rfl | ⟨hn, u, hu, e1, -, e3, e4⟩
    · refine ⟨a.itemTypeId, rfl, fun hc => ?_⟩
      rcases List.mem_append.mp hp with hp | hp
      · have hm' : p.y < upperEnd J a ∧ a.y < upperEnd J p := by
          unfold UncoveredItem.Meets newUncovered at hm; dsimp only at hm; omega
        obtain ⟨-, u, hu', m1, m2⟩ := row_clear h h1 h3 over hp hm'.1 hm'.2 (hL p hp) h2
        obtain ⟨i, hi, hg⟩ := h.item u hu' p hp m2
        exact le_trans (hu hc u hu' m1 i hi) (hg hc)
      · rw [List.mem_singleton.mp hp]; exact le_refl _
    · rcases List.mem_append.mp hp with hp | hp
      · rw [e1]; exact h.item u hu p hp (hmeets v u _ _ e3 e4 hm)
      · rw [List.mem_singleton.mp hp] at hm; exact absurd hm hn
  · have := area_cut h2 h.tiles h1 h3 over
    rw [skyArea_append, skyArea_append, skyArea_cons]
    have e : skyArea ([] : List UncoveredItem) = 0 := rfl
    have e' : rightEnd J a * (upperEnd J a - a.y)
        = a.x * (upperEnd J a - a.y) + (rightEnd J a - a.x) * (upperEnd J a - a.y) := by ring
    unfold newUncovered
    dsimp only
    linarith

/-! ### Resources -/

/-- The counters of the last bin are exact. -/
structure Res (J : Instance) (b : Nat) (L : List PlacedItem) (copies : List Nat)
    (cons : List ℚ) : Prop where
  copiesLen : copies.length = J.numberOfItemTypes
  copies : ∀ i, i < J.numberOfItemTypes → copies.getD i 0 = (count L i).toNat
  consLen : cons.length = (J.binType b).resources.length
  cons : ∀ r, r < (J.binType b).resources.length →
    cons.getD r 0 = consumption J (resAt (J.binType b) r) L

theorem res_nil (J : Instance) (b : Nat) : Res J b [] (List.replicate J.numberOfItemTypes 0)
    (List.replicate (J.binType b).resources.length 0) := by
  refine ⟨by simp, ?_, by simp, ?_⟩
  · intro i hi; simp [List.getD_eq_getElem?_getD, hi, count]
  · intro r hr; simp [consumption_nil, List.getD_eq_getElem?_getD, hr]

theorem sameBinResourceStep_eq (bt : BinType) (item copy : Nat) (st : ResourceState) (f : Bool)
    (r : Nat) :
    (sameBinResourceStep bt item copy st r).consumption
        = (resourceStep bt item copy ⟨st.consumption, st.profit, f⟩ r).consumption
    ∧ (sameBinResourceStep bt item copy st r).profit
        = (resourceStep bt item copy ⟨st.consumption, st.profit, f⟩ r).itemProfit := by
  unfold sameBinResourceStep resourceStep
  dsimp only
  generalize bt.resources.getD r {} = res
  generalize (addAtQ st.consumption r (res.itemConsumption item copy)).getD r 0 = c
  generalize st.consumption.getD r 0 = d
  by_cases h1 : c > res.capacity
  · by_cases h2 : res.penalize = true
    · by_cases h3 : d ≤ res.capacity
      · rw [if_pos h1, if_pos h2, if_pos h3]; simp [h1, h2, h3]
      · rw [if_pos h1, if_pos h2, if_neg h3]; simp [h3]
    · rw [if_pos h1, if_neg h2]; simp [h2]
  · rw [if_neg h1]; simp [h1]

theorem sameBinFold_eq (bt : BinType) (item copy : Nat) (ids : List Nat) :
    ∀ (st : ResourceState) (f : Bool),
    (ids.foldl (sameBinResourceStep bt item copy) st).consumption
        = (ids.foldl (resourceStep bt item copy) ⟨st.consumption, st.profit, f⟩).consumption
    ∧ (ids.foldl (sameBinResourceStep bt item copy) st).profit
        = (ids.foldl (resourceStep bt item copy) ⟨st.consumption, st.profit, f⟩).itemProfit := by
  induction ids with
  | nil => intro st f; exact ⟨rfl, rfl⟩
  | cons r ids ih =>
    intro st f
    rw [List.foldl_cons, List.foldl_cons]
    obtain ⟨e1, e2⟩ := sameBinResourceStep_eq bt item copy st f r
    have := ih (sameBinResourceStep bt item copy st r)
      (resourceStep bt item copy ⟨st.consumption, st.profit, f⟩ r).resourceFeasible
    rw [e1, e2] at this
    exact this

theorem newBinFold_eq (bt : BinType) (item : Nat) (ids : List Nat) (hnd : ids.Nodup) :
    ∀ (st : ResourceState), (∀ r ∈ ids, r < st.consumption.length ∧ st.consumption.getD r 0 = 0) →
    (ids.foldl (newBinResourceStep bt item) st).consumption
        = (ids.foldl (sameBinResourceStep bt item 0) st).consumption
    ∧ ((∀ r ∈ ids, 0 ≤ (resAt bt r).capacity) →
      (ids.foldl (newBinResourceStep bt item) st).profit
        = (ids.foldl (sameBinResourceStep bt item 0) st).profit) := by
  induction ids with
  | nil => intro st _; exact ⟨rfl, fun _ => rfl⟩
  | cons r ids ih =>
    intro st h
    rw [List.nodup_cons] at hnd
    obtain ⟨hr, hz⟩ := h r List.mem_cons_self
    have hz' : st.consumption[r] = 0 := by
      rwa [List.getD_eq_getElem _ _ hr] at hz
    have ec : st.consumption.set r ((resAt bt r).itemConsumption item 0)
        = addAtQ st.consumption r ((resAt bt r).itemConsumption item 0) := by
      unfold addAtQ
      rw [List.modify_eq_set_getElem?, List.getElem?_eq_getElem hr]
      simp [hz']
    have e1 : (newBinResourceStep bt item st r).consumption
        = (sameBinResourceStep bt item 0 st r).consumption := by
      unfold newBinResourceStep sameBinResourceStep; exact ec
    have e2 : 0 ≤ (resAt bt r).capacity → newBinResourceStep bt item st r
        = sameBinResourceStep bt item 0 st r := by
      intro hc
      unfold newBinResourceStep sameBinResourceStep
      dsimp only
      rw [ec, addAtQ_getD _ _ _ _ hr, if_pos rfl, hz, zero_add, decide_eq_true hc, Bool.and_true]
    have hl : ∀ q ∈ ids, q < (newBinResourceStep bt item st r).consumption.length
        ∧ (newBinResourceStep bt item st r).consumption.getD q 0 = 0 := by
      intro q hq
      obtain ⟨hq1, hq2⟩ := h q (List.mem_cons_of_mem _ hq)
      have hne : r ≠ q := fun e => hnd.1 (e ▸ hq)
      rw [e1]
      unfold sameBinResourceStep
      dsimp only
      rw [addAtQ_length, addAtQ_getD _ _ _ _ hq1, if_neg hne, hq2]
      exact ⟨hq1, by simp⟩
    rw [List.foldl_cons, List.foldl_cons]
    constructor
    · rw [(ih hnd.2 _ hl).1, (sameBinFold_eq bt item 0 ids _ true).1,
        (sameBinFold_eq bt item 0 ids _ true).1, e1]
      have : ∀ (l : List Nat) (c : List ℚ) (p q : ℚ),
          (l.foldl (resourceStep bt item 0) ⟨c, p, true⟩).consumption
            = (l.foldl (resourceStep bt item 0) ⟨c, q, true⟩).consumption := by
        intro l
        suffices hs : ∀ (s t : ResourceLoop), s.consumption = t.consumption →
            (l.foldl (resourceStep bt item 0) s).consumption
              = (l.foldl (resourceStep bt item 0) t).consumption from fun c p q => hs _ _ rfl
        induction l with
        | nil => intro s t h; exact h
        | cons x l ihl =>
          intro s t h
          exact ihl _ _ (by rw [resourceStep_consumption, resourceStep_consumption, h])
      exact this _ _ _ _
    · intro hc
      rw [(ih hnd.2 _ hl).2 (fun q hq => hc q (List.mem_cons_of_mem _ hq)),
        e2 (hc r List.mem_cons_self)]

/-- The counters after one more item, in the same bin. -/
theorem res_step {copies : List Nat} {cons : List ℚ} {profit : ℚ} (h : Res J b L copies cons)
    (hb : b < J.numberOfBinTypes) (hR : ResourceIdsOk J) (ha : a.itemTypeId < J.numberOfItemTypes) :
    Res J b (L ++ [a]) (copies.modify a.itemTypeId (· + 1))
      (((J.itemType a.itemTypeId).resourceIds.getD b []).foldl
        (sameBinResourceStep (J.binType b) a.itemTypeId (copies.getD a.itemTypeId 0))
        ⟨cons, profit⟩).consumption := by
  have hids := hR a.itemTypeId ha b hb
  refine ⟨by simpa using h.copiesLen, ?_, ?_, ?_⟩
  · intro i hi
    rw [modifyNat_getD _ _ _ (by rw [h.copiesLen]; exact hi), h.copies i hi, count_snoc]
    have := count_nonneg L i
    split_ifs <;> omega
  · rw [(sameBinFold_eq _ _ _ _ _ true).1, resourceFold_length]
    exact h.consLen
  · intro r hr
    rw [(sameBinFold_eq _ _ _ _ _ true).1,
      resourceFold_consumption _ _ _ _ hids.1 _ _ (by simpa [h.consLen] using hr),
      consumption_snoc _ _ _ _ ha, h.copies _ ha]
    dsimp only
    rw [h.cons r hr]
    congr 1
    by_cases hm : r ∈ (J.itemType a.itemTypeId).resourceIds.getD b []
    · rw [if_pos hm]
    · rw [if_neg hm]
      have := mt (hids.2 r).mpr hm
      have he : (resAt (J.binType b) r).itemConsumptions.getD a.itemTypeId [] = [] := by
        by_contra hne; exact this ⟨hr, hne⟩
      rw [itemConsumption_of_empty _ _ _ he]

/-- Hard resources within capacity at every point, up to the tolerance. -/
def HardOk (J : Instance) (b : Nat) (L : List PlacedItem) : Prop :=
  ∀ r ∈ (J.binType b).resources, r.penalize = false →
    ∀ p, p <+: L → consumption J r p ≤ r.capacity * pstol

theorem hardOk_nil (hb : b < J.numberOfBinTypes) (hc : CapacitiesNonneg J) : HardOk J b [] := by
  intro r hr _ p hp
  rw [List.prefix_nil.mp hp, consumption_nil]
  have h1 : J.binType b ∈ J.binTypes := by
    unfold Instance.binType
    rw [List.getD_eq_getElem _ _ hb]
    exact List.getElem_mem hb
  have := hc _ h1 r hr
  unfold pstol
  positivity

theorem hardOk_step (h : HardOk J b L) (hb : b < J.numberOfBinTypes) (hR : ResourceIdsOk J)
    (ha : a.itemTypeId < J.numberOfItemTypes)
    (hk : ∀ r ∈ (J.itemType a.itemTypeId).resourceIds.getD b [],
      (resAt (J.binType b) r).penalize = false →
      consumption J (resAt (J.binType b) r) (L ++ [a]) ≤ (resAt (J.binType b) r).capacity * pstol) :
    HardOk J b (L ++ [a]) := by
  have hids := hR a.itemTypeId ha b hb
  intro r hr hpen p hp
  rcases prefix_snoc.mp hp with hp | rfl
  · exact h r hr hpen p hp
  · obtain ⟨n, hn, rfl⟩ := List.mem_iff_getElem.mp hr
    have e : resAt (J.binType b) n = (J.binType b).resources[n] := List.getD_eq_getElem _ _ hn
    by_cases hm : n ∈ (J.itemType a.itemTypeId).resourceIds.getD b []
    · have := hk n hm (by rw [e]; exact hpen)
      rwa [e] at this
    · have he : (resAt (J.binType b) n).itemConsumptions.getD a.itemTypeId [] = [] := by
        by_contra hne; exact hm ((hids.2 n).mpr ⟨hn, hne⟩)
      rw [consumption_snoc _ _ _ _ ha, ← e, itemConsumption_of_empty _ _ _ he, add_zero, e]
      exact h _ hr hpen L (List.prefix_refl L)

/-! ### Groups -/

/-- What the groups of a node say about the last bin. -/
structure Grp (J : Instance) (L : List PlacedItem) (groups : List NodeGroup) : Prop where
  length : groups.length = J.numberOfGroups
  weight : 0 < J.numberOfGroups → (groups.getD 0 {}).lastBinWeight = binWeight J L
  bounds : J.parameters.unloadingConstraint = .increasingX → ∀ p ∈ L,
    (groups.getD (groupOf J p) {}).xMin ≤ p.x ∧ p.x ≤ (groups.getD (groupOf J p) {}).xMax

/-- What the axle weights do not change. -/
def gcore (g : NodeGroup) : NodeGroup :=
  { g with lastBinMiddleAxleWeight := 0, lastBinRearAxleWeight := 0 }

theorem axle_core (J : Instance) (bt : BinType) (l : List Nat) : ∀ st : AxleState,
    (l.foldl (axleStep J bt) st).groups.map gcore = st.groups.map gcore := by
  induction l with
  | nil => intro st; rfl
  | cons g l ih =>
    intro st
    rw [List.foldl_cons, ih]
    unfold axleStep
    dsimp only
    split_ifs
    · rfl
    · rfl
    all_goals
      dsimp only
      apply List.ext_getElem
      · simp
      · intro i h1 h2
        simp only [List.getElem_map, List.getElem_set]
        split_ifs with hi
        · subst hi
          have h3 : g < st.groups.length := by simpa using h2
          rw [List.getD_eq_getElem _ _ h3]
          rfl
        · rfl

theorem gcore_getD {l l' : List NodeGroup} (h : l.map gcore = l'.map gcore) (g : Nat) :
    (l.getD g {}).lastBinWeight = (l'.getD g {}).lastBinWeight
    ∧ (l.getD g {}).xMin = (l'.getD g {}).xMin ∧ (l.getD g {}).xMax = (l'.getD g {}).xMax := by
  have h1 : gcore (l.getD g {}) = gcore (l'.getD g {}) := by
    have e : ∀ l : List NodeGroup, gcore (l.getD g {}) = (l.map gcore).getD g {} := by
      intro l
      rw [List.getD_eq_getElem?_getD, List.getD_eq_getElem?_getD, List.getElem?_map]
      cases l[g]? <;> rfl
    rw [e, e, h]
  unfold gcore at h1
  simp only [NodeGroup.mk.injEq] at h1
  exact ⟨h1.2.2.2.1, h1.2.1, h1.2.2.1⟩

/-- The groups of a child. -/
def childGroups (J : Instance) (bt : BinType) (parent : Node) (newBin : Bool) (a : PlacedItem) :
    List NodeGroup :=
  childGroupBounds J ((List.range J.numberOfGroups).foldl (axleStep J bt)
    { groups := childGroupWeights parent newBin (J.itemType a.itemTypeId) a.x (rightEnd J a) }).groups
    (J.itemType a.itemTypeId).groupId a.x

theorem getD_modify {l : List NodeGroup} {g : Nat} {f : NodeGroup → NodeGroup} (h : Nat)
    (hg : h < l.length) : (l.modify g f).getD h {} = if g = h then f (l.getD h {}) else l.getD h {} := by
  rw [List.getD_eq_getElem?_getD, List.getElem?_modify, List.getElem?_eq_getElem hg,
    List.getD_eq_getElem _ _ hg]
  split_ifs <;> rfl

theorem childGroups_length {bt : BinType} {parent : Node} {newBin : Bool} :
    (childGroups J bt parent newBin a).length = parent.groups.length := by
  unfold childGroups childGroupBounds
  rw [List.length_modify]
  have := congrArg List.length (axle_core J bt (List.range J.numberOfGroups)
    { groups := childGroupWeights parent newBin (J.itemType a.itemTypeId) a.x (rightEnd J a) })
  simpa [childGroupWeights] using this

theorem childGroups_getD {bt : BinType} {parent : Node} {newBin : Bool} (g : Nat)
    (hg : g < parent.groups.length) :
    ((childGroups J bt parent newBin a).getD g {}).lastBinWeight
      = (if newBin then 0 else (parent.groups.getD g {}).lastBinWeight)
        + (if g ≤ (J.itemType a.itemTypeId).groupId then (J.itemType a.itemTypeId).weight else 0)
    ∧ (J.parameters.unloadingConstraint = .increasingX →
      ((childGroups J bt parent newBin a).getD g {}).xMin
        = (if (J.itemType a.itemTypeId).groupId = g then min (parent.groups.getD g {}).xMin a.x
          else (parent.groups.getD g {}).xMin)
      ∧ ((childGroups J bt parent newBin a).getD g {}).xMax
        = (if (J.itemType a.itemTypeId).groupId = g then max (parent.groups.getD g {}).xMax a.x
          else (parent.groups.getD g {}).xMax)) := by
  set W := childGroupWeights parent newBin (J.itemType a.itemTypeId) a.x (rightEnd J a) with hW
  have hc := axle_core J bt (List.range J.numberOfGroups) { groups := W }
  set A := ((List.range J.numberOfGroups).foldl (axleStep J bt) { groups := W }).groups with hA
  have hWl : W.length = parent.groups.length := by rw [hW]; simp [childGroupWeights]
  have hAl : A.length = parent.groups.length := by
    have := congrArg List.length hc
    simpa [hWl] using this
  obtain ⟨e1, e2, e3⟩ := gcore_getD hc g
  have eW : W.getD g {} = (fun group : NodeGroup =>
      let group := if newBin then { group with lastBinWeight := 0, lastBinWeightWeightedSum := 0 }
        else group
      if g ≤ (J.itemType a.itemTypeId).groupId then { group with
          lastBinWeight := group.lastBinWeight + (J.itemType a.itemTypeId).weight
          lastBinWeightWeightedSum := group.lastBinWeightWeightedSum
            + moment a.x (rightEnd J a) (J.itemType a.itemTypeId).weight }
      else group) (parent.groups.getD g {}) := by
    rw [List.getD_eq_getElem _ _ hg, List.getD_eq_getElem _ _ (by omega)]
    simp only [hW, childGroupWeights, List.getElem_mapIdx]
  have hfin : (childGroups J bt parent newBin a).getD g {}
      = if (J.itemType a.itemTypeId).groupId = g then (fun group : NodeGroup =>
          let group := if J.parameters.unloadingConstraint = .increasingX then
              { group with
                xMin := if group.xMin > a.x then a.x else group.xMin
                xMax := if group.xMax < a.x then a.x else group.xMax }
            else group
          { group with numberOfItems := group.numberOfItems + 1 }) (A.getD g {})
        else A.getD g {} := by
    unfold childGroups childGroupBounds
    exact getD_modify (l := A) g (by omega)
  have hWw : (W.getD g {}).lastBinWeight
      = (if newBin then 0 else (parent.groups.getD g {}).lastBinWeight)
        + (if g ≤ (J.itemType a.itemTypeId).groupId then (J.itemType a.itemTypeId).weight else 0) := by
    rw [eW]; dsimp only
    cases newBin <;> by_cases hgi : g ≤ (J.itemType a.itemTypeId).groupId <;> simp [hgi]
  have hWmin : (W.getD g {}).xMin = (parent.groups.getD g {}).xMin := by
    rw [eW]; dsimp only
    cases newBin <;> by_cases hgi : g ≤ (J.itemType a.itemTypeId).groupId <;> simp [hgi]
  have hWmax : (W.getD g {}).xMax = (parent.groups.getD g {}).xMax := by
    rw [eW]; dsimp only
    cases newBin <;> by_cases hgi : g ≤ (J.itemType a.itemTypeId).groupId <;> simp [hgi]
  rw [hfin]
  constructor
  · rw [← hWw, ← e1]
    by_cases hgi : (J.itemType a.itemTypeId).groupId = g
    · rw [if_pos hgi]; dsimp only
      by_cases hu : J.parameters.unloadingConstraint = .increasingX <;> simp [hu, hA]
    · rw [if_neg hgi]
  · intro hu
    rw [← hWmin, ← hWmax, ← e2, ← e3]
    by_cases hgi : (J.itemType a.itemTypeId).groupId = g
    · rw [if_pos hgi, if_pos hgi, if_pos hgi]
      dsimp only
      rw [if_pos hu]
      dsimp only
      constructor
      · rw [min_def]; split_ifs <;> omega
      · rw [max_def]; split_ifs <;> omega
    · rw [if_neg hgi, if_neg hgi, if_neg hgi]
      exact ⟨rfl, rfl⟩

theorem binWeight_snoc (J : Instance) (L : List PlacedItem) (a : PlacedItem) :
    binWeight J (L ++ [a]) = binWeight J L + (J.itemType a.itemTypeId).weight := by
  simp [binWeight]

/-- The groups after one more item. -/
theorem grp_step {bt : BinType} {parent : Node} {newBin : Bool}
    (hl : parent.groups.length = J.numberOfGroups)
    (h : newBin = false → Grp J L parent.groups) (hL : newBin = true → L = [])
    (hg : (J.itemType a.itemTypeId).groupId < J.numberOfGroups)
    (hLg : ∀ p ∈ L, groupOf J p < J.numberOfGroups) :
    Grp J (L ++ [a]) (childGroups J bt parent newBin a) := by
  refine ⟨by rw [childGroups_length, hl], ?_, ?_⟩
  · intro h0
    rw [(childGroups_getD (J := J) (a := a) (bt := bt) (parent := parent) (newBin := newBin) 0
      (by omega)).1, binWeight_snoc, if_pos (Nat.zero_le _)]
    congr 1
    cases newBin with
    | true => rw [hL rfl]; simp [binWeight]
    | false => simpa using (h rfl).weight h0
  · intro hu p hp
    have hgp : groupOf J p < J.numberOfGroups := by
      rcases List.mem_append.mp hp with hp | hp
      · exact hLg p hp
      · rw [List.mem_singleton.mp hp]; exact hg
    obtain ⟨e2, e3⟩ := (childGroups_getD (J := J) (a := a) (bt := bt) (parent := parent)
      (newBin := newBin) (groupOf J p) (by omega)).2 hu
    rw [e2, e3]
    rcases List.mem_append.mp hp with hp | hp
    · cases newBin with
      | true => rw [hL rfl] at hp; simp at hp
      | false =>
        have := (h rfl).bounds hu p hp
        split_ifs <;> omega
    · rw [List.mem_singleton.mp hp]
      unfold groupOf
      rw [if_pos rfl, if_pos rfl]
      omega

end PackingSolver.Rect.TreeSearch
