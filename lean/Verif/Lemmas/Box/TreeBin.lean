import Verif.Lemmas.Box.TreeFace
import Verif.Lemmas.Box.Unflip

/-! Helper lemmas: resources of the last bin of a node of the box branching scheme. -/

namespace PackingSolver.Box.TreeSearch

open Box.Spec
open PackingSolver.OneDim (itemConsumption_of_empty itemConsumption_nonneg prefix_snoc)

variable {J : Instance} {b : Nat} {L : List PlacedItem} {a : PlacedItem}

/-- The counters of the last bin are exact. -/
structure Res (J : Instance) (b : Nat) (L : List PlacedItem) (copies : List Nat)
    (cons : List ℚ) : Prop where
  copiesLen : copies.length = J.numberOfItemTypes
  copies : ∀ i, i < J.numberOfItemTypes → copies.getD i 0 = (count L i).toNat
  consLen : cons.length = (J.binType b).resources.length
  cons : ∀ r, r < (J.binType b).resources.length →
    cons.getD r 0 = consumption J (resAt (J.binType b) r) L

theorem res_nil (J : Instance) (b : Nat) : Res J b [] (List.replicate J.numberOfItemTypes 0)
    (List.replicate (J.binType b).resources.length 0) := by
  refine ⟨by simp, ?_, by simp, ?_⟩
  · intro i hi; simp [List.getD_eq_getElem?_getD, hi, count]
  · intro r hr; simp [consumption_nil, List.getD_eq_getElem?_getD, hr]

theorem sameBinResourceStep_eq (bt : BinType) (item copy : Nat) (st : ResourceState) (f : Bool)
    (r : Nat) :
    (sameBinResourceStep bt item copy st r).consumption
        = (resourceStep bt item copy ⟨st.consumption, st.profit, f⟩ r).consumption
    ∧ (sameBinResourceStep bt item copy st r).profit
        = (resourceStep bt item copy ⟨st.consumption, st.profit, f⟩ r).itemProfit := by
  unfold sameBinResourceStep resourceStep
  dsimp only
  generalize bt.resources.getD r {} = res
  generalize (addAtQ st.consumption r (res.itemConsumption item copy)).getD r 0 = c
  generalize st.consumption.getD r 0 = d
  by_cases h1 : c > res.capacity
  · by_cases h2 : res.penalize = true
    · by_cases h3 : d ≤ res.capacity
      · rw [if_pos h1, if_pos h2, if_pos h3]; simp [h1, h2, h3]
      · rw [if_pos h1, if_pos h2, if_neg h3]; simp [h3]
    · rw [if_pos h1, if_neg h2]; simp [h2]
  · rw [if_neg h1]; simp [h1]

theorem sameBinFold_eq (bt : BinType) (item copy : Nat) (ids : List Nat) :
    ∀ (st : ResourceState) (f : Bool),
    (ids.foldl (sameBinResourceStep bt item copy) st).consumption
        = (ids.foldl (resourceStep bt item copy) ⟨st.consumption, st.profit, f⟩).consumption
    ∧ (ids.foldl (sameBinResourceStep bt item copy) st).profit
        = (ids.foldl (resourceStep bt item copy) ⟨st.consumption, st.profit, f⟩).itemProfit := by
  induction ids with
  | nil => intro st f; exact ⟨rfl, rfl⟩
  | cons r ids ih =>
    intro st f
    rw [List.foldl_cons, List.foldl_cons]
    obtain ⟨e1, e2⟩ := sameBinResourceStep_eq bt item copy st f r
    have := ih (sameBinResourceStep bt item copy st r)
      (resourceStep bt item copy ⟨st.consumption, st.profit, f⟩ r).resourceFeasible
    rw [e1, e2] at this
    exact this

theorem newBinFold_eq (bt : BinType) (item : Nat) (ids : List Nat) (hnd : ids.Nodup) :
    ∀ (st : ResourceState), (∀ r ∈ ids, r < st.consumption.length ∧ st.consumption.getD r 0 = 0) →
    (ids.foldl (newBinResourceStep bt item) st).consumption
        = (ids.foldl (sameBinResourceStep bt item 0) st).consumption
    ∧ ((∀ r ∈ ids, 0 ≤ (resAt bt r).capacity) →
      (ids.foldl (newBinResourceStep bt item) st).profit
        = (ids.foldl (sameBinResourceStep bt item 0) st).profit) := by
  induction ids with
  | nil => intro st _; exact ⟨rfl, fun _ => rfl⟩
  | cons r ids ih =>
    intro st h
    rw [List.nodup_cons] at hnd
    obtain ⟨hr, hz⟩ := h r List.mem_cons_self
    have hz' : st.consumption[r] = 0 := by
      rwa [List.getD_eq_getElem _ _ hr] at hz
    have ec : st.consumption.set r ((resAt bt r).itemConsumption item 0)
        = addAtQ st.consumption r ((resAt bt r).itemConsumption item 0) := by
      unfold addAtQ
      rw [List.modify_eq_set_getElem?, List.getElem?_eq_getElem hr]
      simp [hz']
    have e1 : (newBinResourceStep bt item st r).consumption
        = (sameBinResourceStep bt item 0 st r).consumption := by
      unfold newBinResourceStep sameBinResourceStep; exact ec
    have e2 : 0 ≤ (resAt bt r).capacity → newBinResourceStep bt item st r
        = sameBinResourceStep bt item 0 st r := by
      intro hc
      unfold newBinResourceStep sameBinResourceStep
      dsimp only
      rw [ec, addAtQ_getD _ _ _ _ hr, if_pos rfl, hz, zero_add, decide_eq_true hc, Bool.and_true]
    have hl : ∀ q ∈ ids, q < (newBinResourceStep bt item st r).consumption.length
        ∧ (newBinResourceStep bt item st r).consumption.getD q 0 = 0 := by
      intro q hq
      obtain ⟨hq1, hq2⟩ := h q (List.mem_cons_of_mem _ hq)
      have hne : r ≠ q := fun e => hnd.1 (e ▸ hq)
      rw [e1]
      unfold sameBinResourceStep
      dsimp only
      rw [addAtQ_length, addAtQ_getD _ _ _ _ hq1, if_neg hne, hq2]
      exact ⟨hq1, by simp⟩
    rw [List.foldl_cons, List.foldl_cons]
    constructor
    · rw [(ih hnd.2 _ hl).1, (sameBinFold_eq bt item 0 ids _ true).1,
        (sameBinFold_eq bt item 0 ids _ true).1, e1]
      have : ∀ (l : List Nat) (c : List ℚ) (p q : ℚ),
          (l.foldl (resourceStep bt item 0) ⟨c, p, true⟩).consumption
            = (l.foldl (resourceStep bt item 0) ⟨c, q, true⟩).consumption := by
        intro l
        suffices hs : ∀ (s t : ResourceLoop), s.consumption = t.consumption →
            (l.foldl (resourceStep bt item 0) s).consumption
              = (l.foldl (resourceStep bt item 0) t).consumption from fun c p q => hs _ _ rfl
        induction l with
        | nil => intro s t h; exact h
        | cons x l ihl =>
          intro s t h
          exact ihl _ _ (by rw [resourceStep_consumption, resourceStep_consumption, h])
      exact this _ _ _ _
    · intro hc
      rw [(ih hnd.2 _ hl).2 (fun q hq => hc q (List.mem_cons_of_mem _ hq)),
        e2 (hc r List.mem_cons_self)]

/-- The counters after one more item, in the same bin. -/
theorem res_step {copies : List Nat} {cons : List ℚ} {profit : ℚ} (h : Res J b L copies cons)
    (hb : b < J.numberOfBinTypes) (hR : ResourceIdsOk J) (ha : a.itemTypeId < J.numberOfItemTypes) :
    Res J b (L ++ [a]) (copies.modify a.itemTypeId (· + 1))
      (((J.itemType a.itemTypeId).resourceIds.getD b []).foldl
        (sameBinResourceStep (J.binType b) a.itemTypeId (copies.getD a.itemTypeId 0))
        ⟨cons, profit⟩).consumption := by
  have hids := hR a.itemTypeId ha b hb
  refine ⟨by simpa using h.copiesLen, ?_, ?_, ?_⟩
  · intro i hi
    rw [modifyNat_getD _ _ _ (by rw [h.copiesLen]; exact hi), h.copies i hi, count_snoc]
    have := count_nonneg L i
    split_ifs <;> omega
  · rw [(sameBinFold_eq _ _ _ _ _ true).1, resourceFold_length]
    exact h.consLen
  · intro r hr
    rw [(sameBinFold_eq _ _ _ _ _ true).1,
      resourceFold_consumption _ _ _ _ hids.1 _ _ (by simpa [h.consLen] using hr),
      consumption_snoc _ _ _ _ ha, h.copies _ ha]
    dsimp only
    rw [h.cons r hr]
    congr 1
    by_cases hm : r ∈ (J.itemType a.itemTypeId).resourceIds.getD b []
    · rw [if_pos hm]
    · rw [if_neg hm]
      have := mt (hids.2 r).mpr hm
      have he : (resAt (J.binType b) r).itemConsumptions.getD a.itemTypeId [] = [] := by
        by_contra hne; exact this ⟨hr, hne⟩
      rw [itemConsumption_of_empty _ _ _ he]

/-- Hard resources within capacity at every point, up to the tolerance. -/
def HardOk (J : Instance) (b : Nat) (L : List PlacedItem) : Prop :=
  ∀ r ∈ (J.binType b).resources, r.penalize = false →
    ∀ p, p <+: L → consumption J r p ≤ r.capacity * pstol

theorem hardOk_nil (hb : b < J.numberOfBinTypes) (hc : CapacitiesNonneg J) : HardOk J b [] := by
  intro r hr _ p hp
  rw [List.prefix_nil.mp hp, consumption_nil]
  have h1 : J.binType b ∈ J.binTypes := by
    unfold Instance.binType
    rw [List.getD_eq_getElem _ _ hb]
    exact List.getElem_mem hb
  have := hc _ h1 r hr
  unfold pstol
  positivity

theorem hardOk_step (h : HardOk J b L) (hb : b < J.numberOfBinTypes) (hR : ResourceIdsOk J)
    (ha : a.itemTypeId < J.numberOfItemTypes)
    (hk : ∀ r ∈ (J.itemType a.itemTypeId).resourceIds.getD b [],
      (resAt (J.binType b) r).penalize = false →
      consumption J (resAt (J.binType b) r) (L ++ [a]) ≤ (resAt (J.binType b) r).capacity * pstol) :
    HardOk J b (L ++ [a]) := by
  have hids := hR a.itemTypeId ha b hb
  intro r hr hpen p hp
  rcases prefix_snoc.mp hp with hp | rfl
  · exact h r hr hpen p hp
  · obtain ⟨n, hn, rfl⟩ := List.mem_iff_getElem.mp hr
    have e : resAt (J.binType b) n = (J.binType b).resources[n] := List.getD_eq_getElem _ _ hn
    by_cases hm : n ∈ (J.itemType a.itemTypeId).resourceIds.getD b []
    · have := hk n hm (by rw [e]; exact hpen)
      rwa [e] at this
    · have he : (resAt (J.binType b) n).itemConsumptions.getD a.itemTypeId [] = [] := by
        by_contra hne; exact hm ((hids.2 n).mpr ⟨hn, hne⟩)
      rw [consumption_snoc _ _ _ _ ha, ← e, itemConsumption_of_empty _ _ _ he, add_zero, e]
      exact h _ hr hpen L (List.prefix_refl L)

theorem binWeight_snoc (J : Instance) (L : List PlacedItem) (a : PlacedItem) :
    binWeight J (L ++ [a]) = binWeight J L + (J.itemType a.itemTypeId).weight := by
  unfold binWeight; simp

end PackingSolver.Box.TreeSearch
