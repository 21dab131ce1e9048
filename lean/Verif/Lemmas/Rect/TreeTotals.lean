import Verif.Lemmas.Rect.TreeSolution
import Mathlib.Algebra.Order.BigOperators.Group.Finset

/-! Helper lemmas: totals of a node of the rectangle branching scheme. -/

namespace PackingSolver.Rect.TreeSearch

open Rect.Spec FlipLemmas
open PackingSolver.OneDim (getD_mem forall_mem_snoc)

variable {s : Scheme} {n n' : Node} {J : Instance} {b newBin bins : Nat} {L : List PlacedItem}
  {a : PlacedItem} {dir : Direction} {i : Insertion}

/-- The profit after an insertion. -/
theorem child_profit (hC : ChildOf s n J b (decide (newBin > 0)) dir bins a n')
    (hb : b < J.numberOfBinTypes) (hR : ResourceIdsOk J) (hcap : CapacitiesNonneg J)
    (hnn : ConsumptionsNonneg J)
    (hold : newBin = 0 → 0 < (J.binType b).resources.length →
      Res J b L n.lastBinItemNumberOfCopies n.lastBinResourceConsumption)
    (hnew : newBin ≠ 0 → L = []) :
    n'.profit = n.profit + (J.itemType a.itemTypeId).profit
      - (penalties J b (L ++ [a]) - penalties J b L) := by
  have hi := hC.item
  have hbm : J.binType b ∈ J.binTypes := getD_mem default hb
  rw [hC.profit, penalties_snoc hb hR (hnn _ hbm) L a hi]
  unfold childResources
  by_cases hr : 0 < (J.binType b).resources.length
  · rw [if_pos hr]
    have hids := hR a.itemTypeId hi b hb
    by_cases h0 : newBin = 0
    · rw [if_neg (by simp [h0])]
      dsimp only
      have hres := hold h0 hr
      rw [(sameBinFold_eq _ _ _ _ _ true).2, resourceFold_profit _ _ _ _ hids.1 _ (by
        intro r hr; rw [hres.consLen]; exact ((hids.2 r).mp hr).1), hres.copies _ hi]
      have : (List.map (fun r => crossing (resAt (J.binType b) r)
            (n.lastBinResourceConsumption.getD r 0)
            ((resAt (J.binType b) r).itemConsumption a.itemTypeId (count L a.itemTypeId).toNat))
          ((J.itemType a.itemTypeId).resourceIds.getD b []))
        = List.map (fun r => crossing (resAt (J.binType b) r)
            (consumption J (resAt (J.binType b) r) L)
            ((resAt (J.binType b) r).itemConsumption a.itemTypeId (count L a.itemTypeId).toNat))
          ((J.itemType a.itemTypeId).resourceIds.getD b []) :=
        List.map_congr_left fun r hr => by rw [hres.cons r ((hids.2 r).mp hr).1]
      rw [this]
      ring
    · rw [if_pos (by simpa using by omega), hnew h0]
      dsimp only
      have hz : ∀ r ∈ (J.itemType a.itemTypeId).resourceIds.getD b [],
          r < (List.replicate (J.binType b).resources.length (0 : ℚ)).length
          ∧ (List.replicate (J.binType b).resources.length (0 : ℚ)).getD r 0 = 0 := by
        intro r hr
        have := ((hids.2 r).mp hr).1
        simp [List.getD_eq_getElem?_getD, this]
      rw [(newBinFold_eq (J.binType b) a.itemTypeId _ hids.1
        ⟨List.replicate (J.binType b).resources.length 0,
          n.profit + (J.itemType a.itemTypeId).profit⟩ hz).2 (by
            intro r hr
            have hl := ((hids.2 r).mp hr).1
            exact hcap _ hbm _ (getD_mem _ hl)),
        (sameBinFold_eq _ _ _ _ _ true).2, resourceFold_profit _ _ _ _ hids.1 _ (fun r hr =>
          (hz r hr).1)]
      have : (List.map (fun r => crossing (resAt (J.binType b) r)
            ((List.replicate (J.binType b).resources.length (0 : ℚ)).getD r 0)
            ((resAt (J.binType b) r).itemConsumption a.itemTypeId 0))
          ((J.itemType a.itemTypeId).resourceIds.getD b []))
        = List.map (fun r => crossing (resAt (J.binType b) r)
            (consumption J (resAt (J.binType b) r) [])
            ((resAt (J.binType b) r).itemConsumption a.itemTypeId (count [] a.itemTypeId).toNat))
          ((J.itemType a.itemTypeId).resourceIds.getD b []) :=
        List.map_congr_left fun r hr => by rw [(hz r hr).2, consumption_nil]; rfl
      rw [this]
      ring
  · rw [if_neg hr]
    have he : (J.itemType a.itemTypeId).resourceIds.getD b [] = [] := by
      rw [List.eq_nil_iff_forall_not_mem]
      intro r hr'
      have := (((hR a.itemTypeId hi b hb).2 r).mp hr').1
      omega
    rw [he]
    simp

theorem Ctx.consumptions (h : Ctx s) (hnn : ConsumptionsNonneg s.inst) (d : Direction) :
    ConsumptionsNonneg (s.instanceOf d) := by
  unfold Scheme.instanceOf
  split_ifs
  · exact hnn
  · exact flip_consumptions h.flipped hnn

theorem Ctx.penalties (h : Ctx s) (d : Direction) {b : Nat} (hb : b < s.inst.numberOfBinTypes)
    (l : List PlacedItem) :
    Spec.penalties s.inst b (l.map (unframe d)) = Spec.penalties (s.instanceOf d) b l := by
  unfold Scheme.instanceOf
  by_cases hd : d = .x
  · rw [if_pos hd]
    have e : unframe d = id := by funext p; unfold unframe; rw [if_pos hd]; rfl
    rw [e, List.map_id]
  · rw [if_neg hd]
    have e : unframe d = flipPlaced := by funext p; unfold unframe; rw [if_neg hd]
    rw [e]
    exact penalties_flip h.flipped hb l

/-- Profit of a bin. -/
theorem reportedProfit_snoc (I : Instance) (p : Packing) (b : PackedBin) :
    reportedProfit I (p ++ [b]) = reportedProfit I p
      + ((b.copies : ℚ) * itemsProfit I b.items - Spec.penalties I b.binTypeId b.items) := by
  unfold reportedProfit
  rw [List.map_append, List.sum_append]
  simp

theorem packing_empty_profit (h : Ctx s) {l : List Step} {K : Nat}
    (hl : ∀ st ∈ l, st.numberOfBins ≤ K) (m : Nat) (hm : K + m ≤ s.binTypeIds.length) :
    reportedProfit s.inst (packing s l (K + m)) = reportedProfit s.inst (packing s l K) := by
  induction m with
  | zero => rfl
  | succ m ih =>
    rw [← Nat.add_assoc, packing_succ (fun st hst => by have := hl st hst; omega),
      reportedProfit_snoc, ih (by omega)]
    have hb := h.id_lt (k := K + m) (by omega)
    dsimp only
    rw [penalties_nil (h.capacities _ (getD_mem default hb))]
    simp [itemsProfit]

theorem packing_split (l : List Step) (K : Nat) : packing s l (K + 1)
    = packing s l K ++ [⟨s.binTypeIds.getD K 0, 1, (inBin l K).map Step.place⟩] := by
  unfold packing
  rw [List.range_succ, List.map_append, List.map_singleton]

/-- What the totals of a node mean. -/
structure Totals (s : Scheme) (n : Node) : Prop where
  profit : ConsumptionsNonneg s.inst →
    n.profit = reportedProfit s.inst (packing s n.steps n.numberOfBins)
  area : n.itemArea = (n.steps.map fun st => (s.inst.itemType st.itemTypeId).area).sum
  weight : n.itemWeight = (n.steps.map fun st => (s.inst.itemType st.itemTypeId).weight).sum

theorem totals_root (h : Ctx s) : Totals s s.rootNode := by
  have e : s.rootNode = emptyRoot s.inst := by unfold Scheme.rootNode; rw [h.root]; rfl
  rw [e]
  exact ⟨fun _ => rfl, rfl, rfl⟩

theorem totals_step (hc : Ctx s) (ho : Offer s n i) (h : Inv s n) (ht : Totals s n)
    (hn : child s n i = .ok n') : Totals s n' := by
  have hC := child_ok hn
  have hi : (insItem i).itemTypeId < s.inst.numberOfItemTypes := offer_item hc ho
  have hfr := hc.frame (nextDir n i)
  have hpos := next_pos ho
  have hle := ho.le
  have hid := hc.id_lt (k := nextBins n i - 1) (by omega)
  have hmono : n.numberOfBins ≤ nextBins n i := by
    by_cases h0 : i.newBin = 0
    · rw [nextBins_zero h0]
    · exact le_of_lt (ho.new h0)
  refine ⟨fun hnn => ?_, ?_, ?_⟩
  · obtain ⟨m, hm⟩ : ∃ m, nextBins n i = m + 1 := ⟨nextBins n i - 1, by omega⟩
    have hm' : nextBins n i - 1 = m := by omega
    have hp := child_profit (L := binItems n i) hC (hfr.nBins ▸ hid) hfr.agg.resourceIds
      hfr.capacities (hc.consumptions hnn _) (fun h0 hr => (binItems_old ho h h0).res hr)
      (fun h0 => binItems_new ho h h0)
    rw [hp, ht.profit hnn, hC.steps, hC.numberOfBins, hm]
    rw [packing_snoc rfl, reportedProfit_snoc]
    obtain ⟨k, hk⟩ : ∃ k, m + 1 = n.numberOfBins + k := ⟨m + 1 - n.numberOfBins, by omega⟩
    have hprev : reportedProfit s.inst (packing s n.steps n.numberOfBins)
        = reportedProfit s.inst (packing s n.steps m)
          + (itemsProfit s.inst ((inBin n.steps m).map Step.place)
            - Spec.penalties s.inst (s.binTypeIds.getD m 0) ((inBin n.steps m).map Step.place)) := by
      rw [← packing_empty_profit hc (fun st hst => (h.bins st hst).2) k (by omega), ← hk,
        packing_split, reportedProfit_snoc]
      simp
    rw [hprev]
    have hplace : (inBin n.steps m).map Step.place = (binItems n i).map (unframe (nextDir n i)) := by
      unfold binItems
      rw [hm']
      by_cases h0 : i.newBin = 0
      · rw [nextDir_zero h0]
        refine inBin_place (fun st hst hb => h.dirs st hst ?_)
        rw [nextBins_zero h0] at hm; omega
      · rw [inBin_nil]
        · rfl
        · intro st hst
          have := (h.bins st hst).2
          have := ho.new h0
          omega
    rw [hm'] at hid
    rw [Nat.add_sub_cancel, ← hc.penalties _ hid, ← hc.penalties _ hid, List.map_append, ← hplace,
      hfr.profit _ hi]
    dsimp only
    have hst : Step.place ⟨(insItem i).itemTypeId, (insItem i).rotate, (insItem i).x, (insItem i).y,
        nextDir n i, m + 1⟩ = unframe (nextDir n i) (insItem i) := rfl
    have e2 : (s.inst.itemType (unframe (nextDir n i) (insItem i)).itemTypeId).profit
        = (s.inst.itemType (insItem i).itemTypeId).profit := by
      unfold unframe; split_ifs <;> rfl
    have e3 : itemsProfit s.inst ((inBin n.steps m).map Step.place
        ++ [unframe (nextDir n i) (insItem i)])
        = itemsProfit s.inst ((inBin n.steps m).map Step.place)
          + (s.inst.itemType (insItem i).itemTypeId).profit := by
      unfold itemsProfit
      rw [List.map_append, List.sum_append, List.map_singleton, List.sum_singleton, e2]
    rw [hst, List.map_singleton, e3]
    push_cast
    ring
  · rw [hC.itemArea, ht.area, hC.steps, List.map_append, List.sum_append, List.map_singleton,
      List.sum_singleton, hfr.area _ hi]
  · rw [hC.itemWeight, ht.weight, hC.steps, List.map_append, List.sum_append, List.map_singleton,
      List.sum_singleton, hfr.weight _ hi]

theorem totals_reached (hc : Ctx s) (h : Reached s n) : Totals s n := by
  induction h with
  | root => exact totals_root hc
  | child h hl hi hch ih =>
    have hv := inv_reached hc h
    exact totals_step hc (offer_of_mem hc hv.binsLe hv.tiles hl hi) hv ih hch

/-! ### Counting -/

theorem sum_inBin {M : Type} [AddCommMonoid M] (f : Step → M) (l : List Step) (K : Nat)
    (h : ∀ st ∈ l, 0 < st.numberOfBins ∧ st.numberOfBins ≤ K) :
    ((List.range K).map fun k => ((inBin l k).map f).sum).sum = (l.map f).sum := by
  induction l with
  | nil => simp [inBin]
  | cons st l ih =>
    have h0 := h st List.mem_cons_self
    have e : (fun k => ((inBin (st :: l) k).map f).sum)
        = fun k => (if k = st.numberOfBins - 1 then f st else 0) + ((inBin l k).map f).sum := by
      funext k
      unfold inBin
      rw [List.filter_cons]
      by_cases hk : st.numberOfBins = k + 1
      · rw [if_pos (by simpa using hk), if_pos (by omega)]; simp
      · rw [if_neg (by simpa using hk), if_neg (by omega)]; simp
    rw [e, List.sum_map_add, ih (fun x hx => h x (List.mem_cons_of_mem _ hx)), List.map_cons,
      List.sum_cons]
    congr 1
    have : ∀ K, ∀ c, ((List.range K).map fun k => if k = c then f st else 0).sum
        = if c < K then f st else 0 := by
      intro K c
      induction K with
      | zero => simp
      | succ K ih =>
        rw [List.range_succ, List.map_append, List.sum_append, ih]
        simp only [List.map_cons, List.map_nil, List.sum_cons, List.sum_nil, add_zero]
        rcases lt_trichotomy c K with hc | hc | hc
        · rw [if_pos hc, if_neg (by omega), if_pos (by omega)]; simp
        · rw [if_neg (by omega), if_pos (by omega), if_pos (by omega)]; simp
        · rw [if_neg (by omega), if_neg (by omega), if_neg (by omega)]; simp
    rw [this, if_pos (by omega)]

theorem place_id (st : Step) : st.place.itemTypeId = st.itemTypeId := by
  unfold Step.place unframe; split_ifs <;> rfl

theorem count_sum (l : List PlacedItem) (i : Nat) :
    count l i = (l.map fun p => if p.itemTypeId = i then (1 : Int) else 0).sum := by
  induction l using List.reverseRecOn with
  | nil => rfl
  | append_singleton l a ih => rw [count_snoc, ih]; simp

theorem itemCopies_packing (h : Inv s n) (i : Nat) :
    itemCopies (packing s n.steps n.numberOfBins) i = count (n.steps.map Step.frame) i := by
  have e := sum_inBin (fun st => if st.itemTypeId = i then (1 : Int) else 0) n.steps n.numberOfBins
    h.bins
  unfold itemCopies packing
  rw [List.map_map, count_sum, List.map_map]
  have e2 : (List.map ((fun p : PlacedItem => if p.itemTypeId = i then (1 : Int) else 0) ∘ Step.frame)
      n.steps) = n.steps.map fun st => if st.itemTypeId = i then (1 : Int) else 0 := rfl
  rw [e2, ← e]
  congr 1
  apply List.map_congr_left
  intro k _
  simp only [Function.comp_apply, one_mul, count_sum, List.map_map]
  congr 1
  apply List.map_congr_left
  intro st _
  simp only [Function.comp_apply, place_id]

theorem itemArea_packing (h : Inv s n) :
    Spec.itemArea s.inst (packing s n.steps n.numberOfBins)
      = (n.steps.map fun st => (s.inst.itemType st.itemTypeId).area).sum := by
  have e := sum_inBin (fun st => (s.inst.itemType st.itemTypeId).area) n.steps n.numberOfBins h.bins
  unfold Spec.itemArea packing
  rw [List.map_map, ← e]
  congr 1
  apply List.map_congr_left
  intro k _
  simp only [Function.comp_apply, one_mul, List.map_map]
  congr 1
  apply List.map_congr_left
  intro st _
  simp only [Function.comp_apply, place_id]
  rfl

theorem itemWeight_packing (h : Inv s n) :
    Spec.itemWeight s.inst (packing s n.steps n.numberOfBins)
      = (n.steps.map fun st => (s.inst.itemType st.itemTypeId).weight).sum := by
  have e := sum_inBin (fun st => (s.inst.itemType st.itemTypeId).weight) n.steps n.numberOfBins h.bins
  unfold Spec.itemWeight packing
  rw [List.map_map, ← e]
  congr 1
  apply List.map_congr_left
  intro k _
  simp only [Function.comp_apply, Int.cast_one, one_mul, List.map_map, binWeight]
  congr 1
  apply List.map_congr_left
  intro st _
  simp only [Function.comp_apply, place_id]

theorem sum_counts (l : List PlacedItem) (N : Nat) (h : ∀ p ∈ l, p.itemTypeId < N) :
    ∑ i ∈ Finset.range N, count l i = l.length := by
  induction l using List.reverseRecOn with
  | nil => simp [count]
  | append_singleton l a ih =>
    rw [Finset.sum_congr rfl fun i _ => count_snoc l a i, Finset.sum_add_distrib,
      ih fun p hp => h p (List.mem_append_left _ hp), Finset.sum_ite_eq,
      if_pos (Finset.mem_range.mpr (h a (by simp)))]
    simp

theorem sum_copies (I : Instance) : (I.itemTypes.map (·.copies)).sum
    = ∑ i ∈ Finset.range I.numberOfItemTypes, (I.itemType i).copies := by
  unfold Instance.numberOfItemTypes Instance.itemType
  induction I.itemTypes using List.reverseRecOn with
  | nil => rfl
  | append_singleton l a ih =>
    rw [List.map_append, List.sum_append, ih, List.length_append, List.length_singleton,
      Finset.sum_range_succ]
    congr 1
    · apply Finset.sum_congr rfl
      intro i hi
      rw [List.getD_append _ _ _ _ (Finset.mem_range.mp hi)]
    · simp

theorem leaf_iff (hc : Ctx s) (h : Inv s n) : leaf s n = true
    ↔ ∀ i, i < s.inst.numberOfItemTypes →
      itemCopies (packing s n.steps n.numberOfBins) i = (s.inst.itemType i).copies := by
  have e1 := sum_counts (n.steps.map Step.frame) s.inst.numberOfItemTypes (by
    intro p hp
    obtain ⟨st, hst, rfl⟩ := List.mem_map.mp hp
    exact h.items st hst)
  rw [List.length_map] at e1
  have hle : ∀ i ∈ Finset.range s.inst.numberOfItemTypes,
      count (n.steps.map Step.frame) i ≤ (s.inst.itemType i).copies := by
    intro i hi
    have := h.copies i (Finset.mem_range.mp hi)
    rw [← this.1]; exact this.2
  unfold leaf
  rw [decide_eq_true_eq, h.numberOfItems, hc.agg.numberOfItems, sum_copies, ← e1,
    Finset.sum_eq_sum_iff_of_le hle]
  constructor
  · intro hh i hi
    rw [itemCopies_packing h]
    exact hh i (Finset.mem_range.mpr hi)
  · intro hh i hi
    rw [← itemCopies_packing h]
    exact hh i (Finset.mem_range.mp hi)

theorem numberOfItems_packing (h : Inv s n) :
    Spec.numberOfItems (packing s n.steps n.numberOfBins) = n.numberOfItems := by
  have e := sum_inBin (fun _ => (1 : Int)) n.steps n.numberOfBins h.bins
  unfold Spec.numberOfItems packing
  rw [List.map_map, h.numberOfItems]
  have e2 : (n.steps.map fun _ => (1 : Int)).sum = (n.steps.length : Int) := by simp
  rw [← e2, ← e]
  congr 1
  apply List.map_congr_left
  intro k _
  simp

theorem binTypes_packing (l : List Step) {K : Nat} (hK : K ≤ s.binTypeIds.length) :
    (packing s l K).map (·.binTypeId) = s.binTypeIds.take K := by
  unfold packing
  rw [List.map_map]
  apply List.ext_getElem
  · simp [hK]
  · intro k h1 h2
    have : k < s.binTypeIds.length := by simp at h2; omega
    simp [List.getElem?_eq_getElem this]

theorem binCopies_packing (l : List Step) {K : Nat} (hK : K ≤ s.binTypeIds.length) (t : Nat) :
    binCopies (packing s l K) t = (s.binTypeIds.take K).count t := by
  rw [← binTypes_packing l hK]
  unfold binCopies
  have hc : ∀ b ∈ packing s l K, b.copies = 1 := by
    intro b hb
    obtain ⟨k, -, rfl⟩ := List.mem_map.mp hb
    rfl
  generalize packing s l K = p at hc
  induction p with
  | nil => rfl
  | cons b p ih =>
    rw [List.map_cons, List.sum_cons, ih (fun x hx => hc x (List.mem_cons_of_mem _ hx)), List.map_cons,
      List.count_cons, hc b List.mem_cons_self]
    by_cases h : b.binTypeId = t <;> simp [h, add_comm]

theorem numberOfBins_packing (l : List Step) (K : Nat) :
    Spec.numberOfBins (packing s l K) = K := by
  unfold Spec.numberOfBins packing
  rw [List.map_map]
  have : ((fun b : PackedBin => b.copies) ∘ fun k => (⟨s.binTypeIds.getD k 0, 1,
    (inBin l k).map Step.place⟩ : PackedBin)) = fun _ => (1 : Int) := rfl
  rw [this]
  simp

end PackingSolver.Rect.TreeSearch
