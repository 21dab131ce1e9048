import Verif.Lemmas.Box.TreeBound
import Verif.Props.Box.Compare
import Verif.Props.Box.TreeSearch

/-! Helper lemmas: the values of a node as values of its packing. -/

namespace PackingSolver.Box.TreeSearch

open Box.Spec FlipLemmas
open PackingSolver.OneDim (getD_mem forall_mem_snoc)

variable {s : Scheme} {n m : Node}

/-- The packing of a node. -/
abbrev pack (s : Scheme) (n : Node) : Packing := packing s n.steps n.numberOfBins

theorem last_direction (h : Inv s n) (h0 : n.numberOfBins ≠ 0) (ha : s.parameters.direction ≠ .any) :
    n.lastBinDirection = s.parameters.direction := by
  obtain ⟨pos, hp⟩ := last_dirOf h (by omega)
  rw [hp]
  exact newBin_dir s pos _ rfl ha

theorem pack_zero (h0 : n.numberOfBins = 0) : pack s n = [] := by
  unfold pack packing; rw [h0]; rfl

theorem binCopies_pos (hc : Ctx s) {b : Nat} (hb : b < s.inst.numberOfBinTypes) :
    0 < (s.inst.binType b).copies := by
  rcases (hc.sizes.bins _ (getD_mem default hb)).2 with h | h
  · exact h
  · rcases (hc.bins b hb).copies with h1 | h1
    · exfalso
      have h : (s.inst.binType b).copies = s.inst.numberOfItems := h
      rw [h, hc.agg.numberOfItems] at h1
      have : 0 ≤ (s.inst.itemTypes.map (·.copies)).sum := by
        apply List.sum_nonneg
        rw [List.forall_mem_map]
        intro u hu
        obtain ⟨j, hj, rfl⟩ := List.mem_iff_getElem.mp hu
        have := hc.copies j hj
        rw [show s.inst.itemType j = s.inst.itemTypes[j] from List.getD_eq_getElem _ _ hj] at this
        exact le_of_lt this
      omega
    · exact h1

/-- With an open dimension there is exactly one bin. -/
theorem openDimension_ids (hc : Ctx s)
    (ho : s.inst.objective = .openDimensionX ∨ s.inst.objective = .openDimensionY) :
    s.binTypeIds = [0] := by
  have h1 := hc.sizes.openDimension ho
  have hlen : s.binTypeIds.length = 1 := by
    rw [hc.ids, (ids_perm s.inst).length_eq, ← hc.agg.binTypeIds]; exact h1
  obtain ⟨x, hx⟩ := List.length_eq_one_iff.mp hlen
  have hlt := mem_ids (b := x) (I := s.inst) (by rw [← hc.ids, hx]; simp)
  have h0 : 0 < s.inst.numberOfBinTypes := by omega
  have hcnt := count_ids s.inst h0
  have := binCopies_pos hc h0
  rw [← hc.ids, hx] at hcnt
  by_cases e : x = 0
  · rw [hx, e]
  · rw [List.count_singleton, if_neg (by simpa using e)] at hcnt
    omega

/-- The items of the last bin of a node. -/
theorem last_items (h : Inv s n) {K : Nat} (hK : n.numberOfBins = K + 1) :
    lastItems (pack s n) = ((inBin n.steps K).map Step.frame).map (flipPlaced n.lastBinDirection) := by
  unfold pack
  rw [hK, packing_split, lastItems_snoc, inBin_place fun st hst hb => h.dirs st hst (by omega)]

theorem right_ends (hc : Ctx s) (h : Inv s n) (K : Nat) :
    ((inBin n.steps K).map Step.frame).map (rightEnd (s.instanceOf n.lastBinDirection))
      = (((inBin n.steps K).map Step.frame).map (flipPlaced n.lastBinDirection)).map
        (itemEndAlong n.lastBinDirection s.inst) := by
  rw [List.map_map, List.map_map, List.map_map]
  apply List.map_congr_left
  intro st hst
  exact rightEnd_frame (hc.frame h.dirNe) (h.items st (List.mem_of_mem_filter hst))

/-- The end of the items of the last bin of a node. -/
theorem node_extent (hc : Ctx s) (hn : Reached s n) (h0 : n.numberOfBins ≠ 0) :
    n.xeMax = ((lastItems (pack s n)).map (itemEndAlong n.lastBinDirection s.inst)).foldl max 0 := by
  have h := inv_reached hc hn
  have hx := (h.cur (by omega)).xeMax
  obtain ⟨K, hK⟩ : ∃ K, n.numberOfBins = K + 1 := ⟨n.numberOfBins - 1, by omega⟩
  rw [hK, Nat.add_sub_cancel, right_ends hc h, ← last_items h hK] at hx
  exact Rect.isMaxWithZero_unique hx (Rect.isMaxWithZero_foldl _)

theorem rank_x (hc : Ctx s) (hn : Reached s n) (hd : s.parameters.direction = .x) :
    n.xeMax = usedX s.inst (pack s n) := by
  by_cases h0 : n.numberOfBins = 0
  · rw [pack_zero h0, reached_zero hn h0]; rfl
  · rw [node_extent hc hn h0, last_direction (inv_reached hc hn) h0 (by rw [hd]; simp), hd]; rfl

theorem rank_y (hc : Ctx s) (hn : Reached s n) (hd : s.parameters.direction = .y) :
    n.xeMax = usedY s.inst (pack s n) := by
  by_cases h0 : n.numberOfBins = 0
  · rw [pack_zero h0, reached_zero hn h0]; rfl
  · rw [node_extent hc hn h0, last_direction (inv_reached hc hn) h0 (by rw [hd]; simp), hd]; rfl

theorem rank_profit (hc : Ctx s) (hn : Reached s n)
    (h : ConsumptionsNonneg s.inst ∧ s.parameters.direction = .x ∨ NoResources s.inst) :
    n.profit = reportedProfit s.inst (pack s n) := by
  rcases h with ⟨hnn, hdir⟩ | hno
  · refine (totals_reached hc hn).profit hnn ?_
    intro st hst
    obtain ⟨pos, hp⟩ := (inv_reached hc hn).dirOf st hst
    rw [hp]
    exact newBin_dir s pos _ hdir (by simp)
  · exact (totals_reached hc hn).plain hno

theorem pack_cost (hc : Ctx s) (hn : Reached s n) : cost s.inst (pack s n)
    = ((s.binTypeIds.take n.numberOfBins).map fun b => (s.inst.binType b).cost).sum := by
  have hle := (inv_reached hc hn).binsLe
  rw [← binTypes_packing n.steps hle]
  unfold cost pack
  rw [List.map_map]
  congr 1
  apply List.map_congr_left
  intro b hb
  obtain ⟨k, -, rfl⟩ := List.mem_map.mp hb
  simp

/-- With positive costs, the cheaper of two nodes is the one with fewer bins. -/
theorem rank_cost (hc : Ctx s) (hn : Reached s n) (hm : Reached s m)
    (hpos : ∀ b ∈ s.inst.binTypes, 0 < b.cost) :
    cost s.inst (pack s n) < cost s.inst (pack s m) ↔ n.numberOfBins < m.numberOfBins := by
  rw [pack_cost hc hn, pack_cost hc hm]
  have hln := (inv_reached hc hn).binsLe
  have hlm := (inv_reached hc hm).binsLe
  have hp : ∀ b ∈ s.binTypeIds, 0 < (s.inst.binType b).cost := by
    intro b hb
    rw [hc.ids] at hb
    exact hpos _ (getD_mem default (mem_ids hb))
  have key : ∀ a d : Nat, a + d ≤ s.binTypeIds.length →
      ((s.binTypeIds.take a).map fun b => (s.inst.binType b).cost).sum
        ≤ ((s.binTypeIds.take (a + d)).map fun b => (s.inst.binType b).cost).sum
      ∧ (0 < d → ((s.binTypeIds.take a).map fun b => (s.inst.binType b).cost).sum
        < ((s.binTypeIds.take (a + d)).map fun b => (s.inst.binType b).cost).sum) := by
    intro a d
    induction d with
    | zero => intro _; exact ⟨le_refl _, fun h => absurd h (by omega)⟩
    | succ d ih =>
      intro hd
      have h1 := (ih (by omega)).1
      have hlt : a + d < s.binTypeIds.length := by omega
      have e : ((s.binTypeIds.take (a + (d + 1))).map fun b => (s.inst.binType b).cost).sum
          = ((s.binTypeIds.take (a + d)).map fun b => (s.inst.binType b).cost).sum
            + (s.inst.binType (s.binTypeIds[a + d])).cost := by
        rw [← Nat.add_assoc, List.take_add_one, List.getElem?_eq_getElem hlt, List.map_append,
          List.sum_append]
        simp
      have h2 := hp _ (List.getElem_mem hlt)
      rw [e]
      exact ⟨by linarith, fun _ => by linarith⟩
  constructor
  · intro h
    by_contra hge
    obtain ⟨d, hd⟩ : ∃ d, n.numberOfBins = m.numberOfBins + d :=
      ⟨n.numberOfBins - m.numberOfBins, by omega⟩
    have := (key m.numberOfBins d (by omega)).1
    rw [hd] at h
    linarith
  · intro h
    obtain ⟨d, hd⟩ : ∃ d, m.numberOfBins = n.numberOfBins + d :=
      ⟨m.numberOfBins - n.numberOfBins, by omega⟩
    have := (key n.numberOfBins d (by omega)).2 (by omega)
    rw [hd]
    exact this

/-- Profit of a packing without penalties. -/
theorem profit_plain (hc : Ctx s) (hn : Reached s n)
    (hpen : ∀ b ∈ s.inst.binTypes, ∀ r ∈ b.resources, r.penalize = false) :
    reportedProfit s.inst (pack s n)
      = (n.steps.map fun st => (s.inst.itemType st.itemTypeId).profit).sum := by
  have h := inv_reached hc hn
  have e := sum_inBin (fun st => (s.inst.itemType st.itemTypeId).profit) n.steps n.numberOfBins h.bins
  unfold reportedProfit pack packing
  rw [List.map_map, ← e]
  congr 1
  apply List.map_congr_left
  intro k hk
  have hk := List.mem_range.mp hk
  have hle := h.binsLe
  have hz : penalties s.inst (s.binTypeIds.getD k 0) ((inBin n.steps k).map Step.place) = 0 := by
    unfold penalties
    apply List.sum_eq_zero
    intro x hx
    obtain ⟨r, hr, rfl⟩ := List.mem_map.mp hx
    have := hpen _ (getD_mem default (hc.id_lt (k := k) (by omega))) r hr
    rw [if_neg (by rw [this]; simp)]
  simp only [Function.comp_apply, hz, Int.cast_one, one_mul, sub_zero, itemsProfit, List.map_map]
  rfl

theorem sum_steps_rat (l : List Step) (N : Nat) (f : Nat → ℚ) (h : ∀ st ∈ l, st.itemTypeId < N) :
    (l.map fun st => f st.itemTypeId).sum
      = ∑ i ∈ Finset.range N, (count (l.map Step.frame) i : ℚ) * f i := by
  induction l using List.reverseRecOn with
  | nil => simp [count]
  | append_singleton l a ih =>
    have e : ∀ i ∈ Finset.range N, (count ((l ++ [a]).map Step.frame) i : ℚ) * f i
        = (count (l.map Step.frame) i : ℚ) * f i + if a.itemTypeId = i then f i else 0 := by
      intro i _
      rw [List.map_append, List.map_singleton, count_snoc]
      have : (Step.frame a).itemTypeId = a.itemTypeId := rfl
      rw [this]
      split_ifs <;> push_cast <;> ring
    rw [Finset.sum_congr rfl e, Finset.sum_add_distrib,
      ← ih fun st hst => h st (List.mem_append_left _ hst), Finset.sum_ite_eq,
      if_pos (Finset.mem_range.mpr (h a (by simp)))]
    simp

/-- Without penalties and negative profits, no node has a higher profit than a leaf. -/
theorem leaf_profit (hc : Ctx s) (hn : Reached s n) (hm : Reached s m) (hl : leaf s n = true)
    (hpen : ∀ b ∈ s.inst.binTypes, ∀ r ∈ b.resources, r.penalize = false)
    (hpos : ∀ t ∈ s.inst.itemTypes, 0 ≤ t.profit) :
    reportedProfit s.inst (pack s m) ≤ reportedProfit s.inst (pack s n) := by
  have h := inv_reached hc hn
  have h' := inv_reached hc hm
  rw [profit_plain hc hn hpen, profit_plain hc hm hpen,
    sum_steps_rat n.steps s.inst.numberOfItemTypes (fun i => (s.inst.itemType i).profit) h.items,
    sum_steps_rat m.steps s.inst.numberOfItemTypes (fun i => (s.inst.itemType i).profit) h'.items]
  apply Finset.sum_le_sum
  intro i hi
  have hi := Finset.mem_range.mp hi
  have e := (leaf_iff hc h).mp hl i hi
  rw [itemCopies_packing h] at e
  have e' := h'.copies i hi
  apply mul_le_mul_of_nonneg_right _ (hpos _ (getD_mem default hi))
  rw [e, ← e'.1]
  exact_mod_cast e'.2

end PackingSolver.Box.TreeSearch
