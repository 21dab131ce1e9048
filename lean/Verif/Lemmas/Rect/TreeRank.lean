import Verif.Lemmas.Rect.TreeBound
import Verif.Props.Rect.Compare

/-! Helper lemmas: the values of a node as values of its packing. -/

namespace PackingSolver.Rect.TreeSearch

open Rect.Spec FlipLemmas
open PackingSolver.OneDim (getD_mem forall_mem_snoc)

variable {s : Scheme} {n m : Node}

/-- The packing of a node. -/
abbrev pack (s : Scheme) (n : Node) : Packing := packing s n.steps n.numberOfBins

theorem last_direction (h : Inv s n) (h0 : n.numberOfBins ≠ 0) :
    (s.parameters.direction = .x → n.lastBinDirection = .x)
    ∧ (s.parameters.direction = .y → n.lastBinDirection = .y) := by
  obtain ⟨l, st, hl⟩ : ∃ l st, n.steps = l ++ [st] := by
    rcases List.eq_nil_or_concat n.steps with e | ⟨l, st, e⟩
    · have := h.none e; omega
    · exact ⟨l, st, by simpa using e⟩
  have hm : st ∈ n.steps := by rw [hl]; simp
  obtain ⟨pos, hp⟩ := h.dirOf st hm
  rw [← h.dirs st hm (h.last l st hl), hp]
  constructor
  · intro e
    have : newBinOf s pos = 1 := by unfold newBinOf; rw [e]
    rw [this]; rfl
  · intro e
    have : newBinOf s pos = 2 := by unfold newBinOf; rw [e]
    rw [this]; rfl

theorem pack_zero (h0 : n.numberOfBins = 0) : pack s n = [] := by
  unfold pack packing; rw [h0]; rfl

theorem frame_ends (hc : Ctx s) (h : Inv s n) {st : Step} (hst : st ∈ n.steps) :
    (n.lastBinDirection = .x →
      rightEnd (s.instanceOf n.lastBinDirection) st.frame
        = rightEnd s.inst (unframe n.lastBinDirection st.frame)
      ∧ upperEnd (s.instanceOf n.lastBinDirection) st.frame
        = upperEnd s.inst (unframe n.lastBinDirection st.frame))
    ∧ (n.lastBinDirection ≠ .x →
      rightEnd (s.instanceOf n.lastBinDirection) st.frame
        = upperEnd s.inst (unframe n.lastBinDirection st.frame)
      ∧ upperEnd (s.instanceOf n.lastBinDirection) st.frame
        = rightEnd s.inst (unframe n.lastBinDirection st.frame)) := by
  constructor
  · intro e
    rw [e]
    exact ⟨rfl, rfl⟩
  · intro hdir
    have hfl := occupies_flip hc.flipped (p := Step.frame st) (h.items st hst)
    have e1 : s.instanceOf n.lastBinDirection = s.flipped := by
      unfold Scheme.instanceOf; rw [if_neg hdir]
    have e2 : unframe n.lastBinDirection (Step.frame st) = flipPlaced (Step.frame st) := by
      unfold unframe; rw [if_neg hdir]
    rw [e1, e2]
    unfold rightEnd upperEnd
    rw [hfl]
    exact ⟨rfl, rfl⟩

theorem binCopies_pos (hc : Ctx s) {b : Nat} (hb : b < s.inst.numberOfBinTypes) :
    0 < (s.inst.binType b).copies := by
  rcases (hc.sizes.bins _ (getD_mem default hb)).2 with h | h
  · exact h
  · rcases (hc.bins b hb).copies with h1 | h1
    · exfalso
      have h : (s.inst.binType b).copies = s.inst.numberOfItems := h
      rw [h, hc.agg.numberOfItems] at h1
      have : 0 ≤ (s.inst.itemTypes.map (·.copies)).sum := by
        apply List.sum_nonneg
        rw [List.forall_mem_map]
        intro u hu
        obtain ⟨j, hj, rfl⟩ := List.mem_iff_getElem.mp hu
        have := hc.copies j hj
        rw [show s.inst.itemType j = s.inst.itemTypes[j] from List.getD_eq_getElem _ _ hj] at this
        exact le_of_lt this
      omega
    · exact h1

/-- With an open dimension there is exactly one bin. -/
theorem openDimension_ids (hc : Ctx s)
    (ho : s.inst.objective = .openDimensionX ∨ s.inst.objective = .openDimensionY) :
    s.binTypeIds = [0] := by
  have h1 := hc.sizes.openDimension ho
  have hlen : s.binTypeIds.length = 1 := by
    rw [hc.ids, (ids_perm s.inst).length_eq, ← hc.agg.binTypeIds]; exact h1
  obtain ⟨x, hx⟩ := List.length_eq_one_iff.mp hlen
  have hlt := mem_ids (b := x) (I := s.inst) (by rw [← hc.ids, hx]; simp)
  have h0 : 0 < s.inst.numberOfBinTypes := by omega
  have hcnt := count_ids s.inst h0
  have := binCopies_pos hc h0
  rw [← hc.ids, hx] at hcnt
  by_cases e : x = 0
  · rw [hx, e]
  · rw [List.count_singleton, if_neg (by simpa using e)] at hcnt
    omega

/-- The extents of the last bin of a node. -/
theorem node_extents (hc : Ctx s) (hn : Reached s n) (h0 : n.numberOfBins ≠ 0) :
    usedX s.inst (pack s n) = (if n.lastBinDirection = .x then n.xeMax else n.yeMax)
    ∧ usedY s.inst (pack s n) = (if n.lastBinDirection = .x then n.yeMax else n.xeMax) := by
  have h := inv_reached hc hn
  have hx := (h.cur (by omega)).xeMax
  have hy := (bnd_reached hc hn (by omega)).yeMax
  obtain ⟨K, hK⟩ : ∃ K, n.numberOfBins = K + 1 := ⟨n.numberOfBins - 1, by omega⟩
  have hm : ∀ st ∈ n.steps, st.numberOfBins = K + 1 → st.direction = n.lastBinDirection :=
    fun st hst hb => h.dirs st hst (by omega)
  have hl : lastItems (pack s n)
      = ((inBin n.steps K).map Step.frame).map (unframe n.lastBinDirection) := by
    unfold pack
    rw [hK, packing_split, lastItems_snoc, inBin_place hm]
  unfold usedX usedY
  rw [hl]
  rw [hK, Nat.add_sub_cancel] at hx hy
  have hmap : ∀ (f g : PlacedItem → Int),
      (∀ st ∈ n.steps, f st.frame = g (unframe n.lastBinDirection st.frame)) →
      ((inBin n.steps K).map Step.frame).map f
        = (((inBin n.steps K).map Step.frame).map (unframe n.lastBinDirection)).map g := by
    intro f g hfg
    rw [List.map_map, List.map_map, List.map_map]
    apply List.map_congr_left
    intro st hst
    exact hfg st (List.mem_of_mem_filter hst)
  by_cases hdir : n.lastBinDirection = .x
  · rw [if_pos hdir, if_pos hdir]
    rw [hmap _ (rightEnd s.inst) fun st hst => ((frame_ends hc h hst).1 hdir).1] at hx
    rw [hmap _ (upperEnd s.inst) fun st hst => ((frame_ends hc h hst).1 hdir).2] at hy
    exact ⟨isMaxWithZero_unique (isMaxWithZero_foldl _) hx,
      isMaxWithZero_unique (isMaxWithZero_foldl _) hy⟩
  · rw [if_neg hdir, if_neg hdir]
    rw [hmap _ (upperEnd s.inst) fun st hst => ((frame_ends hc h hst).2 hdir).1] at hx
    rw [hmap _ (rightEnd s.inst) fun st hst => ((frame_ends hc h hst).2 hdir).2] at hy
    exact ⟨isMaxWithZero_unique (isMaxWithZero_foldl _) hy,
      isMaxWithZero_unique (isMaxWithZero_foldl _) hx⟩

theorem rank_x (hc : Ctx s) (hn : Reached s n) (hd : s.parameters.direction = .x) :
    n.xeMax = usedX s.inst (pack s n) := by
  by_cases h0 : n.numberOfBins = 0
  · rw [pack_zero h0, reached_zero hc hn h0]; rfl
  · rw [(node_extents hc hn h0).1, if_pos ((last_direction (inv_reached hc hn) h0).1 hd)]

theorem rank_y (hc : Ctx s) (hn : Reached s n) (hd : s.parameters.direction = .y) :
    n.xeMax = usedY s.inst (pack s n) := by
  by_cases h0 : n.numberOfBins = 0
  · rw [pack_zero h0, reached_zero hc hn h0]; rfl
  · have := (last_direction (inv_reached hc hn) h0).2 hd
    rw [(node_extents hc hn h0).2, if_neg (by rw [this]; decide)]

/-- The leftover value of a node, in a direction that suits the leftover mode. -/
theorem rank_remaining (hc : Ctx s) (hn : Reached s n)
    (hd : (s.inst.parameters.leftoverMode = .x → s.parameters.direction = .x)
      ∧ (s.inst.parameters.leftoverMode = .y → s.parameters.direction = .y)) :
    n.leftoverValue = remaining s.inst (pack s n) := by
  by_cases h0 : n.numberOfBins = 0
  · rw [pack_zero h0, reached_zero hc hn h0]; rfl
  · have h := inv_reached hc hn
    have hle := h.binsLe
    have hlo := (bnd_reached hc hn (by omega)).leftover
    obtain ⟨ex, ey⟩ := node_extents hc hn h0
    have hid := hc.id_lt (k := n.numberOfBins - 1) (by omega)
    have har := (hc.frame n.lastBinDirection).binArea _ hid
    have hmode : (s.instanceOf n.lastBinDirection).parameters.leftoverMode
        = s.inst.parameters.leftoverMode := by
      unfold Scheme.instanceOf
      split_ifs
      · rfl
      · exact hc.flipped.leftoverMode
    have hlast : (pack s n).getLast?.map (·.binTypeId)
        = some (s.binTypeIds.getD (n.numberOfBins - 1) 0) := by
      obtain ⟨K, hK⟩ : ∃ K, n.numberOfBins = K + 1 := ⟨n.numberOfBins - 1, by omega⟩
      unfold pack
      rw [hK, packing_split]
      simp
    obtain ⟨b, hb, hbid⟩ := Option.map_eq_some_iff.mp hlast
    unfold remaining
    rw [hb]
    dsimp only
    rw [hbid, hlo, hmode, ex, ey]
    cases hm : s.inst.parameters.leftoverMode with
    | area =>
      dsimp only
      rw [har]
      change (s.inst.binType _).x * (s.inst.binType _).y - _ = _
      split_ifs <;> ring
    | x =>
      have := (last_direction h h0).1 (hd.1 hm)
      dsimp only
      rw [this, if_pos rfl]
      rfl
    | y =>
      have := (last_direction h h0).2 (hd.2 hm)
      dsimp only
      rw [this, if_neg (by decide)]
      have := (hc.flipped.bins _ hid).x
      rw [show s.instanceOf .y = s.flipped from rfl, this]

theorem rank_profit (hc : Ctx s) (hn : Reached s n) (hnn : ConsumptionsNonneg s.inst) :
    n.profit = reportedProfit s.inst (pack s n) := (totals_reached hc hn).profit hnn

theorem pack_cost (hc : Ctx s) (hn : Reached s n) : cost s.inst (pack s n)
    = ((s.binTypeIds.take n.numberOfBins).map fun b => (s.inst.binType b).cost).sum := by
  have hle := (inv_reached hc hn).binsLe
  rw [← binTypes_packing n.steps hle]
  unfold cost pack
  rw [List.map_map]
  congr 1
  apply List.map_congr_left
  intro b hb
  obtain ⟨k, -, rfl⟩ := List.mem_map.mp hb
  simp

/-- With positive costs, the cheaper of two nodes is the one with fewer bins. -/
theorem rank_cost (hc : Ctx s) (hn : Reached s n) (hm : Reached s m)
    (hpos : ∀ b ∈ s.inst.binTypes, 0 < b.cost) :
    cost s.inst (pack s n) < cost s.inst (pack s m) ↔ n.numberOfBins < m.numberOfBins := by
  rw [pack_cost hc hn, pack_cost hc hm]
  have hln := (inv_reached hc hn).binsLe
  have hlm := (inv_reached hc hm).binsLe
  have hp : ∀ b ∈ s.binTypeIds, 0 < (s.inst.binType b).cost := by
    intro b hb
    rw [hc.ids] at hb
    exact hpos _ (getD_mem default (mem_ids hb))
  have key : ∀ a d : Nat, a + d ≤ s.binTypeIds.length →
      ((s.binTypeIds.take a).map fun b => (s.inst.binType b).cost).sum
        ≤ ((s.binTypeIds.take (a + d)).map fun b => (s.inst.binType b).cost).sum
      ∧ (0 < d → ((s.binTypeIds.take a).map fun b => (s.inst.binType b).cost).sum
        < ((s.binTypeIds.take (a + d)).map fun b => (s.inst.binType b).cost).sum) := by
    intro a d
    induction d with
    | zero => intro _; exact ⟨le_refl _, fun h => absurd h (by omega)⟩
    | succ d ih =>
      intro hd
      have h1 := (ih (by omega)).1
      have hlt : a + d < s.binTypeIds.length := by omega
      have e : ((s.binTypeIds.take (a + (d + 1))).map fun b => (s.inst.binType b).cost).sum
          = ((s.binTypeIds.take (a + d)).map fun b => (s.inst.binType b).cost).sum
            + (s.inst.binType (s.binTypeIds[a + d])).cost := by
        rw [← Nat.add_assoc, List.take_add_one, List.getElem?_eq_getElem hlt, List.map_append,
          List.sum_append]
        simp
      have h2 := hp _ (List.getElem_mem hlt)
      rw [e]
      exact ⟨by linarith, fun _ => by linarith⟩
  constructor
  · intro h
    by_contra hge
    obtain ⟨d, hd⟩ : ∃ d, n.numberOfBins = m.numberOfBins + d :=
      ⟨n.numberOfBins - m.numberOfBins, by omega⟩
    have := (key m.numberOfBins d (by omega)).1
    rw [hd] at h
    linarith
  · intro h
    obtain ⟨d, hd⟩ : ∃ d, m.numberOfBins = n.numberOfBins + d :=
      ⟨m.numberOfBins - n.numberOfBins, by omega⟩
    have := (key n.numberOfBins d (by omega)).2 (by omega)
    rw [hd]
    exact this

/-- Profit of a packing without penalties. -/
theorem profit_plain (hc : Ctx s) (hn : Reached s n)
    (hpen : ∀ b ∈ s.inst.binTypes, ∀ r ∈ b.resources, r.penalize = false) :
    reportedProfit s.inst (pack s n)
      = (n.steps.map fun st => (s.inst.itemType st.itemTypeId).profit).sum := by
  have h := inv_reached hc hn
  have e := sum_inBin (fun st => (s.inst.itemType st.itemTypeId).profit) n.steps n.numberOfBins h.bins
  unfold reportedProfit pack packing
  rw [List.map_map, ← e]
  congr 1
  apply List.map_congr_left
  intro k hk
  have hk := List.mem_range.mp hk
  have hle := h.binsLe
  have hz : penalties s.inst (s.binTypeIds.getD k 0) ((inBin n.steps k).map Step.place) = 0 := by
    unfold penalties
    apply List.sum_eq_zero
    intro x hx
    obtain ⟨r, hr, rfl⟩ := List.mem_map.mp hx
    have := hpen _ (getD_mem default (hc.id_lt (k := k) (by omega))) r hr
    rw [if_neg (by rw [this]; simp)]
  simp only [Function.comp_apply, hz, Int.cast_one, one_mul, sub_zero, itemsProfit, List.map_map]
  congr 1
  apply List.map_congr_left
  intro st _
  simp only [Function.comp_apply, place_id]

theorem sum_steps_rat (l : List Step) (N : Nat) (f : Nat → ℚ) (h : ∀ st ∈ l, st.itemTypeId < N) :
    (l.map fun st => f st.itemTypeId).sum
      = ∑ i ∈ Finset.range N, (count (l.map Step.frame) i : ℚ) * f i := by
  induction l using List.reverseRecOn with
  | nil => simp [count]
  | append_singleton l a ih =>
    have e : ∀ i ∈ Finset.range N, (count ((l ++ [a]).map Step.frame) i : ℚ) * f i
        = (count (l.map Step.frame) i : ℚ) * f i + if a.itemTypeId = i then f i else 0 := by
      intro i _
      rw [List.map_append, List.map_singleton, count_snoc]
      have : (Step.frame a).itemTypeId = a.itemTypeId := rfl
      rw [this]
      split_ifs <;> push_cast <;> ring
    rw [Finset.sum_congr rfl e, Finset.sum_add_distrib,
      ← ih fun st hst => h st (List.mem_append_left _ hst), Finset.sum_ite_eq,
      if_pos (Finset.mem_range.mpr (h a (by simp)))]
    simp

/-- Without penalties and negative profits, no node has a higher profit than a leaf. -/
theorem leaf_profit (hc : Ctx s) (hn : Reached s n) (hm : Reached s m) (hl : leaf s n = true)
    (hpen : ∀ b ∈ s.inst.binTypes, ∀ r ∈ b.resources, r.penalize = false)
    (hpos : ∀ t ∈ s.inst.itemTypes, 0 ≤ t.profit) :
    reportedProfit s.inst (pack s m) ≤ reportedProfit s.inst (pack s n) := by
  have h := inv_reached hc hn
  have h' := inv_reached hc hm
  rw [profit_plain hc hn hpen, profit_plain hc hm hpen,
    sum_steps_rat n.steps s.inst.numberOfItemTypes (fun i => (s.inst.itemType i).profit) h.items,
    sum_steps_rat m.steps s.inst.numberOfItemTypes (fun i => (s.inst.itemType i).profit) h'.items]
  apply Finset.sum_le_sum
  intro i hi
  have hi := Finset.mem_range.mp hi
  have e := (leaf_iff hc h).mp hl i hi
  rw [itemCopies_packing h] at e
  have e' := h'.copies i hi
  apply mul_le_mul_of_nonneg_right _ (hpos _ (getD_mem default hi))
  rw [e, ← e'.1]
  exact_mod_cast e'.2

end PackingSolver.Rect.TreeSearch
