import Verif.Lemmas.Rect.TreeCtx

/-! Helper lemmas: invariant of the nodes of the rectangle branching scheme. -/

namespace PackingSolver.Rect.TreeSearch

open Rect.Spec
open PackingSolver.OneDim (getD_mem forall_mem_snoc)

/-- What is known of an offered insertion. -/
structure Offer (s : Scheme) (n : Node) (i : Insertion) : Prop where
  tried : Tried s n i.itemTypeId i.rotate i.newBin i.newBinPos i.y i (s.instanceOf (nextDir n i))
    (s.binTypeIds.getD (nextBins n i - 1) 0)
  y : 0 ≤ i.y
  item : i.itemTypeId ∈ ((s.instanceOf (nextDir n i)).binType
    (s.binTypeIds.getD (nextBins n i - 1) 0)).itemTypeIds
  copies : n.itemNumberOfCopies.getD i.itemTypeId 0
    ≠ ((s.instanceOf (nextDir n i)).itemType i.itemTypeId).copies
  rotation : i.rotate = true →
    ((s.instanceOf (nextDir n i)).itemType i.itemTypeId).oriented = false
  cur : i.newBin = 0 → 0 < n.numberOfBins
  new : i.newBin ≠ 0 → n.numberOfBins < nextBins n i
  le : nextBins n i ≤ s.binTypeIds.length
  direction : i.newBin ≠ 0 → ∃ pos, nextDir n i = Scheme.newBinDirection (newBinOf s pos)

theorem nextBins_zero {n : Node} {i : Insertion} (h : i.newBin = 0) :
    nextBins n i = n.numberOfBins := by unfold nextBins; rw [if_neg (by simp [h])]

theorem nextDir_zero {n : Node} {i : Insertion} (h : i.newBin = 0) :
    nextDir n i = n.lastBinDirection := by unfold nextDir; rw [if_neg (by simp [h])]

theorem nextBins_new {n : Node} {i : Insertion} {p : Nat} (h : i.newBin ≠ 0)
    (hp : i.newBinPos = some p) : nextBins n i = p + 1 := by
  unfold nextBins; rw [if_pos (by simpa using by omega), hp]

theorem nextDir_new {n : Node} {i : Insertion} (h : i.newBin ≠ 0) :
    nextDir n i = Scheme.newBinDirection i.newBin := by
  unfold nextDir; rw [if_pos (by simpa using by omega)]

theorem startY_nonneg {n : Node} {bt : BinType} {up d : Option Nat}
    (hu : ∀ p, up = some (p + 1) → 0 ≤ (n.uncoveredItems.getD (p + 1) default).ys)
    (hd : ∀ k, d = some k → k < bt.defects.length) (hr : ∀ d ∈ bt.defects, 0 ≤ d.posY + d.y) :
    0 ≤ startY n bt up d := by
  unfold startY
  split
  · exact hu _ rfl
  · exact hr _ (getD_mem _ (hd _ rfl))
  · exact le_refl _

theorem offer_of_mem {s : Scheme} {n : Node} {l : List Insertion} {i : Insertion} (hctx : Ctx s)
    (hle : n.numberOfBins ≤ s.binTypeIds.length)
    (ht : 0 < n.numberOfBins → ∃ y, Tiles 0 n.uncoveredItems y)
    (hl : insertions s n = .ok l) (hi : i ∈ l) : Offer s n i := by
  rcases insertions_mem hl hi with ⟨at', ha, hat⟩ | ⟨pos, hp1, hp2, at', ha, hat⟩
  · obtain ⟨h0, item, rotate, up, d, rfl, hmem, hcop, hrot, hup, hdef⟩ :=
      mem_currentBinAttempts hctx.fixed ha
    have hT := insertionItem_some hat
    have e := hT.eq
    have e1 : i.itemTypeId = item := congrArg Insertion.itemTypeId e
    have e2 : i.rotate = rotate := congrArg Insertion.rotate e
    have e3 : i.newBin = 0 := congrArg Insertion.newBin e
    have e4 := congrArg Insertion.y e
    have e5 : i.newBinPos = none := congrArg Insertion.newBinPos e
    dsimp only at e4
    rw [← e4] at hT
    have hb := nextBins_zero (n := n) e3
    have hd := nextDir_zero (n := n) e3
    have t1 : tryDir n 0 = n.lastBinDirection := rfl
    have t2 : tryBin s n 0 none = s.binTypeIds.getD (n.numberOfBins - 1) 0 := rfl
    rw [t1, t2] at hT
    have hfr := hctx.frame n.lastBinDirection
    have hid := hctx.id_lt (k := n.numberOfBins - 1) (by omega)
    refine ⟨?_, ?_, ?_, ?_, ?_, fun _ => h0, fun h => absurd e3 h, by omega, fun h => absurd e3 h⟩
    · rw [hb, hd, e1, e2, e3, e5]; exact hT
    · rw [e4]
      refine startY_nonneg (fun p hp => ?_) hdef (hfr.reach _ hid)
      obtain ⟨y, hy⟩ := ht h0
      exact (hy.mem _ (getD_mem _ (hup _ hp))).1
    · rw [hb, hd, e1]; exact hmem
    · rw [hd, e1]; exact hcop
    · rw [hd, e1, e2]; exact hrot
  · obtain ⟨item, rotate, up, d, rfl, hmem, hcop, hrot, hup, hdef⟩ := mem_newBinAttempts ha
    have hnb := newBinOf_cases s pos
    generalize hnbo : newBinOf s pos = nb at *
    have hT := insertionItem_some hat
    have e := hT.eq
    have e1 : i.itemTypeId = item := congrArg Insertion.itemTypeId e
    have e2 : i.rotate = rotate := congrArg Insertion.rotate e
    have e3 : i.newBin = nb := congrArg Insertion.newBin e
    have e4 := congrArg Insertion.y e
    have e5 : i.newBinPos = some pos := congrArg Insertion.newBinPos e
    dsimp only at e4
    rw [← e4] at hT
    have hn0 : nb ≠ 0 := by omega
    have hb := nextBins_new (n := n) (e3 ▸ hn0) e5
    have hd := nextDir_new (n := n) (e3 ▸ hn0)
    rw [e3] at hd
    have t1 : tryDir n nb = Scheme.newBinDirection nb := by unfold tryDir; rw [if_neg hn0]
    have t2 : tryBin s n nb (some pos) = s.binTypeIds.getD pos 0 := by
      unfold tryBin; rw [if_neg hn0]; rfl
    rw [t1, t2] at hT
    rw [hctx.numberOfBins] at hp2
    have hfr := hctx.frame (Scheme.newBinDirection nb)
    have hid := hctx.id_lt (k := pos) hp2
    refine ⟨?_, ?_, ?_, ?_, ?_, fun h => absurd (e3 ▸ h) hn0, fun _ => by omega, by omega, fun _ => ?_⟩
    · rw [hb, hd, e1, e2, e3, e5]; exact hT
    · rw [e4]
      rw [t1, t2]
      refine startY_nonneg (fun p hp => absurd (hup _ hp) (by omega)) hdef (hfr.reach _ hid)
    · rw [hb, hd, e1]; exact hmem
    · rw [hd, e1]; exact hcop
    · rw [hd, e1, e2]; exact hrot
    · exact ⟨pos, by rw [hd, hnbo]⟩

/-! ### Items of the bins -/

/-- The item of a step in the frame of its bin. -/
def Step.frame (st : Step) : PlacedItem := ⟨st.itemTypeId, st.x, st.y, st.rotate⟩

/-- The item of a step in the coordinates of the instance. -/
def Step.place (st : Step) : PlacedItem := unframe st.direction st.frame

/-- The steps of the bin at position `k`. -/
def inBin (l : List Step) (k : Nat) : List Step := l.filter fun st => st.numberOfBins = k + 1

theorem inBin_snoc (l : List Step) (st : Step) (k : Nat) :
    inBin (l ++ [st]) k = inBin l k ++ if st.numberOfBins = k + 1 then [st] else [] := by
  unfold inBin
  rw [List.filter_append]
  congr 1
  by_cases h : st.numberOfBins = k + 1 <;> simp [h]

theorem inBin_nil {l : List Step} {k : Nat} (h : ∀ st ∈ l, st.numberOfBins ≠ k + 1) :
    inBin l k = [] := by
  unfold inBin
  rw [List.filter_eq_nil_iff]
  intro st hst
  simpa using h st hst

theorem inBin_place {l : List Step} {k : Nat} {d : Direction}
    (h : ∀ st ∈ l, st.numberOfBins = k + 1 → st.direction = d) :
    (inBin l k).map Step.place = ((inBin l k).map Step.frame).map (unframe d) := by
  rw [List.map_map]
  apply List.map_congr_left
  intro st hst
  unfold inBin at hst
  rw [List.mem_filter] at hst
  have := h st hst.1 (by simpa using hst.2)
  unfold Step.place
  rw [this]
  rfl

/-- The invariant of the nodes. -/
structure Inv (s : Scheme) (n : Node) : Prop where
  copiesLen : n.itemNumberOfCopies.length = s.inst.numberOfItemTypes
  copies : ∀ i, i < s.inst.numberOfItemTypes →
    n.itemNumberOfCopies.getD i 0 = count (n.steps.map Step.frame) i
    ∧ n.itemNumberOfCopies.getD i 0 ≤ (s.inst.itemType i).copies
  items : ∀ st ∈ n.steps, st.itemTypeId < s.inst.numberOfItemTypes
  bins : ∀ st ∈ n.steps, 0 < st.numberOfBins ∧ st.numberOfBins ≤ n.numberOfBins
  rotation : ∀ st ∈ n.steps, st.rotate = true → (s.inst.itemType st.itemTypeId).oriented = false
  eligible : ∀ st ∈ n.steps, st.direction = .x →
    EligibleIn s.inst st.itemTypeId (s.binTypeIds.getD (st.numberOfBins - 1) 0)
  sorted : n.steps.Pairwise fun a b => a.numberOfBins ≤ b.numberOfBins
  last : ∀ l st, n.steps = l ++ [st] → st.numberOfBins = n.numberOfBins
  none : n.steps = [] → n.numberOfBins = 0
  binsLe : n.numberOfBins ≤ s.binTypeIds.length
  numberOfItems : n.numberOfItems = n.steps.length
  dirs : ∀ st ∈ n.steps, st.numberOfBins = n.numberOfBins → st.direction = n.lastBinDirection
  dirOf : ∀ st ∈ n.steps, ∃ pos, st.direction = Scheme.newBinDirection (newBinOf s pos)
  groups : n.groups.length = s.inst.numberOfGroups
  prev : ∀ k, k + 1 < n.numberOfBins →
    BinValid s.inst (s.binTypeIds.getD k 0) ((inBin n.steps k).map Step.place)
    ∧ UnloadingSpec s.inst (s.binTypeIds.getD k 0) ((inBin n.steps k).map Step.place)
  cur : 0 < n.numberOfBins → LastOk (s.instanceOf n.lastBinDirection)
    (s.binTypeIds.getD (n.numberOfBins - 1) 0)
    ((inBin n.steps (n.numberOfBins - 1)).map Step.frame) n
  area : 0 < n.numberOfBins → n.itemArea
    ≤ s.previousBinsArea.getD (n.numberOfBins - 1) 0 + skyArea n.uncoveredItems
  area0 : n.numberOfBins = 0 → n.itemArea = 0

theorem inv_root {s : Scheme} (h : Ctx s) : Inv s s.rootNode := by
  have e : s.rootNode = emptyRoot s.inst := by unfold Scheme.rootNode; rw [h.root]; rfl
  rw [e]
  unfold emptyRoot
  refine ⟨by simp, ?_, by simp, by simp, by simp, by simp, List.Pairwise.nil, by simp, fun _ => rfl,
    by simp, rfl, by simp, by simp, by simp, by simp, by simp, by simp, fun _ => rfl⟩
  intro i hi
  have := h.copies i hi
  simp [List.getD_eq_getElem?_getD, hi, count]
  omega

variable {s : Scheme} {n n' : Node} {i : Insertion}

theorem Inv.tiles (h : Inv s n) (h0 : 0 < n.numberOfBins) : ∃ y, Tiles 0 n.uncoveredItems y :=
  ⟨_, (h.cur h0).sky.tiles⟩

/-- The items of the bin an insertion goes to. -/
def binItems (n : Node) (i : Insertion) : List PlacedItem :=
  (inBin n.steps (nextBins n i - 1)).map Step.frame

theorem binItems_old (ho : Offer s n i) (h : Inv s n) (h0 : i.newBin = 0) :
    LastOk (s.instanceOf (nextDir n i)) (s.binTypeIds.getD (nextBins n i - 1) 0) (binItems n i) n := by
  unfold binItems
  rw [nextBins_zero h0, nextDir_zero h0]
  exact h.cur (ho.cur h0)

theorem binItems_new (ho : Offer s n i) (h : Inv s n) (h0 : i.newBin ≠ 0) : binItems n i = [] := by
  unfold binItems
  rw [inBin_nil, List.map_nil]
  intro st hst
  have := h.bins st hst
  have := ho.new h0
  omega

theorem next_pos (ho : Offer s n i) : 0 < nextBins n i := by
  by_cases h0 : i.newBin = 0
  · rw [nextBins_zero h0]; exact ho.cur h0
  · have := ho.new h0; omega

/-- The area before the bin of an insertion, and the skyline of the bin, cover the items. -/
theorem area_before (hc : Ctx s) (ho : Offer s n i) (h : Inv s n) :
    n.itemArea ≤ s.previousBinsArea.getD (nextBins n i - 1) 0
      + if i.newBin = 0 then skyArea n.uncoveredItems else 0 := by
  have hle := ho.le
  have hpos := next_pos ho
  by_cases h0 : i.newBin = 0
  · rw [if_pos h0, nextBins_zero h0]
    exact h.area (ho.cur h0)
  · rw [if_neg h0, add_zero]
    have hn := ho.new h0
    by_cases hb : n.numberOfBins = 0
    · rw [h.area0 hb]
      exact hc.prev_nonneg (by omega)
    · have h1 := h.area (by omega)
      have h2 := hc.prev_le (j := n.numberOfBins - 1) (k := nextBins n i - 1) (by omega) (by omega)
      have hl := h.cur (by omega)
      have hid := hc.id_lt (k := n.numberOfBins - 1) (by omega)
      have hfr := hc.frame n.lastBinDirection
      have h3 := skyArea_le hl.sky.tiles (x := ((s.instanceOf n.lastBinDirection).binType
        (s.binTypeIds.getD (n.numberOfBins - 1) 0)).x) (by
          intro u hu
          rcases hl.sky.attained u hu with e | ⟨p, hp, e, -⟩
          · rw [e]; exact le_of_lt (hfr.binPos _ hid).1
          · rw [e]; exact (hl.valid.packing.inside p hp).2.1)
      rw [sub_zero] at h3
      have h4 : ((s.instanceOf n.lastBinDirection).binType
        (s.binTypeIds.getD (n.numberOfBins - 1) 0)).x * ((s.instanceOf n.lastBinDirection).binType
        (s.binTypeIds.getD (n.numberOfBins - 1) 0)).y
        = (s.inst.binType (s.binTypeIds.getD (n.numberOfBins - 1) 0)).area := hfr.binArea _ hid
      omega

theorem offer_item (hc : Ctx s) (ho : Offer s n i) : i.itemTypeId < s.inst.numberOfItemTypes := by
  have hpos := next_pos ho
  have hle := ho.le
  have hid := hc.id_lt (k := nextBins n i - 1) (by omega)
  have hfr := hc.frame (nextDir n i)
  rw [← hfr.nItems]
  exact (((hfr.agg.itemTypeIds _ (hfr.nBins ▸ hid)).2 _).mp ho.item).1

theorem step_sky (hc : Ctx s) (ho : Offer s n i) (h : Inv s n) :
    ∃ pos, (skyOf (s.instanceOf (nextDir n i)) (s.binTypeIds.getD (nextBins n i - 1) 0) n
      (decide (i.newBin > 0)) (insItem i)).2 = some pos
    ∧ Sky (s.instanceOf (nextDir n i)) (s.binTypeIds.getD (nextBins n i - 1) 0)
      (binItems n i ++ [insItem i]) (skyOf (s.instanceOf (nextDir n i))
        (s.binTypeIds.getD (nextBins n i - 1) 0) n (decide (i.newBin > 0)) (insItem i)).1
    ∧ n.itemArea + ((s.instanceOf (nextDir n i)).itemType i.itemTypeId).area
      ≤ s.previousBinsArea.getD (nextBins n i - 1) 0 + skyArea (skyOf (s.instanceOf (nextDir n i))
        (s.binTypeIds.getD (nextBins n i - 1) 0) n (decide (i.newBin > 0)) (insItem i)).1 := by
  have hfr := hc.frame (nextDir n i)
  have hi := offer_item hc ho
  obtain ⟨pos, h1, h2, h3⟩ := offer_sky (L := binItems n i) (a := insItem i) ho.tried rfl hfr.sizes
    (hfr.nItems ▸ hi) ho.y (fun h0 => ⟨(binItems_old ho h h0).valid, (binItems_old ho h h0).sky⟩)
    (fun h0 => binItems_new ho h h0)
  refine ⟨pos, h1, h2, ?_⟩
  have h4 := area_before hc ho h
  change _ + ((s.instanceOf (nextDir n i)).itemType i.itemTypeId).area ≤ _ at h3
  omega

/-- Every offered insertion has a child. -/
theorem step_accepts (hc : Ctx s) (ho : Offer s n i) (h : Inv s n) :
    ∃ n', child s n i = .ok n' := by
  obtain ⟨pos, h1, h2, h3⟩ := step_sky hc ho h
  have hfr := hc.frame (nextDir n i)
  exact child_accepts rfl rfl (next_pos ho) ho.le (hfr.nItems ▸ offer_item hc ho) h1 h2.tiles h3

theorem inv_step (hc : Ctx s) (ho : Offer s n i) (h : Inv s n) (hn : child s n i = .ok n') :
    Inv s n' := by
  have hC := child_ok hn
  have hi := offer_item hc ho
  have hfr := hc.frame (nextDir n i)
  have hpos := next_pos ho
  have hle := ho.le
  have hid := hc.id_lt (k := nextBins n i - 1) (by omega)
  have hmono : n.numberOfBins ≤ nextBins n i := by
    by_cases h0 : i.newBin = 0
    · rw [nextBins_zero h0]
    · exact le_of_lt (ho.new h0)
  have hsteps := hC.steps
  have hnb := hC.numberOfBins
  have hdir := hC.direction
  set st : Step := ⟨(insItem i).itemTypeId, (insItem i).rotate, (insItem i).x, (insItem i).y,
    nextDir n i, nextBins n i⟩ with hst
  have hcnt := h.copies i.itemTypeId hi
  refine ⟨?_, ?_, ?_, ?_, ?_, ?_, ?_, ?_, ?_, ?_, ?_, ?_, ?_, ?_, ?_, ?_, ?_, ?_⟩
  · rw [hC.copies, addAt_length]; exact h.copiesLen
  · intro j hj
    rw [hC.copies, addAt_getD _ _ _ _ (h.copiesLen ▸ hj), hsteps, List.map_append, List.map_singleton,
      count_snoc, (h.copies j hj).1]
    have e : (Step.frame st).itemTypeId = i.itemTypeId := rfl
    have e' : (insItem i).itemTypeId = i.itemTypeId := rfl
    rw [e, e']
    have h1 := h.copies j hj
    by_cases hji : j = i.itemTypeId
    · subst hji
      have h2 := ho.copies
      rw [hfr.copies _ hi] at h2
      simp only [if_true]
      refine ⟨trivial, ?_⟩
      omega
    · rw [if_neg (fun e => hji e.symm)]
      simp only [add_zero, true_and]
      omega
  · rw [hsteps]; exact forall_mem_snoc.mpr ⟨h.items, hi⟩
  · rw [hsteps, hnb]
    refine forall_mem_snoc.mpr ⟨fun x hx => ⟨(h.bins x hx).1, ?_⟩, hpos, le_refl _⟩
    have := (h.bins x hx).2
    omega
  · rw [hsteps]
    refine forall_mem_snoc.mpr ⟨h.rotation, ?_⟩
    have := ho.rotation
    rwa [hfr.oriented _ hi] at this
  · rw [hsteps]
    refine forall_mem_snoc.mpr ⟨h.eligible, fun hd => ?_⟩
    have hx : nextDir n i = .x := hd
    have := ho.item
    rw [hx] at this
    have e : s.instanceOf .x = s.inst := rfl
    rw [e] at this
    exact (((hc.agg.itemTypeIds _ hid).2 _).mp this).2
  · rw [hsteps, List.pairwise_append]
    refine ⟨h.sorted, List.pairwise_singleton _ _, fun x hx y hy => ?_⟩
    rw [List.mem_singleton.mp hy]
    have := (h.bins x hx).2
    have e : st.numberOfBins = nextBins n i := rfl
    omega
  · intro l x hl
    rw [hsteps] at hl
    have := (List.append_inj' hl rfl).2
    simp only [List.cons.injEq, and_true] at this
    rw [← this, hnb]
  · intro hn; rw [hsteps] at hn; simp at hn
  · rw [hnb]; exact hle
  · rw [hC.numberOfItems, h.numberOfItems, hsteps]; simp
  · rw [hsteps, hnb, hdir]
    refine forall_mem_snoc.mpr ⟨fun x hx hxb => ?_, fun _ => rfl⟩
    have hb := (h.bins x hx).2
    by_cases h0 : i.newBin = 0
    · rw [nextDir_zero h0]; rw [nextBins_zero h0] at hxb; exact h.dirs x hx hxb
    · have := ho.new h0; omega
  · rw [hsteps]
    refine forall_mem_snoc.mpr ⟨h.dirOf, ?_⟩
    change ∃ pos, nextDir n i = _
    by_cases h0 : i.newBin = 0
    · have hb := ho.cur h0
      obtain ⟨l, x, e⟩ : ∃ l x, n.steps = l ++ [x] := by
        rcases List.eq_nil_or_concat n.steps with e | ⟨l, x, e⟩
        · have := h.none e; omega
        · exact ⟨l, x, by rw [e, List.concat_eq_append]⟩
      have hx : x ∈ n.steps := by rw [e]; simp
      rw [nextDir_zero h0, ← h.dirs x hx (h.last l x e)]
      exact h.dirOf x hx
    · exact ho.direction h0
  · rw [hC.groups, childGroups_length]; exact h.groups
  · intro k hk
    rw [hnb] at hk
    have e : inBin n'.steps k = inBin n.steps k := by
      have e' : st.numberOfBins = nextBins n i := rfl
      rw [hsteps, inBin_snoc, if_neg (by omega), List.append_nil]
    rw [e]
    by_cases hk1 : k + 1 < n.numberOfBins
    · exact h.prev k hk1
    · have hkid := hc.id_lt (k := k) (by omega)
      by_cases hk2 : k + 1 = n.numberOfBins
      · have hcur := h.cur (by omega)
        have ek : n.numberOfBins - 1 = k := by omega
        rw [ek] at hcur
        rw [inBin_place (d := n.lastBinDirection) (fun st hst hb => h.dirs st hst (by omega))]
        exact hc.export _ hkid hcur
      · rw [inBin_nil (fun st hst => by have := (h.bins st hst).2; omega)]
        exact empty_valid hkid hc.capacities
  · intro _
    rw [hnb, hdir]
    have e : (inBin n'.steps (nextBins n i - 1)).map Step.frame = binItems n i ++ [insItem i] := by
      have e' : st.numberOfBins = nextBins n i := rfl
      rw [hsteps, inBin_snoc, if_pos (by omega), List.map_append]
      rfl
    rw [e]
    exact last_step (a := insItem i) ho.tried hC rfl hfr.agg hfr.sizes hfr.capacities ho.y
      (hfr.nBins ▸ hid) ho.rotation (hfr.nGroups ▸ h.groups) (fun h0 => binItems_old ho h h0)
      (fun h0 => binItems_new ho h h0)
  · intro _
    rw [hnb, hC.itemArea, skyArea_core hC.sky]
    obtain ⟨pos, h1, h2, h3⟩ := step_sky hc ho h
    exact h3
  · intro h0; omega

theorem inv_reached (hc : Ctx s) (h : Reached s n) : Inv s n := by
  induction h with
  | root => exact inv_root hc
  | child h hl hi hch ih => exact inv_step hc (offer_of_mem hc ih.binsLe ih.tiles hl hi) ih hch

end PackingSolver.Rect.TreeSearch
