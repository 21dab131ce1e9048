import Verif.Lemmas.Box.TreeCtx

/-! Helper lemmas: invariant of the nodes of the box branching scheme. -/

namespace PackingSolver.Box.TreeSearch

open Box.Spec
open PackingSolver.OneDim (getD_mem forall_mem_snoc)

/-- What is known of an offered insertion. -/
structure Offer (s : Scheme) (n : Node) (i : Insertion) : Prop where
  tried : Tried n i.newBin (insItem i) (s.instanceOf (nextDir n i))
    (s.binTypeIds.getD (nextBins n i - 1) 0)
  y : 0 ≤ i.y
  z : 0 ≤ i.z
  dir : nextDir n i ≠ .any
  item : i.itemTypeId < (s.instanceOf (nextDir n i)).numberOfItemTypes
  copies : n.itemNumberOfCopies.getD i.itemTypeId 0
    ≠ ((s.instanceOf (nextDir n i)).itemType i.itemTypeId).copies
  packed : allPacked s n i.itemTypeId = true
  rotation : i.rotation ∈ ((s.instanceOf (nextDir n i)).itemType i.itemTypeId).rotations
  cur : i.newBin = 0 → 0 < n.numberOfBins
  new : i.newBin ≠ 0 → n.numberOfBins < nextBins n i
  le : nextBins n i ≤ s.binTypeIds.length
  direction : i.newBin ≠ 0 → ∃ pos, nextDir n i = Scheme.newBinDirection (newBinOf s pos)

theorem nextBins_zero {n : Node} {i : Insertion} (h : i.newBin = 0) :
    nextBins n i = n.numberOfBins := by unfold nextBins; rw [if_neg (by simp [h])]

theorem nextDir_zero {n : Node} {i : Insertion} (h : i.newBin = 0) :
    nextDir n i = n.lastBinDirection := by unfold nextDir; rw [if_neg (by simp [h])]

theorem nextBins_new {n : Node} {i : Insertion} {p : Nat} (h : i.newBin ≠ 0)
    (hp : i.newBinPos = some p) : nextBins n i = p + 1 := by
  unfold nextBins; rw [if_pos (by omega), hp]

theorem nextDir_new {n : Node} {i : Insertion} (h : i.newBin ≠ 0) :
    nextDir n i = Scheme.newBinDirection i.newBin := by
  unfold nextDir; rw [if_pos (by omega)]

theorem newBinOf_cases (s : Scheme) (pos : Nat) :
    newBinOf s pos = 1 ∨ newBinOf s pos = 2 ∨ newBinOf s pos = 3 := by
  unfold newBinOf
  split
  · exact .inl rfl
  · exact .inr (.inl rfl)
  · exact .inr (.inr rfl)
  · dsimp only
    split_ifs <;> decide

theorem newBinDirection_ne (k : Nat) : Scheme.newBinDirection k ≠ .any := by
  unfold Scheme.newBinDirection
  split_ifs <;> simp

theorem startAt_nonneg {us : List UncoveredItem} {f : UncoveredItem → Int} {p : Option Nat}
    (hp : p ∈ positions us) (h : ∀ u ∈ us, 0 ≤ f u) : 0 ≤ startAt us f p := by
  unfold startAt
  cases p with
  | none => exact le_refl _
  | some k =>
    unfold positions at hp
    have hk : k < us.length := by simpa using hp
    exact h _ (getD_mem _ hk)

theorem considered_iff {s : Scheme} {J : Instance} {n : Node} {item : Nat}
    (h : considered s J n item = true) :
    allPacked s n item = true ∧ n.itemNumberOfCopies.getD item 0 ≠ (J.itemType item).copies := by
  unfold considered at h
  rw [Bool.and_eq_true, Bool.not_eq_true', decide_eq_false_iff_not] at h
  exact h

/-- The insertions of the current bin. -/
theorem mem_currentBin {s : Scheme} {n : Node} {i : Insertion} (h : i ∈ currentBinInsertions s n) :
    ∃ item r yPos zPos, item < (s.instanceOf n.lastBinDirection).numberOfItemTypes
      ∧ considered s (s.instanceOf n.lastBinDirection) n item = true
      ∧ r ∈ ((s.instanceOf n.lastBinDirection).itemType item).rotations
      ∧ yPos ∈ positions n.uncoveredItems ∧ zPos ∈ positions n.uncoveredItems
      ∧ insertionItem s n item r 0 none yPos zPos = some i := by
  unfold currentBinInsertions at h
  dsimp only at h
  obtain ⟨yPos, hy, h⟩ := List.mem_flatMap.mp h
  obtain ⟨zPos, hz, h⟩ := List.mem_flatMap.mp h
  obtain ⟨item, hi, h⟩ := List.mem_flatMap.mp h
  by_cases hc : considered s (s.instanceOf n.lastBinDirection) n item = true
  · rw [if_pos hc] at h
    obtain ⟨r, hr, h⟩ := List.mem_filterMap.mp h
    exact ⟨item, r, yPos, zPos, List.mem_range.mp hi, hc, hr, hy, hz, h⟩
  · rw [if_neg hc] at h; simp at h

/-- The insertions of a new bin. -/
theorem mem_newBin {s : Scheme} {n : Node} {i : Insertion} {pos : Nat}
    (h : i ∈ newBinInsertionsAt s n pos) :
    ∃ item r, item < (s.instanceOf (Scheme.newBinDirection (newBinOf s pos))).numberOfItemTypes
      ∧ considered s (s.instanceOf (Scheme.newBinDirection (newBinOf s pos))) n item = true
      ∧ r ∈ ((s.instanceOf (Scheme.newBinDirection (newBinOf s pos))).itemType item).rotations
      ∧ insertionItem s n item r (newBinOf s pos) (some pos) none none = some i := by
  unfold newBinInsertionsAt at h
  dsimp only at h
  obtain ⟨item, hi, h⟩ := List.mem_flatMap.mp h
  by_cases hc : considered s (s.instanceOf (Scheme.newBinDirection (newBinOf s pos))) n item = true
  · rw [if_pos hc] at h
    obtain ⟨r, hr, h⟩ := List.mem_filterMap.mp h
    exact ⟨item, r, List.mem_range.mp hi, hc, hr, h⟩
  · rw [if_neg hc] at h; simp at h

theorem mem_newBins {s : Scheme} {n : Node} (ps : List Nat) {l : List Insertion} {i : Insertion}
    (h : newBinInsertions s n ps = .ok l) (hi : i ∈ l) :
    ∃ pos ∈ ps, pos < s.binTypeIds.length ∧ i ∈ newBinInsertionsAt s n pos := by
  induction ps generalizing l with
  | nil =>
    unfold newBinInsertions at h
    cases h
    simp at hi
  | cons p ps ih =>
    unfold newBinInsertions at h
    by_cases hp : p ≥ s.binTypeIds.length
    · rw [if_pos hp] at h; simp at h
    rw [if_neg hp] at h
    dsimp only at h
    by_cases he : (newBinInsertionsAt s n p).isEmpty = true
    · rw [if_pos he] at h
      obtain ⟨q, hq, h⟩ := ih h hi
      exact ⟨q, List.mem_cons_of_mem _ hq, h⟩
    · rw [if_neg he] at h
      cases h
      exact ⟨p, by simp, by omega, hi⟩

theorem insertions_mem {s : Scheme} {n : Node} {l : List Insertion} {i : Insertion}
    (h : insertions s n = .ok l) (hi : i ∈ l) :
    (0 < n.numberOfBins ∧ n.lastBinDirection ≠ .any ∧ n.numberOfBins ≤ s.binTypeIds.length
      ∧ i ∈ currentBinInsertions s n)
    ∨ ∃ pos, n.numberOfBins ≤ pos ∧ pos < s.binTypeIds.length ∧ i ∈ newBinInsertionsAt s n pos := by
  unfold insertions at h
  by_cases h1 : n.numberOfBins > 0 ∧ n.lastBinDirection = .any
  · rw [if_pos h1] at h; simp at h
  rw [if_neg h1] at h
  by_cases h2 : n.numberOfBins > s.binTypeIds.length
  · rw [if_pos h2] at h; simp at h
  rw [if_neg h2] at h
  dsimp only at h
  by_cases he : (if n.numberOfBins > 0 then currentBinInsertions s n else []).isEmpty = true
  · rw [if_pos he] at h
    obtain ⟨pos, hp, hlt, h⟩ := mem_newBins _ h hi
    exact .inr ⟨pos, by have := List.mem_range'_1.mp hp; omega, hlt, h⟩
  · rw [if_neg he] at h
    cases h
    by_cases h0 : n.numberOfBins > 0
    · rw [if_pos h0] at hi
      exact .inl ⟨h0, fun e => h1 ⟨h0, e⟩, by omega, hi⟩
    · rw [if_neg h0] at hi; simp at hi

theorem offer_of_mem {s : Scheme} {n : Node} {l : List Insertion} {i : Insertion}
    (ht : 0 < n.numberOfBins → ∃ y z, Tiles n.uncoveredItems y z)
    (hl : insertions s n = .ok l) (hi : i ∈ l) : Offer s n i := by
  rcases insertions_mem hl hi with ⟨h0, hd0, hle, ha⟩ | ⟨pos, hp1, hp2, ha⟩
  · obtain ⟨item, r, yPos, zPos, hit, hcon, hr, hy, hz, hat⟩ := mem_currentBin ha
    obtain ⟨e, hT⟩ := insertionItem_some hat
    obtain ⟨hc1, hc2⟩ := considered_iff hcon
    have e1 : i.itemTypeId = item := congrArg Insertion.itemTypeId e
    have e2 : i.rotation = r := congrArg Insertion.rotation e
    have e3 : i.newBin = 0 := congrArg Insertion.newBin e
    have e4 := congrArg Insertion.y e
    have e5 := congrArg Insertion.z e
    dsimp only at e4 e5
    have hb := nextBins_zero (n := n) e3
    have hd := nextDir_zero (n := n) e3
    obtain ⟨Y, Z, htl⟩ := ht h0
    refine ⟨?_, ?_, ?_, by rw [hd]; exact hd0, by rw [hd, e1]; exact hit, by rw [hd, e1]; exact hc2,
      by rw [e1]; exact hc1, by rw [hd, e1, e2]; exact hr, fun _ => h0, fun h => absurd e3 h,
      by omega, fun h => absurd e3 h⟩
    · rw [hb, hd, e3]; exact hT
    · rw [e4]
      refine startAt_nonneg hy fun u hu => ?_
      have := htl.mem u hu
      omega
    · rw [e5]
      refine startAt_nonneg hz fun u hu => ?_
      have := htl.mem u hu
      omega
  · obtain ⟨item, r, hit, hcon, hr, hat⟩ := mem_newBin ha
    have hnb := newBinOf_cases s pos
    generalize hnbo : newBinOf s pos = nb at *
    obtain ⟨e, hT⟩ := insertionItem_some hat
    obtain ⟨hc1, hc2⟩ := considered_iff hcon
    have e1 : i.itemTypeId = item := congrArg Insertion.itemTypeId e
    have e2 : i.rotation = r := congrArg Insertion.rotation e
    have e3 : i.newBin = nb := congrArg Insertion.newBin e
    have e4 : i.y = 0 := congrArg Insertion.y e
    have e5 : i.z = 0 := congrArg Insertion.z e
    have e6 : i.newBinPos = some pos := congrArg Insertion.newBinPos e
    have hn0 : nb ≠ 0 := by omega
    have hb := nextBins_new (n := n) (e3 ▸ hn0) e6
    have hd := nextDir_new (n := n) (e3 ▸ hn0)
    rw [e3] at hd
    have t1 : tryDir n nb = Scheme.newBinDirection nb := by unfold tryDir; rw [if_neg hn0]
    have t2 : tryBin s n nb (some pos) = s.binTypeIds.getD pos 0 := by
      unfold tryBin; rw [if_neg hn0]; rfl
    rw [t1, t2] at hT
    refine ⟨?_, by omega, by omega, by rw [hd]; exact newBinDirection_ne nb,
      by rw [hd, e1]; exact hit, by rw [hd, e1]; exact hc2, by rw [e1]; exact hc1,
      by rw [hd, e1, e2]; exact hr, fun h => absurd (e3 ▸ h) hn0, fun _ => by omega, by omega,
      fun _ => ⟨pos, by rw [hd, hnbo]⟩⟩
    rw [hb, hd, e3]
    exact hT

/-! ### Items of the bins -/

/-- The item of a step in the frame of its bin. -/
def Step.frame (st : Step) : PlacedItem := ⟨st.itemTypeId, st.x, st.y, st.z, st.rotation⟩

/-- The item of a step in the coordinates of the instance. -/
def Step.place (st : Step) : PlacedItem := flipPlaced st.direction st.frame

/-- The steps of the bin at position `k`. -/
def inBin (l : List Step) (k : Nat) : List Step := l.filter fun st => st.numberOfBins = k + 1

theorem inBin_snoc (l : List Step) (st : Step) (k : Nat) :
    inBin (l ++ [st]) k = inBin l k ++ if st.numberOfBins = k + 1 then [st] else [] := by
  unfold inBin
  rw [List.filter_append]
  congr 1
  by_cases h : st.numberOfBins = k + 1 <;> simp [h]

theorem inBin_nil {l : List Step} {k : Nat} (h : ∀ st ∈ l, st.numberOfBins ≠ k + 1) :
    inBin l k = [] := by
  unfold inBin
  rw [List.filter_eq_nil_iff]
  intro st hst
  simpa using h st hst

theorem inBin_place {l : List Step} {k : Nat} {d : Direction}
    (h : ∀ st ∈ l, st.numberOfBins = k + 1 → st.direction = d) :
    (inBin l k).map Step.place = ((inBin l k).map Step.frame).map (flipPlaced d) := by
  rw [List.map_map]
  apply List.map_congr_left
  intro st hst
  unfold inBin at hst
  rw [List.mem_filter] at hst
  have := h st hst.1 (by simpa using hst.2)
  unfold Step.place
  rw [this]
  rfl

/-- The invariant of the nodes. -/
structure Inv (s : Scheme) (n : Node) : Prop where
  copiesLen : n.itemNumberOfCopies.length = s.inst.numberOfItemTypes
  copies : ∀ i, i < s.inst.numberOfItemTypes →
    n.itemNumberOfCopies.getD i 0 = count (n.steps.map Step.frame) i
    ∧ n.itemNumberOfCopies.getD i 0 ≤ (s.inst.itemType i).copies
  items : ∀ st ∈ n.steps, st.itemTypeId < s.inst.numberOfItemTypes
  bins : ∀ st ∈ n.steps, 0 < st.numberOfBins ∧ st.numberOfBins ≤ n.numberOfBins
  rotation : ∀ st ∈ n.steps,
    exchangeRotation st.direction st.rotation ∈ (s.inst.itemType st.itemTypeId).rotations
  sorted : n.steps.Pairwise fun a b => a.numberOfBins ≤ b.numberOfBins
  last : ∀ l st, n.steps = l ++ [st] → st.numberOfBins = n.numberOfBins
  none : n.steps = [] → n.numberOfBins = 0
  binsLe : n.numberOfBins ≤ s.binTypeIds.length
  numberOfItems : n.numberOfItems = n.steps.length
  dirs : ∀ st ∈ n.steps, st.numberOfBins = n.numberOfBins → st.direction = n.lastBinDirection
  dirOf : ∀ st ∈ n.steps, ∃ pos, st.direction = Scheme.newBinDirection (newBinOf s pos)
  dirNe : n.lastBinDirection ≠ .any
  prev : ∀ k, k + 1 < n.numberOfBins →
    BinValid s.inst (s.binTypeIds.getD k 0) ((inBin n.steps k).map Step.place)
    ∧ ((∀ st ∈ inBin n.steps k, st.direction = .x) →
      ResourcesRespected s.inst (s.binTypeIds.getD k 0) ((inBin n.steps k).map Step.place))
  cur : 0 < n.numberOfBins → LastOk (s.instanceOf n.lastBinDirection)
    (s.binTypeIds.getD (n.numberOfBins - 1) 0)
    ((inBin n.steps (n.numberOfBins - 1)).map Step.frame) n
  curNe : 0 < n.numberOfBins → inBin n.steps (n.numberOfBins - 1) ≠ []

theorem inv_root {s : Scheme} (h : Ctx s) : Inv s s.rootNode := by
  unfold Scheme.rootNode
  refine ⟨by simp, ?_, by simp, by simp, by simp, List.Pairwise.nil, by simp, fun _ => rfl,
    by simp, rfl, by simp, by simp, by simp, by simp, by simp, by simp⟩
  intro i hi
  have := h.copies i hi
  simp [List.getD_eq_getElem?_getD, hi, count]
  omega

variable {s : Scheme} {n n' : Node} {i : Insertion}

theorem Inv.tiles (h : Inv s n) (h0 : 0 < n.numberOfBins) : ∃ y z, Tiles n.uncoveredItems y z :=
  ⟨_, _, (h.cur h0).face.tiles⟩

/-- The items of the bin an insertion goes to. -/
def binItems (n : Node) (i : Insertion) : List PlacedItem :=
  (inBin n.steps (nextBins n i - 1)).map Step.frame

theorem binItems_old (ho : Offer s n i) (h : Inv s n) (h0 : i.newBin = 0) :
    LastOk (s.instanceOf (nextDir n i)) (s.binTypeIds.getD (nextBins n i - 1) 0) (binItems n i) n := by
  unfold binItems
  rw [nextBins_zero h0, nextDir_zero h0]
  exact h.cur (ho.cur h0)

theorem binItems_new (ho : Offer s n i) (h : Inv s n) (h0 : i.newBin ≠ 0) : binItems n i = [] := by
  unfold binItems
  rw [inBin_nil, List.map_nil]
  intro st hst
  have := h.bins st hst
  have := ho.new h0
  omega

theorem next_pos (ho : Offer s n i) : 0 < nextBins n i := by
  by_cases h0 : i.newBin = 0
  · rw [nextBins_zero h0]; exact ho.cur h0
  · have := ho.new h0; omega

theorem offer_item (hc : Ctx s) (ho : Offer s n i) : i.itemTypeId < s.inst.numberOfItemTypes := by
  rw [← (hc.frame ho.dir).nItems]
  exact ho.item

/-- Every offered insertion has a child. -/
theorem step_accepts (ho : Offer s n i) : ∃ n', child s n i = .ok n' :=
  child_accepts ho.dir (next_pos ho) ho.le ho.item ho.tried.z

/-- The last bin after an insertion. -/
theorem step_last (hc : Ctx s) (ho : Offer s n i) (h : Inv s n) (hn : child s n i = .ok n') :
    LastOk (s.instanceOf (nextDir n i)) (s.binTypeIds.getD (nextBins n i - 1) 0)
      (binItems n i ++ [insItem i]) n' := by
  have hfr := hc.frame ho.dir
  have hpos := next_pos ho
  have hle := ho.le
  have hid := hc.id_lt (k := nextBins n i - 1) (by omega)
  have hb := hfr.binPos _ hid
  exact last_step ho.tried (child_ok hn) hfr.agg.resourceIds hfr.sizes hfr.capacities ho.y ho.z
    (hfr.nBins ▸ hid) hb.2.1 hb.2.2 ho.rotation (fun h0 => binItems_old ho h h0)
    (fun h0 => binItems_new ho h h0)

theorem inv_step (hc : Ctx s) (ho : Offer s n i) (h : Inv s n) (hn : child s n i = .ok n') :
    Inv s n' := by
  have hC := child_ok hn
  have hi := offer_item hc ho
  have hfr := hc.frame ho.dir
  have hpos := next_pos ho
  have hle := ho.le
  have hid := hc.id_lt (k := nextBins n i - 1) (by omega)
  have hmono : n.numberOfBins ≤ nextBins n i := by
    by_cases h0 : i.newBin = 0
    · rw [nextBins_zero h0]
    · exact le_of_lt (ho.new h0)
  have hsteps := hC.steps
  have hnb := hC.numberOfBins
  have hdir := hC.direction
  set st : Step := ⟨i.itemTypeId, i.rotation, i.x, i.y, i.z, nextDir n i, nextBins n i⟩ with hst
  have hcnt := h.copies i.itemTypeId hi
  refine ⟨?_, ?_, ?_, ?_, ?_, ?_, ?_, ?_, ?_, ?_, ?_, ?_, ?_, ?_, ?_, ?_⟩
  · rw [hC.copies, addAt_length]; exact h.copiesLen
  · intro j hj
    rw [hC.copies, addAt_getD _ _ _ _ (h.copiesLen ▸ hj), hsteps, List.map_append, List.map_singleton,
      count_snoc, (h.copies j hj).1]
    have e : (Step.frame st).itemTypeId = i.itemTypeId := rfl
    rw [e]
    have h1 := h.copies j hj
    by_cases hji : j = i.itemTypeId
    · subst hji
      have h2 := ho.copies
      rw [hfr.copies _ hi] at h2
      simp only [if_true]
      refine ⟨trivial, ?_⟩
      omega
    · rw [if_neg (fun e => hji e.symm)]
      simp only [add_zero, true_and]
      omega
  · rw [hsteps]; exact forall_mem_snoc.mpr ⟨h.items, hi⟩
  · rw [hsteps, hnb]
    refine forall_mem_snoc.mpr ⟨fun x hx => ⟨(h.bins x hx).1, ?_⟩, hpos, le_refl _⟩
    have := (h.bins x hx).2
    omega
  · rw [hsteps]
    refine forall_mem_snoc.mpr ⟨h.rotation, ?_⟩
    have := ho.rotation
    rw [hfr.rotations _ hi, List.mem_map] at this
    obtain ⟨q, hq, e⟩ := this
    change exchangeRotation (nextDir n i) i.rotation ∈ (s.inst.itemType i.itemTypeId).rotations
    rw [← e, FlipLemmas.exchangeRotation_twice]
    exact hq
  · rw [hsteps, List.pairwise_append]
    refine ⟨h.sorted, List.pairwise_singleton _ _, fun x hx y hy => ?_⟩
    rw [List.mem_singleton.mp hy]
    have := (h.bins x hx).2
    have e : st.numberOfBins = nextBins n i := rfl
    omega
  · intro l x hl
    rw [hsteps] at hl
    have := (List.append_inj' hl rfl).2
    simp only [List.cons.injEq, and_true] at this
    rw [← this, hnb]
  · intro hn; rw [hsteps] at hn; simp at hn
  · rw [hnb]; exact hle
  · rw [hC.numberOfItems, h.numberOfItems, hsteps]; simp
  · rw [hsteps, hnb, hdir]
    refine forall_mem_snoc.mpr ⟨fun x hx hxb => ?_, fun _ => rfl⟩
    have hb := (h.bins x hx).2
    by_cases h0 : i.newBin = 0
    · rw [nextDir_zero h0]; rw [nextBins_zero h0] at hxb; exact h.dirs x hx hxb
    · have := ho.new h0; omega
  · rw [hsteps]
    refine forall_mem_snoc.mpr ⟨h.dirOf, ?_⟩
    change ∃ pos, nextDir n i = _
    by_cases h0 : i.newBin = 0
    · have hb := ho.cur h0
      obtain ⟨l, x, e⟩ : ∃ l x, n.steps = l ++ [x] := by
        rcases List.eq_nil_or_concat n.steps with e | ⟨l, x, e⟩
        · have := h.none e; omega
        · exact ⟨l, x, by rw [e, List.concat_eq_append]⟩
      have hx : x ∈ n.steps := by rw [e]; simp
      rw [nextDir_zero h0, ← h.dirs x hx (h.last l x e)]
      exact h.dirOf x hx
    · exact ho.direction h0
  · rw [hdir]; exact ho.dir
  · intro k hk
    rw [hnb] at hk
    have e : inBin n'.steps k = inBin n.steps k := by
      have e' : st.numberOfBins = nextBins n i := rfl
      rw [hsteps, inBin_snoc, if_neg (by omega), List.append_nil]
    rw [e]
    by_cases hk1 : k + 1 < n.numberOfBins
    · exact h.prev k hk1
    · have hkid := hc.id_lt (k := k) (by omega)
      by_cases hk2 : k + 1 = n.numberOfBins
      · have hcur := h.cur (by omega)
        have hne := h.curNe (by omega)
        have ek : n.numberOfBins - 1 = k := by omega
        rw [ek] at hcur hne
        have hdd : ∀ st ∈ n.steps, st.numberOfBins = k + 1 → st.direction = n.lastBinDirection :=
          fun st hst hb => h.dirs st hst (by omega)
        rw [inBin_place hdd]
        obtain ⟨v1, v2⟩ := frame_export (hc.frame h.dirNe) hkid hcur
        refine ⟨v1, fun hall => v2 ?_⟩
        obtain ⟨x, hx⟩ := List.exists_mem_of_ne_nil _ hne
        have hx' := List.mem_filter.mp hx
        rw [← hdd x hx'.1 (by simpa using hx'.2)]
        exact hall x hx
      · rw [inBin_nil (fun st hst => by have := (h.bins st hst).2; omega)]
        exact ⟨(empty_valid hkid hc.capacities).1, fun _ => (empty_valid hkid hc.capacities).2⟩
  · intro _
    rw [hnb, hdir]
    have e : (inBin n'.steps (nextBins n i - 1)).map Step.frame = binItems n i ++ [insItem i] := by
      have e' : st.numberOfBins = nextBins n i := rfl
      rw [hsteps, inBin_snoc, if_pos (by omega), List.map_append]
      rfl
    rw [e]
    exact step_last hc ho h hn
  · intro _
    rw [hnb]
    have e' : st.numberOfBins = nextBins n i := rfl
    rw [hsteps, inBin_snoc, if_pos (by omega)]
    simp

theorem inv_reached (hc : Ctx s) (h : Reached s n) : Inv s n := by
  induction h with
  | root => exact inv_root hc
  | child h hl hi hch ih => exact inv_step hc (offer_of_mem ih.tiles hl hi) ih hch

end PackingSolver.Box.TreeSearch
