import Verif.Lemmas.Box.TreeTotals

/-! Helper lemmas: the quantities the box branching scheme prunes by. -/

namespace PackingSolver.Box.TreeSearch

open Box.Spec FlipLemmas
open PackingSolver.OneDim (getD_mem forall_mem_snoc)

variable {s : Scheme} {n n' m : Node} {i : Insertion}

/-! ### The volume below the uncovered items -/

/-- The volume below the uncovered items. -/
def faceVolume (us : List UncoveredItem) : Int := (us.map fun u => u.x * u.area).sum

theorem faceVolume_cells {us : List UncoveredItem} {Y Z : Int} (h : Tiles us Y Z) :
    faceVolume us = ∑ c ∈ face Y Z, over (·.x) us c := (sum_over h.mem (·.x)).symm

theorem sum_face {Y Z : Int} (hY : 0 ≤ Y) (hZ : 0 ≤ Z) (k : Int) :
    ∑ _c ∈ face Y Z, k = k * (Y * Z) := by
  have h := sum_rect (le_refl 0) hY (le_refl Y) (le_refl 0) hZ (le_refl Z) k
  rw [sub_zero, sub_zero] at h
  rw [← h]
  apply Finset.sum_congr rfl
  intro c hc
  rw [if_pos (mem_face.mp hc)]

theorem faceVolume_le {us : List UncoveredItem} {Y Z X : Int} (h : Tiles us Y Z) (hY : 0 ≤ Y)
    (hZ : 0 ≤ Z) (hx : ∀ u ∈ us, u.x ≤ X) : faceVolume us ≤ X * (Y * Z) := by
  rw [faceVolume_cells h, ← sum_face hY hZ]
  apply Finset.sum_le_sum
  intro c hc
  have hc := mem_face.mp hc
  obtain ⟨u, hu, huc⟩ := h.exists hc
  rw [over_eq_of_covers (h.once c hc) (·.x) hu huc]
  exact hx u hu

theorem faceVolume_step {J : Instance} {b : Nat} {L : List PlacedItem} {us : List UncoveredItem}
    {a : PlacedItem} (h : FaceOk J b L us)
    (hd : 0 < (dims J a).x ∧ 0 < (dims J a).y ∧ 0 < (dims J a).z)
    (hy0 : 0 ≤ a.y) (hz0 : 0 ≤ a.z) (hy : a.y + (dims J a).y ≤ (J.binType b).box.y)
    (hz : a.z + (dims J a).z ≤ (J.binType b).box.z)
    (hx : ∀ u ∈ us, a.y < u.ye → u.ys < a.y + (dims J a).y → a.z < u.ze →
      u.zs < a.z + (dims J a).z → u.x ≤ a.x) :
    faceVolume us + (dims J a).volume ≤ faceVolume (faceOf J b us a) := by
  have hsh := updateDominance_shape (childUncovered us (a.x + (dims J a).x) a.y (a.y + (dims J a).y)
    a.z (a.z + (dims J a).z)) (a.x + (dims J a).x) a.y (a.y + (dims J a).y) a.z (a.z + (dims J a).z)
    (J.binType b).box.y (J.binType b).box.z J.smallestItemY J.smallestItemZ
  change (faceOf J b us a).map shape = _ at hsh
  have ht := tiles_child (xe := a.x + (dims J a).x) h.tiles hy0 (show a.y < a.y + (dims J a).y by omega)
    hy hz0 (show a.z < a.z + (dims J a).z by omega) hz
  have hr := sum_rect hy0 (show a.y ≤ a.y + (dims J a).y by omega) hy hz0
    (show a.z ≤ a.z + (dims J a).z by omega) hz (dims J a).x
  have hvol : (dims J a).volume = (dims J a).x * ((a.y + (dims J a).y - a.y)
      * (a.z + (dims J a).z - a.z)) := by
    unfold Dims.volume; ring
  rw [hvol, ← hr, faceVolume_cells h.tiles, faceVolume_cells (ht.shape hsh),
    ← Finset.sum_add_distrib]
  apply Finset.sum_le_sum
  intro c hc
  have hc := mem_face.mp hc
  rw [over_shape hsh _ (fun _ => rfl), over_child _ (fun _ _ e _ => e) (by omega) (by omega)]
  by_cases hin : InRect a.y (a.y + (dims J a).y) a.z (a.z + (dims J a).z) c
  · rw [if_pos hin, if_pos hin]
    obtain ⟨u, hu, huc⟩ := h.tiles.exists hc
    rw [over_eq_of_covers (h.tiles.once c hc) (·.x) hu huc]
    have := hx u hu (by unfold Covers InRect at *; omega) (by unfold Covers InRect at *; omega)
      (by unfold Covers InRect at *; omega) (by unfold Covers InRect at *; omega)
    dsimp only
    omega
  · rw [if_neg hin, if_neg hin, add_zero]

/-! ### Faces whose positions are not raised -/

/-- No uncovered item has been raised. -/
def Plain (us : List UncoveredItem) : Prop := ∀ u ∈ us, u.xDominance = u.x

theorem raiseIf_none {b : Bool} {f : UncoveredItem → Bool} {x : Int} {us : List UncoveredItem}
    (h : b = true → ∀ u ∈ us, f u = false) : raiseIf b f x us = us := by
  unfold raiseIf
  by_cases hb : b = true
  · rw [if_pos hb]
    conv => rhs; rw [← List.map_id us]
    apply List.map_congr_left
    intro u hu
    rw [h hb u hu]
    rfl
  · rw [if_neg hb]

theorem updateDominance_none {us : List UncoveredItem} {xe ys ye zs ze Y Z a b : Int}
    (h : Tiles us Y Z) (ha : a ≤ 1) (hb : b ≤ 1) :
    updateDominance us xe ys ye zs ze Y Z a b = us := by
  unfold updateDominance
  dsimp only
  rw [raiseIf_none (us := us), raiseIf_none (us := us), raiseIf_none (us := us),
    raiseIf_none (us := us)]
  all_goals
    intro hd u hu
    have := h.mem u hu
    have := of_decide_eq_true hd
    exact decide_eq_false (by omega)

theorem plain_step {J : Instance} {b : Nat} {us : List UncoveredItem} {a : PlacedItem}
    (h : Tiles us (J.binType b).box.y (J.binType b).box.z) (hp : Plain us)
    (hd : 0 < (dims J a).x ∧ 0 < (dims J a).y ∧ 0 < (dims J a).z)
    (hy0 : 0 ≤ a.y) (hz0 : 0 ≤ a.z) (hy : a.y + (dims J a).y ≤ (J.binType b).box.y)
    (hz : a.z + (dims J a).z ≤ (J.binType b).box.z)
    (h1 : J.smallestItemY ≤ 1) (h2 : J.smallestItemZ ≤ 1) : Plain (faceOf J b us a) := by
  have ht := tiles_child (xe := a.x + (dims J a).x) h hy0 (show a.y < a.y + (dims J a).y by omega)
    hy hz0 (show a.z < a.z + (dims J a).z by omega) hz
  have e : faceOf J b us a = childUncovered us (a.x + (dims J a).x) a.y (a.y + (dims J a).y) a.z
      (a.z + (dims J a).z) := updateDominance_none ht h1 h2
  rw [e]
  intro v hv
  rcases mem_child hv (by omega) (fun u hu => ⟨(h.mem u hu).2.1, (h.mem u hu).2.2.2.2.1⟩) with
    rfl | ⟨u, hu, e1, e2, -⟩
  · rfl
  · rw [e1, e2]; exact hp u hu

theorem smallest_le {its : List ItemType} {f : Dims → Int} {m : Int} (h : IsSmallest its f m)
    {t : ItemType} (ht : t ∈ its) {o : Dims} (ho : o ∈ orientations t) : m ≤ f o := by
  unfold IsSmallest at h
  rw [if_neg (List.ne_nil_of_mem ht)] at h
  exact h.1 _ (List.mem_map.mpr ⟨o, List.mem_flatMap.mpr ⟨t, ht, ho⟩, rfl⟩)

theorem frame_orientation {d : Direction} {I J : Instance} (h : FrameOk d I J) {t : ItemType}
    (ht : t ∈ I.itemTypes) {o : Dims} (ho : o ∈ orientations t) :
    ∃ t' ∈ J.itemTypes, exchange d o ∈ orientations t' := by
  obtain ⟨k, hk, rfl⟩ := List.mem_iff_getElem.mp ht
  have e : I.itemType k = I.itemTypes[k] := List.getD_eq_getElem _ _ hk
  obtain ⟨r, hr, rfl⟩ := List.mem_map.mp ho
  refine ⟨J.itemType k, getD_mem default (h.nItems ▸ hk : k < J.numberOfItemTypes), ?_⟩
  unfold orientations
  rw [h.rotations k hk, h.box k hk, List.map_map, e]
  exact List.mem_map.mpr ⟨r, hr, rotated_exchange d _ r⟩

theorem frame_slim {d : Direction} {I J : Instance} (h : FrameOk d I J) (hd : d ≠ .any)
    (hx : d = .x ∨ SlimAlong I (·.x)) (hy : d = .y ∨ SlimAlong I (·.y))
    (hz : d = .z ∨ SlimAlong I (·.z)) : J.smallestItemY ≤ 1 ∧ J.smallestItemZ ≤ 1 := by
  have key : ∀ {f g : Dims → Int} {m : Int}, IsSmallest J.itemTypes g m →
      (∀ o, g (exchange d o) = f o) → SlimAlong I f → m ≤ 1 := by
    intro f g m hm hfg ⟨t, ht, o, ho, h1⟩
    obtain ⟨t', ht', ho'⟩ := frame_orientation h ht ho
    have := smallest_le hm ht' ho'
    rw [hfg, h1] at this
    exact this
  cases d with
  | x =>
    exact ⟨key h.agg.smallestItemY (f := (·.y)) (fun _ => rfl) (by simpa using hy),
      key h.agg.smallestItemZ (f := (·.z)) (fun _ => rfl) (by simpa using hz)⟩
  | y =>
    exact ⟨key h.agg.smallestItemY (f := (·.x)) (fun _ => rfl) (by simpa using hx),
      key h.agg.smallestItemZ (f := (·.z)) (fun _ => rfl) (by simpa using hz)⟩
  | z =>
    exact ⟨key h.agg.smallestItemY (f := (·.y)) (fun _ => rfl) (by simpa using hy),
      key h.agg.smallestItemZ (f := (·.x)) (fun _ => rfl) (by simpa using hx)⟩
  | any => exact absurd rfl hd

/-- The directions of the bins follow the parameter. -/
theorem newBin_dir (s : Scheme) (pos : Nat) (d : Direction) (hd : s.parameters.direction = d)
    (ha : d ≠ .any) : Scheme.newBinDirection (newBinOf s pos) = d := by
  unfold newBinOf
  rw [hd]
  cases d with
  | x => rfl
  | y => rfl
  | z => change Scheme.newBinDirection 3 = _; simp [Scheme.newBinDirection]
  | any => exact absurd rfl ha

theorem slim_dir (hc : Ctx s) (hs : Slim s.inst s.parameters.direction) {pos : Nat} :
    (s.instanceOf (Scheme.newBinDirection (newBinOf s pos))).smallestItemY ≤ 1
    ∧ (s.instanceOf (Scheme.newBinDirection (newBinOf s pos))).smallestItemZ ≤ 1 := by
  refine frame_slim (hc.frame (newBinDirection_ne _)) (newBinDirection_ne _) ?_ ?_ ?_
  · rcases hs.1 with h | h
    · exact .inl (newBin_dir s pos _ h (by simp))
    · exact .inr h
  · rcases hs.2.1 with h | h
    · exact .inl (newBin_dir s pos _ h (by simp))
    · exact .inr h
  · rcases hs.2.2 with h | h
    · exact .inl (newBin_dir s pos _ h (by simp))
    · exact .inr h

theorem last_dirOf (h : Inv s n) (h0 : 0 < n.numberOfBins) :
    ∃ pos, n.lastBinDirection = Scheme.newBinDirection (newBinOf s pos) := by
  obtain ⟨l, st, hl⟩ : ∃ l st, n.steps = l ++ [st] := by
    rcases List.eq_nil_or_concat n.steps with e | ⟨l, st, e⟩
    · have := h.none e; omega
    · exact ⟨l, st, by simpa using e⟩
  have hm : st ∈ n.steps := by rw [hl]; simp
  obtain ⟨pos, hp⟩ := h.dirOf st hm
  exact ⟨pos, by rw [← h.dirs st hm (h.last l st hl), hp]⟩

/-- Under `Slim`, the waste of a node is the volume closed by it minus its items. -/
structure Bnd (s : Scheme) (n : Node) : Prop where
  plain : Plain n.uncoveredItems
  waste : n.waste = s.previousBinsVolume.getD (n.numberOfBins - 1) 0
    + faceVolume n.uncoveredItems - n.itemVolume

theorem before_plain {J : Instance} {b : Nat} (h : i.newBin = 0 → Plain n.uncoveredItems) :
    Plain (beforeUncovered n i (J.binType b)) := by
  unfold beforeUncovered
  by_cases h0 : i.newBin = 0
  · rw [if_neg (by omega)]; exact h h0
  · rw [if_pos (by omega)]
    intro u hu
    rw [List.mem_singleton.mp hu]

theorem bnd_step (hc : Ctx s) (hs : Slim s.inst s.parameters.direction) (ho : Offer s n i)
    (h : Inv s n) (hb : 0 < n.numberOfBins → Bnd s n) (hn : child s n i = .ok n') : Bnd s n' := by
  have hC := child_ok hn
  have hle := ho.le
  have hpos := next_pos ho
  have hid := hc.id_lt (k := nextBins n i - 1) (by omega)
  have hfr := hc.frame ho.dir
  have hbp := hfr.binPos _ hid
  have hdir : ∃ pos, nextDir n i = Scheme.newBinDirection (newBinOf s pos) := by
    by_cases h0 : i.newBin = 0
    · rw [nextDir_zero h0]; exact last_dirOf h (ho.cur h0)
    · exact ho.direction h0
  obtain ⟨pos, hpos'⟩ := hdir
  obtain ⟨s1, s2⟩ := slim_dir hc hs (pos := pos)
  rw [← hpos'] at s1 s2
  have hf := before_face (n := n) (L := binItems n i) hbp.2.1 hbp.2.2
    (fun h0 => (binItems_old ho h h0).face) (fun h0 => binItems_new ho h h0)
  have hp : Plain n'.uncoveredItems := by
    rw [hC.face]
    exact plain_step hf.tiles (before_plain fun h0 => (hb (ho.cur h0)).plain)
      (dims_pos hfr.sizes ho.item) ho.y ho.z ho.tried.y ho.tried.z s1 s2
  refine ⟨hp, ?_⟩
  rw [hC.waste, hC.currentVolume, currentVolume_eq, hC.numberOfBins]
  unfold faceVolume
  congr 3
  apply List.map_congr_left
  intro u hu
  rw [hp u hu]

theorem bnd_reached (hc : Ctx s) (hs : Slim s.inst s.parameters.direction) (h : Reached s n) :
    0 < n.numberOfBins → Bnd s n := by
  induction h with
  | root => intro h; exact absurd h (by simp [Scheme.rootNode])
  | child h hl hi hch ih =>
    have hv := inv_reached hc h
    exact fun _ => bnd_step hc hs (offer_of_mem hv.tiles hl hi) hv ih hch

/-! ### Descendants -/

theorem descends_reached {n m : Node} (hn : Reached s n) (h : Descends s n m) : Reached s m := by
  induction h with
  | self => exact hn
  | child _ hl hi hch ih => exact .child ih hl hi hch

/-- The volume closed by a node: the previous bins and the part of the last one below its uncovered
items. -/
def closedVolume (s : Scheme) (n : Node) : Int :=
  if n.numberOfBins = 0 then 0
  else s.previousBinsVolume.getD (n.numberOfBins - 1) 0 + faceVolume n.uncoveredItems

/-- What grows from a node to its descendants. -/
structure Grows (s : Scheme) (n m : Node) : Prop where
  bins : n.numberOfBins ≤ m.numberOfBins
  same : n.numberOfBins = m.numberOfBins → 0 < n.numberOfBins →
    m.lastBinDirection = n.lastBinDirection ∧ n.xeMax ≤ m.xeMax
  volume : closedVolume s n - n.itemVolume ≤ closedVolume s m - m.itemVolume

theorem Grows.trans {k : Node} (h : Grows s n m) (h' : Grows s m k) : Grows s n k := by
  have b1 := h.bins
  have b2 := h'.bins
  refine ⟨by omega, fun e h0 => ?_, by have := h.volume; have := h'.volume; omega⟩
  obtain ⟨d1, x1⟩ := h.same (by omega) h0
  obtain ⟨d2, x2⟩ := h'.same (by omega) (by omega)
  exact ⟨d2.trans d1, by omega⟩

theorem exchange_volume (d : Direction) (o : Dims) : (exchange d o).volume = o.volume := by
  cases d <;> simp only [exchange, Dims.volume] <;> ring

theorem bin_face_le (hc : Ctx s) (h : Inv s n) (h0 : 0 < n.numberOfBins) :
    faceVolume n.uncoveredItems ≤ n.xeMax * (((s.instanceOf n.lastBinDirection).binType
        (s.binTypeIds.getD (n.numberOfBins - 1) 0)).box.y * ((s.instanceOf n.lastBinDirection).binType
        (s.binTypeIds.getD (n.numberOfBins - 1) 0)).box.z)
    ∧ n.xeMax * (((s.instanceOf n.lastBinDirection).binType
        (s.binTypeIds.getD (n.numberOfBins - 1) 0)).box.y * ((s.instanceOf n.lastBinDirection).binType
        (s.binTypeIds.getD (n.numberOfBins - 1) 0)).box.z)
      ≤ (s.inst.binType (s.binTypeIds.getD (n.numberOfBins - 1) 0)).volume := by
  have hle := h.binsLe
  have hid := hc.id_lt (k := n.numberOfBins - 1) (by omega)
  have hfr := hc.frame h.dirNe
  have hl := h.cur h0
  have hbp := hfr.binPos _ hid
  obtain ⟨x1, x2, x3⟩ := hl.xeMax
  constructor
  · apply faceVolume_le hl.face.tiles (le_of_lt hbp.2.1) (le_of_lt hbp.2.2)
    intro u hu
    rcases hl.face.attained u hu with e | ⟨p, hp, e⟩
    · rw [e]; exact x2
    · rw [e, ← rightEnd_eq]; exact x1 _ (List.mem_map.mpr ⟨p, hp, rfl⟩)
  · have hv : (s.inst.binType (s.binTypeIds.getD (n.numberOfBins - 1) 0)).volume
        = ((s.instanceOf n.lastBinDirection).binType
          (s.binTypeIds.getD (n.numberOfBins - 1) 0)).box.volume := by
      rw [hfr.binBox _ hid, exchange_volume]; rfl
    rw [hv]
    unfold Dims.volume
    rw [mul_assoc]
    apply mul_le_mul_of_nonneg_right _ (mul_nonneg (le_of_lt hbp.2.1) (le_of_lt hbp.2.2))
    rcases x3 with e | e
    · rw [e]; exact le_of_lt hbp.1
    · obtain ⟨p, hp, e⟩ := List.mem_map.mp e
      rw [← e]; exact (hl.valid.packing.inside p hp).2.1

theorem grows_step (hc : Ctx s) (ho : Offer s n i) (h : Inv s n)
    (hn : child s n i = .ok n') : Grows s n n' := by
  have hC := child_ok hn
  have hv' := inv_step hc ho h hn
  have hpos := next_pos ho
  have hle := ho.le
  have hfr := hc.frame ho.dir
  have hid := hc.id_lt (k := nextBins n i - 1) (by omega)
  have hbp := hfr.binPos _ hid
  have hf := before_face (n := n) (L := binItems n i) hbp.2.1 hbp.2.2
    (fun h0 => (binItems_old ho h h0).face) (fun h0 => binItems_new ho h h0)
  have hstep := faceVolume_step (a := insItem i) hf (dims_pos hfr.sizes ho.item) ho.y ho.z ho.tried.y
    ho.tried.z (before_over ho.tried)
  rw [← hC.face] at hstep
  refine ⟨?_, ?_, ?_⟩
  · rw [hC.numberOfBins]
    by_cases h0 : i.newBin = 0
    · rw [nextBins_zero h0]
    · exact le_of_lt (ho.new h0)
  · intro e hb0
    have h0 : i.newBin = 0 := by
      by_contra h0
      have := ho.new h0
      rw [hC.numberOfBins] at e
      omega
    refine ⟨by rw [hC.direction, nextDir_zero h0], ?_⟩
    have hold := (h.cur hb0).xeMax
    have hnew := (hv'.cur (by omega)).xeMax
    rw [hC.direction, hC.numberOfBins, hC.steps, inBin_snoc, if_pos (by dsimp only; omega),
      List.map_append, List.map_append, nextDir_zero h0, nextBins_zero h0] at hnew
    rcases hold.2.2 with e | e
    · rw [e]; exact hnew.2.1
    · exact hnew.1 _ (List.mem_append_left _ e)
  · unfold closedVolume
    have hdv : (dims (s.instanceOf (nextDir n i)) (insItem i)).volume
        = ((s.instanceOf (nextDir n i)).itemType i.itemTypeId).box.volume := rotate_volume _ _
    rw [hdv] at hstep
    rw [hC.numberOfBins, hC.itemVolume, if_neg (show ¬ nextBins n i = 0 by omega)]
    generalize faceVolume n'.uncoveredItems = A at hstep ⊢
    unfold beforeUncovered at hstep
    by_cases h0 : i.newBin = 0
    · have hb0 := ho.cur h0
      rw [if_neg (by omega)] at hstep
      rw [if_neg (show ¬ n.numberOfBins = 0 by omega), nextBins_zero h0]
      omega
    · have hnw := ho.new h0
      rw [if_pos (by omega)] at hstep
      have hz : ∀ Y Z : Int, faceVolume [⟨0, 0, 0, Y, 0, Z⟩] = 0 := by
        intro Y Z; simp [faceVolume]
      rw [hz] at hstep
      by_cases hb0 : n.numberOfBins = 0
      · rw [if_pos hb0]
        have := hc.prev_nonneg (k := nextBins n i - 1) (by omega)
        omega
      · rw [if_neg hb0]
        have := hc.prev_le (j := n.numberOfBins - 1) (k := nextBins n i - 1) (by omega) (by omega)
        obtain ⟨q1, q2⟩ := bin_face_le hc h (by omega)
        omega

theorem grows_descends (hc : Ctx s) (hn : Reached s n) (h : Descends s n m) : Grows s n m := by
  induction h with
  | self => exact ⟨le_refl _, fun _ _ => ⟨rfl, le_refl _⟩, le_refl _⟩
  | child hd hl hi hch ih =>
    have hv := inv_reached hc (descends_reached hn hd)
    exact ih.trans (grows_step hc (offer_of_mem hv.tiles hl hi) hv hch)

/-! ### The bounds -/

theorem binsForVolume_le (l : List Int) : ∀ (a : Int) (k j : Nat), a ≤ (l.take j).sum →
    ∃ r, binsForVolume l a k = some r ∧ r ≤ k + j := by
  induction l with
  | nil =>
    intro a k j h
    have : ¬ a > 0 := by simpa using h
    unfold binsForVolume
    rw [if_neg this]
    exact ⟨k, rfl, by omega⟩
  | cons x l ih =>
    intro a k j h
    unfold binsForVolume
    by_cases ha : a > 0
    · rw [if_pos ha]
      cases j with
      | zero => simp at h; omega
      | succ j =>
        rw [List.take_succ_cons, List.sum_cons] at h
        obtain ⟨r, h1, h2⟩ := ih (a - x) (k + 1) j (by omega)
        exact ⟨r, h1, by omega⟩
    · rw [if_neg ha]
      exact ⟨k, rfl, by omega⟩

/-- The total volume of the first bins. -/
def binsVolume (s : Scheme) (k : Nat) : Int :=
  ((s.binTypeIds.map fun b => (s.inst.binType b).volume).take k).sum

theorem binsVolume_succ (hc : Ctx s) {k : Nat} (hk : k < s.binTypeIds.length) :
    binsVolume s (k + 1) = s.previousBinsVolume.getD k 0
      + (s.inst.binType (s.binTypeIds.getD k 0)).volume := by
  unfold binsVolume
  rw [hc.prev_eq hk, ← List.map_take, List.take_add_one, List.getElem?_eq_getElem hk,
    List.map_append, List.sum_append, List.getD_eq_getElem _ _ hk]
  simp

theorem closedVolume_le (hc : Ctx s) (h : Inv s n) :
    closedVolume s n ≤ binsVolume s n.numberOfBins := by
  unfold closedVolume
  by_cases h0 : n.numberOfBins = 0
  · rw [if_pos h0, h0]; exact le_refl _
  · rw [if_neg h0]
    obtain ⟨K, hK⟩ : ∃ K, n.numberOfBins = K + 1 := ⟨n.numberOfBins - 1, by omega⟩
    have hle := h.binsLe
    obtain ⟨q1, q2⟩ := bin_face_le hc h (by omega)
    rw [hK] at q1 q2 ⊢
    rw [Nat.add_sub_cancel] at q1 q2 ⊢
    rw [binsVolume_succ hc (by omega)]
    omega

theorem sum_steps (l : List Step) (N : Nat) (f : Nat → Int) (h : ∀ st ∈ l, st.itemTypeId < N) :
    (l.map fun st => f st.itemTypeId).sum
      = ∑ i ∈ Finset.range N, count (l.map Step.frame) i * f i := by
  induction l using List.reverseRecOn with
  | nil => simp [count]
  | append_singleton l a ih =>
    have e : ∀ i ∈ Finset.range N, count ((l ++ [a]).map Step.frame) i * f i
        = count (l.map Step.frame) i * f i + if a.itemTypeId = i then f i else 0 := by
      intro i _
      rw [List.map_append, List.map_singleton, count_snoc]
      have : (Step.frame a).itemTypeId = a.itemTypeId := rfl
      rw [this]
      split_ifs <;> ring
    rw [Finset.sum_congr rfl e, Finset.sum_add_distrib,
      ← ih fun st hst => h st (List.mem_append_left _ hst), Finset.sum_ite_eq,
      if_pos (Finset.mem_range.mpr (h a (by simp)))]
    simp

theorem sum_types (I : Instance) (f : ItemType → Int) : (I.itemTypes.map f).sum
    = ∑ i ∈ Finset.range I.numberOfItemTypes, f (I.itemType i) := by
  unfold Instance.numberOfItemTypes Instance.itemType
  induction I.itemTypes using List.reverseRecOn with
  | nil => rfl
  | append_singleton l a ih =>
    rw [List.map_append, List.sum_append, ih, List.length_append, List.length_singleton,
      Finset.sum_range_succ]
    congr 1
    · apply Finset.sum_congr rfl
      intro i hi
      rw [List.getD_append _ _ _ _ (Finset.mem_range.mp hi)]
    · simp

/-- A leaf contains the volume of all items. -/
theorem leaf_volume (hc : Ctx s) (h : Inv s n) (ht : Totals s n) (hl : leaf s n = true) :
    n.itemVolume = s.inst.itemVolume := by
  rw [ht.volume, hc.agg.itemVolume, sum_types,
    sum_steps n.steps s.inst.numberOfItemTypes (fun i => (s.inst.itemType i).volume) h.items]
  apply Finset.sum_congr rfl
  intro i hi
  rw [← itemCopies_packing h, (leaf_iff hc h).mp hl i (Finset.mem_range.mp hi)]
  rfl

theorem reached_zero (hn : Reached s n) (h0 : n.numberOfBins = 0) : n = s.rootNode := by
  cases hn with
  | root => rfl
  | child h hl hi hch =>
    have := (child_ok hch).bins0
    rw [(child_ok hch).numberOfBins] at h0
    omega

/-- Under `Slim`, the waste of a node is a lower bound on the waste of the leaves below it. -/
theorem waste_bound (hc : Ctx s) (hs : Slim s.inst s.parameters.direction) (hn : Reached s n)
    (hd : Descends s n m) (hl : leaf s m = true) :
    s.inst.itemVolume + n.waste ≤ closedVolume s m := by
  have hm := descends_reached hn hd
  have hg := (grows_descends hc hn hd).volume
  have ha := leaf_volume hc (inv_reached hc hm) (totals_reached hc hm) hl
  by_cases h0 : n.numberOfBins = 0
  · have e := reached_zero hn h0
    have e1 : closedVolume s n = 0 := by unfold closedVolume; rw [if_pos h0]
    have e2 : n.itemVolume = 0 := by rw [e]; rfl
    have e3 : n.waste = 0 := by rw [e]; rfl
    omega
  · have hB := (bnd_reached hc hs hn (by omega)).waste
    have : closedVolume s n = s.previousBinsVolume.getD (n.numberOfBins - 1) 0
        + faceVolume n.uncoveredItems := by unfold closedVolume; rw [if_neg h0]
    omega

end PackingSolver.Box.TreeSearch
