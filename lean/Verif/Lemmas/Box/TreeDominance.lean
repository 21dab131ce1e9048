import Verif.Lemmas.Box.TreeRank

/-! Helper lemmas: the dominance test of the box branching scheme. -/

namespace PackingSolver.Box.TreeSearch

open Box.Spec FlipLemmas
open PackingSolver.OneDim (getD_mem forall_mem_snoc)
open PackingSolver.OneDim.Spec (IsMaxWithZero)

variable {s : Scheme} {n n' : Node} {i : Insertion} {J : Instance} {b : Nat}
  {L : List PlacedItem} {us vs : List UncoveredItem}

/-- Above the floor, every cell of an uncovered item lies on an item that ends there. -/
def Exact (J : Instance) (L : List PlacedItem) (us : List UncoveredItem) : Prop :=
  ∀ u ∈ us, ∀ c, Covers u c → u.x = 0 ∨ ∃ p ∈ L, OnFace J p c ∧ u.x = p.x + (dims J p).x

theorem exact_step {a : PlacedItem} (h : Exact J L us)
    (hm : ∀ u ∈ us, u.ys < u.ye ∧ u.zs < u.ze) (hd : 0 < (dims J a).y) :
    Exact J (L ++ [a]) (faceOf J b us a) := by
  have hsh := updateDominance_shape (childUncovered us (a.x + (dims J a).x) a.y (a.y + (dims J a).y)
    a.z (a.z + (dims J a).z)) (a.x + (dims J a).x) a.y (a.y + (dims J a).y) a.z (a.z + (dims J a).z)
    (J.binType b).box.y (J.binType b).box.z J.smallestItemY J.smallestItemZ
  change (faceOf J b us a).map shape = _ at hsh
  intro w hw c hc
  obtain ⟨v, hv, e0, e1, e2, e3, e4⟩ := mem_shape hsh hw
  have hc : Covers v c := by unfold Covers at *; rwa [e1, e2, e3, e4] at hc
  rw [e0]
  rcases mem_child hv (by omega) hm with rfl | ⟨u, hu, f0, -, f1, f2, f3, f4⟩
  · exact .inr ⟨a, by simp, hc, rfl⟩
  · rw [f0]
    rcases h u hu c (by unfold Covers InRect at *; omega) with h1 | ⟨p, hp, h1, h2⟩
    · exact .inl h1
    · exact .inr ⟨p, by simp [hp], h1, h2⟩

theorem exact_reached (hc : Ctx s) (h : Reached s n) : 0 < n.numberOfBins →
    Exact (s.instanceOf n.lastBinDirection)
      ((inBin n.steps (n.numberOfBins - 1)).map Step.frame) n.uncoveredItems := by
  induction h with
  | root => intro h; exact absurd h (by simp [Scheme.rootNode])
  | @child n n' l i h hl hi hch ih =>
    intro _
    have hv := inv_reached hc h
    have ho := offer_of_mem hv.tiles hl hi
    have hC := child_ok hch
    have hpos := next_pos ho
    have hle := ho.le
    have hfr := hc.frame ho.dir
    have hbp := hfr.binPos _ (hc.id_lt (k := nextBins n i - 1) (by omega))
    have hL : (inBin n'.steps (n'.numberOfBins - 1)).map Step.frame
        = binItems n i ++ [insItem i] := by
      rw [hC.steps, hC.numberOfBins, inBin_snoc, if_pos (by dsimp only; omega), List.map_append]
      rfl
    have hf := before_face (n := n) (L := binItems n i) hbp.2.1 hbp.2.2
      (fun h0 => (binItems_old ho hv h0).face) (fun h0 => binItems_new ho hv h0)
    rw [hL, hC.direction, hC.face]
    refine exact_step ?_ (fun u hu => ⟨(hf.tiles.mem u hu).2.1, (hf.tiles.mem u hu).2.2.2.2.1⟩)
      (dims_pos hfr.sizes (p := insItem i) ho.item).2.1
    unfold beforeUncovered
    by_cases h0 : i.newBin = 0
    · rw [if_neg (by omega)]
      unfold binItems
      rw [nextBins_zero h0, nextDir_zero h0]
      exact ih (ho.cur h0)
    · rw [if_pos (by omega)]
      intro u hu c _
      rw [List.mem_singleton.mp hu]
      exact .inl rfl

/-- The end of the items on a line, in the frame of the bin. -/
theorem face_blocked (hf : FaceOk J b L us) (he : Exact J L us) {c : Int × Int} {u : UncoveredItem}
    (hu : u ∈ us) (hc : Covers u c) (h0 : 0 ≤ u.x) :
    IsMaxWithZero (((L.map (occupies J)).filter fun r =>
      decide (r.y ≤ c.1 ∧ c.1 < r.y + r.dy ∧ r.z ≤ c.2 ∧ c.2 < r.z + r.dz)).map
        fun r => r.x + r.dx) u.x := by
  refine ⟨?_, h0, ?_⟩
  · intro x hx
    obtain ⟨r, hr, rfl⟩ := List.mem_map.mp hx
    obtain ⟨hr, hin⟩ := List.mem_filter.mp hr
    obtain ⟨p, hp, rfl⟩ := List.mem_map.mp hr
    have hin := of_decide_eq_true hin
    rw [occupies_eq] at hin ⊢
    exact hf.tall u hu p hp c hc hin
  · rcases he u hu c hc with h | ⟨p, hp, hon, h⟩
    · exact .inl h
    · refine .inr (List.mem_map.mpr ⟨occupies J p, List.mem_filter.mpr
        ⟨List.mem_map.mpr ⟨p, hp, rfl⟩, decide_eq_true ?_⟩, ?_⟩)
      · rw [occupies_eq]; exact hon
      · rw [occupies_eq]; exact h.symm

theorem flipBox_invol (d : Direction) (r : Placed) : flipBox d (flipBox d r) = r := by
  cases d <;> rfl

/-- The end of the items of the last bin on a line, read from the uncovered items. -/
theorem node_blocked (hc : Ctx s) (hn : Reached s n) (h0 : 0 < n.numberOfBins) {c : Int × Int}
    {u : UncoveredItem} (hu : u ∈ n.uncoveredItems) (hcov : Covers u c) :
    u.x = blockedUpTo s.inst n.lastBinDirection (lastItems (pack s n)) c := by
  have h := inv_reached hc hn
  have hl := h.cur h0
  obtain ⟨K, hK⟩ : ∃ K, n.numberOfBins = K + 1 := ⟨n.numberOfBins - 1, by omega⟩
  have hpos : 0 ≤ u.x := by
    rcases hl.face.attained u hu with e | ⟨p, hp, e⟩
    · omega
    · have h1 := (hl.valid.packing.inside p hp).1
      have h2 := dims_pos (hc.frame h.dirNe).sizes (hl.valid.packing.exist p hp)
      have h1 : 0 ≤ p.x := h1
      omega
  have hb := face_blocked hl.face (exact_reached hc hn h0) hu hcov hpos
  have e : (lastItems (pack s n)).map (fun p => flipBox n.lastBinDirection (occupies s.inst p))
      = ((inBin n.steps (n.numberOfBins - 1)).map Step.frame).map
        (occupies (s.instanceOf n.lastBinDirection)) := by
    rw [last_items h hK, hK, Nat.add_sub_cancel, List.map_map]
    apply List.map_congr_left
    intro p hp
    obtain ⟨st, hst, rfl⟩ := List.mem_map.mp hp
    have := frame_occupies (hc.frame h.dirNe) (p := st.frame)
      (h.items st (List.mem_of_mem_filter hst))
    simp only [Function.comp_apply]
    rw [this, flipBox_invol]
  unfold blockedUpTo
  rw [e]
  exact Rect.isMaxWithZero_unique hb (Rect.isMaxWithZero_foldl _)

/-- Outside the face, nothing is blocked. -/
theorem blocked_outside (hc : Ctx s) (hn : Reached s n) (h0 : 0 < n.numberOfBins) {c : Int × Int}
    (hout : ¬ InRect 0 ((s.instanceOf n.lastBinDirection).binType
      (s.binTypeIds.getD (n.numberOfBins - 1) 0)).box.y 0 ((s.instanceOf n.lastBinDirection).binType
      (s.binTypeIds.getD (n.numberOfBins - 1) 0)).box.z c) :
    blockedUpTo s.inst n.lastBinDirection (lastItems (pack s n)) c = 0 := by
  have h := inv_reached hc hn
  have hl := h.cur h0
  obtain ⟨K, hK⟩ : ∃ K, n.numberOfBins = K + 1 := ⟨n.numberOfBins - 1, by omega⟩
  unfold blockedUpTo
  have : ((lastItems (pack s n)).map fun p => flipBox n.lastBinDirection (occupies s.inst p)).filter
      (fun r => decide (r.y ≤ c.1 ∧ c.1 < r.y + r.dy ∧ r.z ≤ c.2 ∧ c.2 < r.z + r.dz)) = [] := by
    rw [List.filter_eq_nil_iff]
    intro r hr hin
    have hin := of_decide_eq_true hin
    obtain ⟨p, hp, rfl⟩ := List.mem_map.mp hr
    rw [last_items h hK] at hp
    obtain ⟨q, hq, rfl⟩ := List.mem_map.mp hp
    obtain ⟨st, hst, rfl⟩ := List.mem_map.mp hq
    rw [frame_occupies (hc.frame h.dirNe) (p := st.frame)
      (h.items st (List.mem_of_mem_filter hst)), flipBox_invol] at hin
    have := hl.valid.packing.inside st.frame (by
      rw [hK, Nat.add_sub_cancel]; exact List.mem_map.mpr ⟨st, hst, rfl⟩)
    unfold Inside at this
    unfold InRect at hout
    omega
  rw [this]
  rfl

/-! ### The volume closed grows with the number of bins -/

theorem uncovered_nonneg (hc : Ctx s) (h : Inv s n) (h0 : 0 < n.numberOfBins) :
    ∀ u ∈ n.uncoveredItems, 0 ≤ u.x := by
  intro u hu
  have hl := h.cur h0
  rcases hl.face.attained u hu with e | ⟨p, hp, e⟩
  · omega
  · have h1 : 0 ≤ p.x := (hl.valid.packing.inside p hp).1
    have h2 := dims_pos (hc.frame h.dirNe).sizes (hl.valid.packing.exist p hp)
    omega

theorem faceVolume_pos (hc : Ctx s) (h : Inv s n) (h0 : 0 < n.numberOfBins) :
    0 < faceVolume n.uncoveredItems := by
  have hl := h.cur h0
  have hnn := uncovered_nonneg hc h h0
  obtain ⟨st, hst⟩ := List.exists_mem_of_ne_nil _ (h.curNe h0)
  have hp : st.frame ∈ (inBin n.steps (n.numberOfBins - 1)).map Step.frame :=
    List.mem_map.mpr ⟨st, hst, rfl⟩
  have hin := hl.valid.packing.inside _ hp
  have hd := dims_pos (hc.frame h.dirNe).sizes (hl.valid.packing.exist _ hp)
  rw [occupies_eq] at hin
  unfold Inside at hin
  dsimp only at hin
  obtain ⟨u, hu, hcov⟩ := hl.face.tiles.exists (c := (st.frame.y, st.frame.z))
    ⟨by omega, by omega, by omega, by omega⟩
  have hx := hl.face.tall u hu _ hp _ hcov ⟨le_refl _, by dsimp only; omega, le_refl _, by
    dsimp only; omega⟩
  have ha : ∀ v ∈ n.uncoveredItems, 0 < v.area := by
    intro v hv
    obtain ⟨-, h1, -, -, h2, -⟩ := hl.face.tiles.mem v hv
    exact mul_pos (by omega) (by omega)
  unfold faceVolume
  have hle := List.single_le_sum (l := n.uncoveredItems.map fun u => u.x * u.area) (by
    intro x hx
    obtain ⟨v, hv, rfl⟩ := List.mem_map.mp hx
    exact mul_nonneg (hnn v hv) (le_of_lt (ha v hv))) (u.x * u.area)
    (List.mem_map.mpr ⟨u, hu, rfl⟩)
  have := mul_pos (show 0 < u.x by omega) (ha u hu)
  omega

theorem binsVolume_mono (hc : Ctx s) {a b : Nat} (h : a ≤ b) (hb : b ≤ s.binTypeIds.length) :
    binsVolume s a ≤ binsVolume s b := by
  induction b with
  | zero => rw [show a = 0 by omega]
  | succ b ih =>
    by_cases e : a = b + 1
    · rw [e]
    · have h1 := ih (by omega) (by omega)
      have hlt : b < s.binTypeIds.length := by omega
      have h2 := (hc.frame (d := .x) (by simp)).binPos _ (hc.id_lt hlt)
      have h3 : 0 ≤ (s.inst.binType (s.binTypeIds.getD b 0)).volume :=
        le_of_lt (mul_pos (mul_pos h2.1 h2.2.1) h2.2.2)
      have e2 : binsVolume s b = s.previousBinsVolume.getD b 0 := by
        unfold binsVolume
        rw [hc.prev_eq hlt, List.map_take]
      rw [binsVolume_succ hc hlt]
      omega

/-- A node with fewer bins closes less volume. -/
theorem closedVolume_lt (hc : Ctx s) (hn : Reached s n) (hm : Reached s n')
    (hlt : n.numberOfBins < n'.numberOfBins) : closedVolume s n < closedVolume s n' := by
  have h1 := closedVolume_le hc (inv_reached hc hn)
  have h := inv_reached hc hm
  have hle := h.binsLe
  have h2 := binsVolume_mono hc (a := n.numberOfBins) (b := n'.numberOfBins - 1) (by omega) (by omega)
  have h3 := faceVolume_pos hc h (by omega)
  have e : closedVolume s n' = s.previousBinsVolume.getD (n'.numberOfBins - 1) 0
      + faceVolume n'.uncoveredItems := by unfold closedVolume; rw [if_neg (by omega)]
  have e2 : binsVolume s (n'.numberOfBins - 1) = s.previousBinsVolume.getD (n'.numberOfBins - 1) 0 := by
    unfold binsVolume
    rw [hc.prev_eq (by omega), List.map_take]
  omega

theorem closedVolume_leaf (hc : Ctx s) (hs : Slim s.inst s.parameters.direction) (hn : Reached s n)
    (hl : leaf s n = true) : closedVolume s n = s.inst.itemVolume + n.waste := by
  have ha := leaf_volume hc (inv_reached hc hn) (totals_reached hc hn) hl
  by_cases h0 : n.numberOfBins = 0
  · have e := reached_zero hn h0
    have e1 : closedVolume s n = 0 := by unfold closedVolume; rw [if_pos h0]
    have e2 : n.itemVolume = 0 := by rw [e]; rfl
    have e3 : n.waste = 0 := by rw [e]; rfl
    omega
  · have hB := (bnd_reached hc hs hn (by omega)).waste
    have : closedVolume s n = s.previousBinsVolume.getD (n.numberOfBins - 1) 0
        + faceVolume n.uncoveredItems := by unfold closedVolume; rw [if_neg h0]
    omega

end PackingSolver.Box.TreeSearch
