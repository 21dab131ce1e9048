import Verif.Lemmas.Box.TreeBin

/-! Helper lemmas: the child of a node and the last bin in the box branching scheme. -/

namespace PackingSolver.Box.TreeSearch

open Box.Spec
open PackingSolver.OneDim (getD_mem forall_mem_snoc)
open PackingSolver.OneDim.Spec (IsMaxWithZero)

/-! ### Insertions -/

theorem firstX_spec (us : List UncoveredItem) (ys ye zs ze : Int) :
    0 ≤ firstX us ys ye zs ze ∧ ∀ u ∈ us, ys < u.ye → u.ys < ye → zs < u.ze → u.zs < ze →
      u.x ≤ firstX us ys ye zs ze := by
  have key : ∀ (us : List UncoveredItem) (x : Int),
      x ≤ us.foldl (fun xs u => if u.ye ≤ ys ∨ u.ys ≥ ye then xs
        else if u.ze ≤ zs ∨ u.zs ≥ ze then xs else if xs < u.x then u.x else xs) x
      ∧ ∀ u ∈ us, ys < u.ye → u.ys < ye → zs < u.ze → u.zs < ze →
        u.x ≤ us.foldl (fun xs u => if u.ye ≤ ys ∨ u.ys ≥ ye then xs
        else if u.ze ≤ zs ∨ u.zs ≥ ze then xs else if xs < u.x then u.x else xs) x := by
    intro us
    induction us with
    | nil => intro x; exact ⟨le_refl _, by simp⟩
    | cons v us ih =>
      intro x
      rw [List.foldl_cons]
      obtain ⟨h1, h2⟩ := ih (if v.ye ≤ ys ∨ v.ys ≥ ye then x
        else if v.ze ≤ zs ∨ v.zs ≥ ze then x else if x < v.x then v.x else x)
      refine ⟨le_trans (by split_ifs <;> omega) h1, ?_⟩
      intro u hu a1 a2 a3 a4
      rcases List.mem_cons.mp hu with rfl | hu
      · exact le_trans (by split_ifs <;> omega) h1
      · exact h2 u hu a1 a2 a3 a4
  exact key us 0

/-- What is known of an insertion that was tried and accepted. -/
structure Tried (n : Node) (newBin : Nat) (a : PlacedItem) (J : Instance) (b : Nat) : Prop where
  y : a.y + ((J.itemType a.itemTypeId).box.rotate a.rotation).y ≤ (J.binType b).box.y
  z : a.z + ((J.itemType a.itemTypeId).box.rotate a.rotation).z ≤ (J.binType b).box.z
  x : a.x + ((J.itemType a.itemTypeId).box.rotate a.rotation).x ≤ (J.binType b).box.x
  x0 : 0 ≤ a.x
  weight : ExtQ.exceeded (if newBin = 0 then n.lastBinWeight + (J.itemType a.itemTypeId).weight
    else (J.itemType a.itemTypeId).weight) (J.binType b).maximumWeight = false
  resources : resourcesOk J (J.binType b) b a.itemTypeId (decide (newBin ≠ 0)) n = true
  over : newBin = 0 → ∀ u ∈ n.uncoveredItems,
    a.y < u.ye → u.ys < a.y + ((J.itemType a.itemTypeId).box.rotate a.rotation).y →
    a.z < u.ze → u.zs < a.z + ((J.itemType a.itemTypeId).box.rotate a.rotation).z → u.x ≤ a.x

/-- The item placed by an insertion, in the frame of its bin. -/
def insItem (ins : Insertion) : PlacedItem :=
  ⟨ins.itemTypeId, ins.x, ins.y, ins.z, ins.rotation⟩

/-- The direction of the bin an insertion is tried in. -/
def tryDir (n : Node) (newBin : Nat) : Direction :=
  if newBin = 0 then n.lastBinDirection else Scheme.newBinDirection newBin

/-- The type of the bin an insertion is tried in. -/
def tryBin (s : Scheme) (n : Node) (newBin : Nat) (newBinPos : Option Nat) : Nat :=
  if newBin = 0 then s.binTypeIds.getD (n.numberOfBins - 1) 0
  else s.binTypeIds.getD (newBinPos.getD 0) 0

/-- `insertionItem` once the bin and the position are known. -/
def tryAt (n : Node) (J : Instance) (b item : Nat) (r : Rotation) (newBin : Nat)
    (newBinPos yPos zPos : Option Nat) (ys zs : Int) : Option Insertion :=
  if ys + ((J.itemType item).box.rotate r).y > (J.binType b).box.y then none
  else if zs + ((J.itemType item).box.rotate r).z > (J.binType b).box.z then none
  else if ExtQ.exceeded (if newBin = 0 then n.lastBinWeight + (J.itemType item).weight
      else (J.itemType item).weight) (J.binType b).maximumWeight then none
  else if !resourcesOk J (J.binType b) b item (decide (newBin ≠ 0)) n then none
  else if !touches n.uncoveredItems ys (ys + ((J.itemType item).box.rotate r).y) zs
      (zs + ((J.itemType item).box.rotate r).z) yPos zPos then none
  else
  let xs := if newBin = 0 then firstX n.uncoveredItems ys (ys + ((J.itemType item).box.rotate r).y) zs
    (zs + ((J.itemType item).box.rotate r).z) else 0
  if xs + ((J.itemType item).box.rotate r).x > (J.binType b).box.x then none
  else if !beside n.uncoveredItems xs yPos zPos then none
  else some { itemTypeId := item, rotation := r, x := xs, y := ys, z := zs,
              newBin := newBin, newBinPos := newBinPos }

theorem insertionItem_eq (s : Scheme) (n : Node) (item : Nat) (r : Rotation) (newBin : Nat)
    (newBinPos yPos zPos : Option Nat) : insertionItem s n item r newBin newBinPos yPos zPos
    = tryAt n (s.instanceOf (tryDir n newBin)) (tryBin s n newBin newBinPos) item r newBin newBinPos
      yPos zPos (startAt n.uncoveredItems (·.ye) yPos) (startAt n.uncoveredItems (·.ze) zPos) := rfl

theorem insertionItem_some {s : Scheme} {n : Node} {item : Nat} {r : Rotation} {newBin : Nat}
    {newBinPos yPos zPos : Option Nat} {i : Insertion}
    (h : insertionItem s n item r newBin newBinPos yPos zPos = some i) :
    i = { itemTypeId := item, rotation := r, x := i.x, y := startAt n.uncoveredItems (·.ye) yPos,
          z := startAt n.uncoveredItems (·.ze) zPos, newBin := newBin, newBinPos := newBinPos }
    ∧ Tried n newBin (insItem i) (s.instanceOf (tryDir n newBin)) (tryBin s n newBin newBinPos) := by
  rw [insertionItem_eq] at h
  generalize s.instanceOf (tryDir n newBin) = J at h ⊢
  generalize tryBin s n newBin newBinPos = b at h ⊢
  generalize startAt n.uncoveredItems (·.ye) yPos = ys at h ⊢
  generalize startAt n.uncoveredItems (·.ze) zPos = zs at h ⊢
  unfold tryAt at h
  dsimp only at h
  by_cases h1 : ys + ((J.itemType item).box.rotate r).y > (J.binType b).box.y
  · rw [if_pos h1] at h; simp at h
  rw [if_neg h1] at h
  by_cases h2 : zs + ((J.itemType item).box.rotate r).z > (J.binType b).box.z
  · rw [if_pos h2] at h; simp at h
  rw [if_neg h2] at h
  generalize hw : ExtQ.exceeded _ _ = w at h
  cases w with
  | true => simp at h
  | false =>
    rw [if_neg (by simp)] at h
    generalize hr : resourcesOk J (J.binType b) b item (decide (newBin ≠ 0)) n = ro at h
    cases ro with
    | false => simp at h
    | true =>
      rw [if_neg (by simp)] at h
      generalize touches _ _ _ _ _ _ _ = t at h
      cases t with
      | false => simp at h
      | true =>
        rw [if_neg (by simp)] at h
        by_cases h3 : (if newBin = 0 then firstX n.uncoveredItems ys
            (ys + ((J.itemType item).box.rotate r).y) zs
            (zs + ((J.itemType item).box.rotate r).z) else 0)
            + ((J.itemType item).box.rotate r).x > (J.binType b).box.x
        · rw [if_pos h3] at h; simp at h
        rw [if_neg h3] at h
        generalize beside _ _ _ _ = t at h
        cases t with
        | false => simp at h
        | true =>
          rw [if_neg (by simp)] at h
          simp only [Option.some.injEq] at h
          subst h
          have hf := firstX_spec n.uncoveredItems ys (ys + ((J.itemType item).box.rotate r).y) zs
            (zs + ((J.itemType item).box.rotate r).z)
          refine ⟨rfl, not_lt.mp h1, not_lt.mp h2, not_lt.mp h3, ?_, hw, hr, ?_⟩
          · change 0 ≤ if newBin = 0 then _ else _
            split_ifs
            · exact hf.1
            · exact le_refl _
          · intro h0 u hu a1 a2 a3 a4
            change u.x ≤ if newBin = 0 then _ else _
            rw [if_pos h0]
            exact hf.2 u hu a1 a2 a3 a4

/-! ### Fields of a child -/

theorem rotate_volume (d : Dims) (r : Rotation) : (d.rotate r).volume = d.volume := by
  cases r <;> simp only [Dims.rotate, Dims.volume] <;> ring

theorem xeMax_spec (us : List UncoveredItem) : IsMaxWithZero (us.map (·.x)) (xeMax us) := by
  have key : ∀ (us : List UncoveredItem) (m : Int),
      m ≤ us.foldl (fun m u => if m < u.x then u.x else m) m
      ∧ (∀ u ∈ us, u.x ≤ us.foldl (fun m u => if m < u.x then u.x else m) m)
      ∧ (us.foldl (fun m u => if m < u.x then u.x else m) m = m
        ∨ us.foldl (fun m u => if m < u.x then u.x else m) m ∈ us.map (·.x)) := by
    intro us
    induction us with
    | nil => intro m; simp
    | cons v us ih =>
      intro m
      rw [List.foldl_cons]
      obtain ⟨h1, h2, h3⟩ := ih (if m < v.x then v.x else m)
      refine ⟨le_trans (by split_ifs <;> omega) h1, ?_, ?_⟩
      · intro u hu
        rcases List.mem_cons.mp hu with rfl | hu
        · exact le_trans (by split_ifs <;> omega) h1
        · exact h2 u hu
      · rcases h3 with h3 | h3
        · rw [h3]
          split_ifs
          · right; simp
          · left; rfl
        · right; rw [List.map_cons]; exact List.mem_cons_of_mem _ h3
  obtain ⟨h1, h2, h3⟩ := key us 0
  refine ⟨?_, h1, h3⟩
  rw [List.forall_mem_map]
  exact h2

/-- The uncovered items of a child. -/
def faceOf (J : Instance) (b : Nat) (us : List UncoveredItem) (a : PlacedItem) :
    List UncoveredItem :=
  let box := (J.itemType a.itemTypeId).box.rotate a.rotation
  updateDominance (childUncovered us (a.x + box.x) a.y (a.y + box.y) a.z (a.z + box.z))
    (a.x + box.x) a.y (a.y + box.y) a.z (a.z + box.z) (J.binType b).box.y (J.binType b).box.z
    J.smallestItemY J.smallestItemZ

/-- What `child` computes. -/
structure ChildOf (s : Scheme) (n : Node) (ins : Insertion) (J : Instance) (b : Nat) (n' : Node) :
    Prop where
  dirOk : nextDir n ins ≠ .any
  bins0 : 0 < nextBins n ins
  binsLe : nextBins n ins ≤ s.binTypeIds.length
  item : ins.itemTypeId < J.numberOfItemTypes
  steps : n'.steps = n.steps ++ [⟨ins.itemTypeId, ins.rotation, ins.x, ins.y, ins.z,
    nextDir n ins, nextBins n ins⟩]
  direction : n'.lastBinDirection = nextDir n ins
  numberOfBins : n'.numberOfBins = nextBins n ins
  face : n'.uncoveredItems = faceOf J b (beforeUncovered n ins (J.binType b)) (insItem ins)
  weight : n'.lastBinWeight = if ins.newBin = 0
    then n.lastBinWeight + (J.itemType ins.itemTypeId).weight
    else (J.itemType ins.itemTypeId).weight
  copies : n'.itemNumberOfCopies = addAt n.itemNumberOfCopies ins.itemTypeId 1
  numberOfItems : n'.numberOfItems = n.numberOfItems + 1
  itemVolume : n'.itemVolume = n.itemVolume + (J.itemType ins.itemTypeId).box.volume
  itemWeight : n'.itemWeight = n.itemWeight + (J.itemType ins.itemTypeId).weight
  resCopies : n'.lastBinItemNumberOfCopies = (childResources J (J.binType b) b ins.itemTypeId
    (decide (ins.newBin > 0)) n (n.profit + (J.itemType ins.itemTypeId).profit)).1
  resCons : n'.lastBinResourceConsumption = (childResources J (J.binType b) b ins.itemTypeId
    (decide (ins.newBin > 0)) n (n.profit + (J.itemType ins.itemTypeId).profit)).2.consumption
  profit : n'.profit = (childResources J (J.binType b) b ins.itemTypeId
    (decide (ins.newBin > 0)) n (n.profit + (J.itemType ins.itemTypeId).profit)).2.profit
  xeMax : n'.xeMax = TreeSearch.xeMax n'.uncoveredItems
  currentVolume : n'.currentVolume = TreeSearch.currentVolume
    (s.previousBinsVolume.getD (nextBins n ins - 1) 0) n'.uncoveredItems
  waste : n'.waste = n'.currentVolume - n'.itemVolume

theorem child_ok {s : Scheme} {n n' : Node} {ins : Insertion} (h : child s n ins = .ok n') :
    ChildOf s n ins (s.instanceOf (nextDir n ins)) (s.binTypeIds.getD (nextBins n ins - 1) 0) n' := by
  unfold child at h
  dsimp only at h
  by_cases h0 : nextDir n ins = .any
  · rw [if_pos h0] at h; simp at h
  rw [if_neg h0] at h
  by_cases hr : nextBins n ins = 0 ∨ nextBins n ins > s.binTypeIds.length
      ∨ ins.itemTypeId ≥ (s.instanceOf (nextDir n ins)).numberOfItemTypes
  · rw [if_pos hr] at h; simp at h
  rw [if_neg hr] at h
  by_cases hz : ins.z + (((s.instanceOf (nextDir n ins)).itemType ins.itemTypeId).box.rotate
      ins.rotation).z > ((s.instanceOf (nextDir n ins)).binType
        (s.binTypeIds.getD (nextBins n ins - 1) 0)).box.z
  · rw [if_pos hz] at h; simp at h
  rw [if_neg hz] at h
  simp only [Except.ok.injEq] at h
  subst h
  exact ⟨h0, by omega, by omega, by omega, rfl, rfl, rfl, rfl, rfl, rfl, rfl,
    by dsimp only; rw [rotate_volume], rfl, rfl, rfl, rfl, rfl, rfl, rfl⟩

theorem child_accepts {s : Scheme} {n : Node} {ins : Insertion} (h0 : nextDir n ins ≠ .any)
    (h1 : 0 < nextBins n ins) (h2 : nextBins n ins ≤ s.binTypeIds.length)
    (h3 : ins.itemTypeId < (s.instanceOf (nextDir n ins)).numberOfItemTypes)
    (h4 : ins.z + (((s.instanceOf (nextDir n ins)).itemType ins.itemTypeId).box.rotate
      ins.rotation).z ≤ ((s.instanceOf (nextDir n ins)).binType
        (s.binTypeIds.getD (nextBins n ins - 1) 0)).box.z) :
    ∃ n', child s n ins = .ok n' := by
  unfold child
  dsimp only
  rw [if_neg h0, if_neg (by omega), if_neg (not_lt.mpr h4)]
  exact ⟨_, rfl⟩

/-! ### The last bin -/

/-- The sides of an item, as it lies in its bin. -/
def dims (J : Instance) (p : PlacedItem) : Dims := (J.itemType p.itemTypeId).box.rotate p.rotation

theorem occupies_eq (J : Instance) (p : PlacedItem) :
    occupies J p = ⟨p.x, p.y, p.z, (dims J p).x, (dims J p).y, (dims J p).z⟩ := by
  unfold occupies dims
  rw [rotate_eq]

theorem dims_pos {J : Instance} (hs : Sizes J) {p : PlacedItem}
    (hi : p.itemTypeId < J.numberOfItemTypes) :
    0 < (dims J p).x ∧ 0 < (dims J p).y ∧ 0 < (dims J p).z := by
  have := hs.items _ (getD_mem default hi)
  obtain ⟨h1, h2, h3, -⟩ := this
  unfold dims Instance.itemType
  cases p.rotation <;> simp only [Dims.rotate] <;> exact ⟨by assumption, by assumption, by assumption⟩

/-- The rectangle of an item on the face of the bin. -/
def OnFace (J : Instance) (p : PlacedItem) (c : Int × Int) : Prop :=
  InRect p.y (p.y + (dims J p).y) p.z (p.z + (dims J p).z) c

/-- The uncovered items describe the items of the bin. -/
structure FaceOk (J : Instance) (b : Nat) (L : List PlacedItem) (us : List UncoveredItem) :
    Prop where
  tiles : Tiles us (J.binType b).box.y (J.binType b).box.z
  tall : ∀ u ∈ us, ∀ p ∈ L, ∀ c, Covers u c → OnFace J p c → p.x + (dims J p).x ≤ u.x
  attained : ∀ u ∈ us, u.x = 0 ∨ ∃ p ∈ L, u.x = p.x + (dims J p).x

theorem faceOk_whole {J : Instance} {b : Nat} (hy : 0 < (J.binType b).box.y)
    (hz : 0 < (J.binType b).box.z) :
    FaceOk J b [] [⟨0, 0, 0, (J.binType b).box.y, 0, (J.binType b).box.z⟩] :=
  ⟨tiles_whole hy hz, by simp, by simp⟩

theorem faceOk_step {J : Instance} {b : Nat} {L : List PlacedItem} {us : List UncoveredItem}
    {a : PlacedItem} (h : FaceOk J b L us) (hd : 0 < (dims J a).x ∧ 0 < (dims J a).y ∧ 0 < (dims J a).z)
    (hy0 : 0 ≤ a.y) (hz0 : 0 ≤ a.z) (hy : a.y + (dims J a).y ≤ (J.binType b).box.y)
    (hz : a.z + (dims J a).z ≤ (J.binType b).box.z)
    (hx : ∀ u ∈ us, a.y < u.ye → u.ys < a.y + (dims J a).y → a.z < u.ze →
      u.zs < a.z + (dims J a).z → u.x ≤ a.x) :
    FaceOk J b (L ++ [a]) (faceOf J b us a) := by
  have hsh := updateDominance_shape (childUncovered us (a.x + (dims J a).x) a.y (a.y + (dims J a).y)
    a.z (a.z + (dims J a).z)) (a.x + (dims J a).x) a.y (a.y + (dims J a).y) a.z (a.z + (dims J a).z)
    (J.binType b).box.y (J.binType b).box.z J.smallestItemY J.smallestItemZ
  change (faceOf J b us a).map shape = _ at hsh
  have ht := tiles_child (xe := a.x + (dims J a).x) h.tiles hy0 (show a.y < a.y + (dims J a).y by omega)
    hy hz0 (show a.z < a.z + (dims J a).z by omega) hz
  have hmem := fun v hv => mem_child (us := us) (v := v) (xe := a.x + (dims J a).x) (ys := a.y)
    (ye := a.y + (dims J a).y) (zs := a.z) (ze := a.z + (dims J a).z) hv (by omega)
    (fun u hu => ⟨(h.tiles.mem u hu).2.1, (h.tiles.mem u hu).2.2.2.2.1⟩)
  have hnew : (⟨a.x + (dims J a).x, a.x + (dims J a).x, a.y, a.y + (dims J a).y, a.z,
      a.z + (dims J a).z⟩ : UncoveredItem) ∈ childUncovered us (a.x + (dims J a).x) a.y
      (a.y + (dims J a).y) a.z (a.z + (dims J a).z) := by
    unfold childUncovered; simp
  refine ⟨ht.shape hsh, ?_, ?_⟩
  · intro w hw
    obtain ⟨v, hv, e0, e1, e2, e3, e4⟩ := mem_shape hsh hw
    have hcov : ∀ c, Covers w c → Covers v c := by
      intro c hc; unfold Covers at *; rwa [e1, e2, e3, e4] at hc
    rw [e0]
    intro p hpm
    rcases List.mem_append.mp hpm with hp | hp
    · intro c hc hon
      have hc := hcov c hc
      rcases hmem v hv with rfl | ⟨u, hu, f0, -, f1, f2, f3, f4⟩
      · have hin : InRect 0 (J.binType b).box.y 0 (J.binType b).box.z c := by
          unfold Covers InRect at *; dsimp only at hc; omega
        obtain ⟨u, hu, huc⟩ := h.tiles.exists hin
        have h1 := h.tall u hu p hp c huc hon
        have h2 := hx u hu (by unfold Covers InRect at *; dsimp only at hc; omega)
          (by unfold Covers InRect at *; dsimp only at hc; omega)
          (by unfold Covers InRect at *; dsimp only at hc; omega)
          (by unfold Covers InRect at *; dsimp only at hc; omega)
        dsimp only
        omega
      · rw [f0]
        refine h.tall u hu p hp c ?_ hon
        unfold Covers InRect at *
        omega
    · rw [List.mem_singleton.mp hp]
      intro c hc hon
      have hc := hcov c hc
      have h1 : InRect 0 (J.binType b).box.y 0 (J.binType b).box.z c := by
        unfold OnFace InRect at *; omega
      have h2 := over_eq_of_covers (ht.once c h1) (·.x) hv hc
      have h3 := over_eq_of_covers (ht.once c h1) (·.x) hnew hon
      rw [h2] at h3
      exact le_of_eq h3.symm
  · intro w hw
    obtain ⟨v, hv, e0, -⟩ := mem_shape hsh hw
    rw [e0]
    rcases hmem v hv with rfl | ⟨u, hu, f0, -⟩
    · exact .inr ⟨a, by simp, rfl⟩
    · rw [f0]
      rcases h.attained u hu with h1 | ⟨p, hp, h1⟩
      · exact .inl h1
      · exact .inr ⟨p, by simp [hp], h1⟩

/-- What holds of the last bin of a node; `J` is the instance in the direction of the bin, `b` its
type and `L` its items. -/
structure LastOk (J : Instance) (b : Nat) (L : List PlacedItem) (n : Node) : Prop where
  valid : BinValid J b L
  hard : HardOk J b L
  res : 0 < (J.binType b).resources.length →
    Res J b L n.lastBinItemNumberOfCopies n.lastBinResourceConsumption
  face : FaceOk J b L n.uncoveredItems
  weight : n.lastBinWeight = binWeight J L
  xeMax : IsMaxWithZero (L.map (rightEnd J)) n.xeMax

variable {s : Scheme} {n n' : Node} {J : Instance} {b : Nat} {L : List PlacedItem} {ins : Insertion}

/-- The uncovered items before an insertion. -/
theorem before_face (hy : 0 < (J.binType b).box.y) (hz : 0 < (J.binType b).box.z)
    (hold : ins.newBin = 0 → FaceOk J b L n.uncoveredItems) (hnew : ins.newBin ≠ 0 → L = []) :
    FaceOk J b L (beforeUncovered n ins (J.binType b)) := by
  unfold beforeUncovered
  by_cases h0 : ins.newBin = 0
  · rw [if_neg (by omega)]; exact hold h0
  · rw [if_pos (by omega), hnew h0]; exact faceOk_whole hy hz

theorem before_over (hT : Tried n ins.newBin (insItem ins) J b) :
    ∀ u ∈ beforeUncovered n ins (J.binType b), ins.y < u.ye →
      u.ys < ins.y + (dims J (insItem ins)).y → ins.z < u.ze →
      u.zs < ins.z + (dims J (insItem ins)).z → u.x ≤ ins.x := by
  unfold beforeUncovered
  by_cases h0 : ins.newBin = 0
  · rw [if_neg (by omega)]; exact hT.over h0
  · rw [if_pos (by omega)]
    intro u hu _ _ _ _
    rw [List.mem_singleton.mp hu]
    exact hT.x0

/-- The packing after an offered insertion. -/
theorem offer_packing {a : PlacedItem} {us : List UncoveredItem} (hs : Sizes J)
    (hi : a.itemTypeId < J.numberOfItemTypes) (hv : BinPacking J b L) (h : FaceOk J b L us)
    (hx0 : 0 ≤ a.x) (hy0 : 0 ≤ a.y) (hz0 : 0 ≤ a.z)
    (hx : a.x + (dims J a).x ≤ (J.binType b).box.x)
    (hy : a.y + (dims J a).y ≤ (J.binType b).box.y)
    (hz : a.z + (dims J a).z ≤ (J.binType b).box.z)
    (hrot : a.rotation ∈ (J.itemType a.itemTypeId).rotations)
    (ho : ∀ u ∈ us, a.y < u.ye → u.ys < a.y + (dims J a).y → a.z < u.ze →
      u.zs < a.z + (dims J a).z → u.x ≤ a.x) : BinPacking J b (L ++ [a]) := by
  have hd := dims_pos hs hi
  refine ⟨?_, ?_, ?_, ?_⟩
  · exact forall_mem_snoc.mpr ⟨hv.exist, hi⟩
  · exact forall_mem_snoc.mpr ⟨hv.rotation, hrot⟩
  · refine forall_mem_snoc.mpr ⟨hv.inside, ?_⟩
    rw [occupies_eq]
    exact ⟨hx0, hx, hy0, hy, hz0, hz⟩
  · rw [List.pairwise_append]
    refine ⟨hv.separated, List.pairwise_singleton _ _, ?_⟩
    intro p hp q hq
    rw [List.mem_singleton.mp hq, occupies_eq, occupies_eq]
    have hdp := dims_pos hs (hv.exist p hp)
    by_contra hsep
    unfold Separated at hsep
    dsimp only at hsep
    have hc : OnFace J p (max p.y a.y, max p.z a.z) ∧ OnFace J a (max p.y a.y, max p.z a.z) := by
      unfold OnFace InRect; dsimp only; omega
    have hin : InRect 0 (J.binType b).box.y 0 (J.binType b).box.z (max p.y a.y, max p.z a.z) := by
      have := hc.2; unfold OnFace InRect at *; dsimp only at *; omega
    obtain ⟨u, hu, huc⟩ := h.tiles.exists hin
    have h1 := h.tall u hu p hp _ huc hc.1
    have h2 := ho u hu (by have := hc.2; unfold Covers OnFace InRect at *; dsimp only at *; omega)
      (by have := hc.2; unfold Covers OnFace InRect at *; dsimp only at *; omega)
      (by have := hc.2; unfold Covers OnFace InRect at *; dsimp only at *; omega)
      (by have := hc.2; unfold Covers OnFace InRect at *; dsimp only at *; omega)
    omega

/-- The resources after an insertion. -/
theorem child_res (hC : ChildOf s n ins J b n') (hb : b < J.numberOfBinTypes)
    (hR : ResourceIdsOk J) (hr : 0 < (J.binType b).resources.length)
    (hold : ins.newBin = 0 → Res J b L n.lastBinItemNumberOfCopies n.lastBinResourceConsumption)
    (hnew : ins.newBin ≠ 0 → L = []) :
    Res J b (L ++ [insItem ins]) n'.lastBinItemNumberOfCopies n'.lastBinResourceConsumption := by
  rw [hC.resCopies, hC.resCons]
  unfold childResources
  rw [if_pos hr]
  by_cases h0 : ins.newBin = 0
  · rw [if_neg (by simp [h0])]
    exact res_step (a := insItem ins) (hold h0) hb hR hC.item
  · rw [if_pos (by simpa using by omega), hnew h0]
    have h1 := res_step (a := insItem ins)
      (profit := n.profit + (J.itemType ins.itemTypeId).profit) (res_nil J b) hb hR hC.item
    have hids := hR ins.itemTypeId hC.item b hb
    have hz : (List.replicate J.numberOfItemTypes 0).getD (insItem ins).itemTypeId 0 = 0 := by
      have : (insItem ins).itemTypeId < J.numberOfItemTypes := hC.item
      simp [List.getD_eq_getElem?_getD, this]
    rw [hz] at h1
    have h2 := (newBinFold_eq (J.binType b) ins.itemTypeId _ hids.1
      ⟨List.replicate (J.binType b).resources.length 0,
        n.profit + (J.itemType ins.itemTypeId).profit⟩ (by
        intro r hr
        have := ((hids.2 r).mp hr).1
        simp [List.getD_eq_getElem?_getD, this])).1
    dsimp only
    rw [h2]
    have e : (List.replicate J.numberOfItemTypes 0).set ins.itemTypeId 1
        = (List.replicate J.numberOfItemTypes 0).modify ins.itemTypeId (· + 1) := by
      have := hC.item
      rw [List.modify_eq_set_getElem?]
      simp [this]
    rw [e]
    exact h1

/-- The hard resources after an offered insertion. -/
theorem offer_hard (hT : Tried n ins.newBin (insItem ins) J b)
    (hi : ins.itemTypeId < J.numberOfItemTypes) (hb : b < J.numberOfBinTypes) (hR : ResourceIdsOk J)
    (hc : CapacitiesNonneg J) (hr : 0 < (J.binType b).resources.length)
    (hold : ins.newBin = 0 → HardOk J b L
      ∧ Res J b L n.lastBinItemNumberOfCopies n.lastBinResourceConsumption)
    (hnew : ins.newBin ≠ 0 → L = []) : HardOk J b (L ++ [insItem ins]) := by
  have hres := hT.resources
  unfold resourcesOk at hres
  rw [if_pos hr, List.all_eq_true] at hres
  have hids := hR ins.itemTypeId hi b hb
  refine hardOk_step ?_ hb hR hi ?_
  · by_cases h0 : ins.newBin = 0
    · exact (hold h0).1
    · rw [hnew h0]; exact hardOk_nil hb hc
  · intro r hr' hpen
    have h1 := hres r hr'
    have hrl := ((hids.2 r).mp hr').1
    change ((resAt (J.binType b) r).penalize || _) = true at h1
    rw [hpen, Bool.false_or] at h1
    simp only [Bool.not_eq_true', decide_eq_false_iff_not, not_lt] at h1
    rw [consumption_snoc _ _ _ _ hi]
    refine le_trans (le_of_eq ?_) h1
    by_cases h0 : ins.newBin = 0
    · rw [if_neg (by simp [h0]), (hold h0).2.cons r hrl, (hold h0).2.copies (insItem ins).itemTypeId hi]
    · rw [if_pos (by simp [h0]), hnew h0, consumption_nil, zero_add]
      rfl

/-- The weight after an offered insertion. -/
theorem offer_weight (hT : Tried n ins.newBin (insItem ins) J b)
    (hold : ins.newBin = 0 → n.lastBinWeight = binWeight J L)
    (hnew : ins.newBin ≠ 0 → L = []) (m : ℚ) (hm : (J.binType b).maximumWeight = .fin m) :
    binWeight J (L ++ [insItem ins]) ≤ m * (1 + 1 / 10 ^ 9) := by
  have h := hT.weight
  rw [hm] at h
  unfold ExtQ.exceeded at h
  simp only [decide_eq_false_iff_not, not_lt] at h
  change _ ≤ m * (1 + 1 / 10 ^ 9) at h
  refine le_trans (le_of_eq ?_) h
  rw [binWeight_snoc]
  by_cases h0 : ins.newBin = 0
  · rw [if_pos h0, ← hold h0]
  · rw [if_neg h0, hnew h0]; simp [binWeight]

theorem rightEnd_eq (J : Instance) (p : PlacedItem) : rightEnd J p = p.x + (dims J p).x := by
  unfold rightEnd
  rw [occupies_eq]

/-- The largest right end of the uncovered items is that of the items. -/
theorem face_max {us : List UncoveredItem} {m : Int} (hs : Sizes J) (hv : BinPacking J b L)
    (h : FaceOk J b L us) (hm : IsMaxWithZero (us.map (·.x)) m) :
    IsMaxWithZero (L.map (rightEnd J)) m := by
  obtain ⟨h1, h2, h3⟩ := hm
  refine ⟨?_, h2, ?_⟩
  · intro x hx
    obtain ⟨p, hp, rfl⟩ := List.mem_map.mp hx
    have hi := hv.inside p hp
    have hd := dims_pos hs (hv.exist p hp)
    rw [occupies_eq] at hi
    obtain ⟨i1, i2, i3, i4, i5, i6⟩ := hi
    dsimp only at i1 i2 i3 i4 i5 i6
    have hon : OnFace J p (p.y, p.z) := by unfold OnFace InRect; dsimp only; omega
    obtain ⟨u, hu, huc⟩ := h.tiles.exists (c := (p.y, p.z)) (by unfold InRect; dsimp only; omega)
    rw [rightEnd_eq]
    exact le_trans (h.tall u hu p hp _ huc hon) (h1 _ (List.mem_map.mpr ⟨u, hu, rfl⟩))
  · rcases h3 with h3 | h3
    · exact Or.inl h3
    · obtain ⟨u, hu, e⟩ := List.mem_map.mp h3
      rcases h.attained u hu with h4 | ⟨p, hp, h4⟩
      · exact Or.inl (e ▸ h4)
      · exact Or.inr (List.mem_map.mpr ⟨p, hp, by rw [rightEnd_eq, ← e, h4]⟩)

/-- The last bin of a child. -/
theorem last_step (hT : Tried n ins.newBin (insItem ins) J b) (hC : ChildOf s n ins J b n')
    (hR : ResourceIdsOk J) (hs : Sizes J) (hcap : CapacitiesNonneg J) (hy : 0 ≤ ins.y)
    (hz : 0 ≤ ins.z) (hb : b < J.numberOfBinTypes) (hby : 0 < (J.binType b).box.y)
    (hbz : 0 < (J.binType b).box.z)
    (hrot : ins.rotation ∈ (J.itemType ins.itemTypeId).rotations)
    (hold : ins.newBin = 0 → LastOk J b L n) (hnew : ins.newBin ≠ 0 → L = []) :
    LastOk J b (L ++ [insItem ins]) n' := by
  have hi := hC.item
  have hv : BinPacking J b L := by
    by_cases h0 : ins.newBin = 0
    · exact (hold h0).valid.packing
    · rw [hnew h0]; exact ⟨by simp, by simp, by simp, List.Pairwise.nil⟩
  have hf := before_face (n := n) hby hbz (fun h0 => (hold h0).face) hnew
  have hp := offer_packing (a := insItem ins) hs hi hv hf hT.x0 hy hz hT.x hT.y hT.z hrot
    (before_over hT)
  have hface : FaceOk J b (L ++ [insItem ins]) n'.uncoveredItems := by
    rw [hC.face]
    exact faceOk_step hf (dims_pos hs hi) hy hz hT.y hT.z (before_over hT)
  have hhard : HardOk J b (L ++ [insItem ins]) := by
    by_cases hr : 0 < (J.binType b).resources.length
    · exact offer_hard hT hi hb hR hcap hr (fun h0 => ⟨(hold h0).hard, (hold h0).res hr⟩) hnew
    · intro r hr'
      have : (J.binType b).resources = [] := by
        rw [← List.length_eq_zero_iff]; omega
      rw [this] at hr'; simp at hr'
  refine ⟨⟨hp, fun _ m hm => offer_weight hT (fun h0 => (hold h0).weight) hnew m hm⟩, hhard,
    fun hr => child_res hC hb hR hr (fun h0 => (hold h0).res hr) hnew, hface, ?_, ?_⟩
  · rw [hC.weight, binWeight_snoc]
    by_cases h0 : ins.newBin = 0
    · rw [if_pos h0, (hold h0).weight]; rfl
    · rw [if_neg h0, hnew h0]; simp [binWeight, insItem]
  · exact face_max hs hp hface (by rw [hC.xeMax]; exact xeMax_spec _)

end PackingSolver.Box.TreeSearch
