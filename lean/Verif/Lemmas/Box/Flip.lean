import Verif.Spec.BoxFlip
import Verif.Lemmas.Box.Built
import Verif.Lemmas.Box.Total
import Verif.Lemmas.OneDim.Copy

/-! Helper lemmas: what the box `InstanceFlipper::flip` builds. -/

namespace PackingSolver.Box

open InstanceBuilder Box.Spec
open PackingSolver.OneDim (take_succ_getD getD_mem)

namespace FlipLemmas

theorem ok_bind {α β : Type} (a : α) (f : α → Except Err β) : (Except.ok a >>= f) = f a := rfl

/-- A builder with other bin types. -/
def withBinTypes (b : InstanceBuilder) (l : List BinType) : InstanceBuilder :=
  { b with inst := { b.inst with binTypes := l } }

/-- A builder with other item types. -/
def withItemTypes (b : InstanceBuilder) (l : List ItemType) : InstanceBuilder :=
  { b with inst := { b.inst with itemTypes := l } }

theorem modifyBin_last (b : InstanceBuilder) (l : List BinType) (x : BinType)
    (f : BinType → Except Err BinType) :
    (withBinTypes b (l ++ [x])).modifyBin l.length f
      = match f x with
        | .error e => .error e
        | .ok y => .ok (withBinTypes b (l ++ [y])) := by
  unfold modifyBin
  have : (withBinTypes b (l ++ [x])).inst.binType l.length = x := by
    simp [withBinTypes, Instance.binType]
  rw [this, if_neg (by simp [withBinTypes])]
  cases f x with
  | error e => rfl
  | ok y => simp [withBinTypes]

theorem modifyItem_last (b : InstanceBuilder) (l : List ItemType) (x : ItemType)
    (f : ItemType → Except Err ItemType) :
    (withItemTypes b (l ++ [x])).modifyItem l.length f
      = match f x with
        | .error e => .error e
        | .ok y => .ok (withItemTypes b (l ++ [y])) := by
  unfold modifyItem
  have : (withItemTypes b (l ++ [x])).inst.itemType l.length = x := by
    simp [withItemTypes, Instance.itemType]
  rw [this, if_neg (by simp [withItemTypes])]
  cases f x with
  | error e => rfl
  | ok y => simp [withItemTypes]

theorem flipDims_eq (b : Dims) (d : Direction) : Flipper.flipDims b d = exchange d b := by
  cases d <;> rfl

theorem flippedRotation_eq {d : Direction} (hd : d ≠ .any) (r : Rotation) :
    Flipper.flippedRotation r d = .ok (exchangeRotation d r) := by
  cases d <;> first | exact absurd rfl hd | (cases r <;> rfl)

theorem flipRotations_eq {d : Direction} (hd : d ≠ .any) (l : List Rotation) :
    Flipper.flipRotations l d = .ok (l.map (exchangeRotation d)) := by
  unfold Flipper.flipRotations
  induction l with
  | nil => rfl
  | cons r l ih =>
    rw [List.mapM_cons, flippedRotation_eq hd, ih]
    rfl

theorem addRotations_last (b : InstanceBuilder) (l : List ItemType) (x : ItemType)
    (rs : List Rotation) :
    (withItemTypes b (l ++ [x])).addRotations l.length rs
      = .ok (withItemTypes b (l ++ [{ x with rotations := x.rotations ++ rs }])) := by
  induction rs generalizing x with
  | nil => simp [addRotations, pure, Except.pure]
  | cons r rs ih =>
    unfold addRotations at ih ⊢
    rw [List.foldlM_cons]
    unfold addItemTypeRotation at ih ⊢
    rw [modifyItem_last]
    change List.foldlM _ _ _ = _
    rw [ih]
    simp

/-- The bin type appended by the flipper. -/
def flipBin (d : Direction) (t : BinType) : BinType :=
  { box := exchange d t.box
    cost := if t.cost = -1 then (((exchange d t.box).x * (exchange d t.box).y : Int) : ℚ) else t.cost
    copies := t.copies, copiesMin := 0, maximumWeight := t.maximumWeight }

/-- The item type appended by the flipper. -/
def flipItem (d : Direction) (t : ItemType) : ItemType :=
  { box := t.box, profit := t.profit, copies := t.copies, copiesMin := -1,
    rotations := t.rotations.map (exchangeRotation d), weight := t.weight }

/-- What the flipper requires of a bin type. -/
structure BinOk (t : BinType) : Prop where
  x : 0 < t.box.x
  y : 0 < t.box.y
  z : 0 < t.box.z
  copies : t.copies = -1 ∨ 0 < t.copies
  cost : t.cost = -1 ∨ 0 < t.cost

/-- What the flipper requires of an item type. -/
structure ItemOk (t : ItemType) : Prop where
  x : 0 ≤ t.box.x
  y : 0 ≤ t.box.y
  z : 0 ≤ t.box.z
  copies : t.copies = -1 ∨ 0 < t.copies

theorem exchange_pos {d : Direction} {b : Dims} :
    (0 < (exchange d b).x ∧ 0 < (exchange d b).y ∧ 0 < (exchange d b).z)
      ↔ (0 < b.x ∧ 0 < b.y ∧ 0 < b.z) := by
  cases d <;> simp only [exchange] <;> tauto

theorem addBin_ok (orig : Instance) (d : Direction) (b : InstanceBuilder) (i : Nat) :
    (BinOk (orig.binType i) → Flipper.addBin orig d b i
      = .ok (withBinTypes b (b.inst.binTypes ++ [flipBin d (orig.binType i)])))
    ∧ (∀ b', Flipper.addBin orig d b i = .ok b' → BinOk (orig.binType i)) := by
  unfold Flipper.addBin
  dsimp only
  rw [flipDims_eq]
  generalize orig.binType i = t
  by_cases hp : 0 < t.box.x ∧ 0 < t.box.y ∧ 0 < t.box.z
  · have hp' := exchange_pos (d := d).mpr hp
    unfold addBinType
    rw [if_neg (by omega), if_neg (by omega), if_neg (by omega)]
    change (BinOk t → ((withBinTypes b (b.inst.binTypes ++ [_])).setBinTypeCost _ _ >>= _) = _)
      ∧ ∀ b', ((withBinTypes b (b.inst.binTypes ++ [_])).setBinTypeCost _ _ >>= _) = _ → _
    unfold setBinTypeCost
    rw [modifyBin_last]
    by_cases h1 : t.cost ≤ 0 ∧ t.cost ≠ -1
    · rw [if_pos h1]
      refine ⟨fun h => ?_, fun b' h => by cases h⟩
      rcases h.cost with h | h
      · exact absurd h h1.2
      · exact absurd h1.1 (not_le.mpr h)
    · rw [if_neg h1]
      change (BinOk t → ((withBinTypes b (b.inst.binTypes ++ [_])).setBinTypeCopies _ _ >>= _) = _)
        ∧ ∀ b', ((withBinTypes b (b.inst.binTypes ++ [_])).setBinTypeCopies _ _ >>= _) = _ → _
      unfold setBinTypeCopies
      rw [modifyBin_last]
      dsimp only
      by_cases h2 : t.copies = -1 ∨ 0 < t.copies
      · rw [if_neg (by omega)]
        change (BinOk t → (withBinTypes b (b.inst.binTypes ++ [_])).setBinTypeMaximumWeight _ _ = _)
          ∧ ∀ b', (withBinTypes b (b.inst.binTypes ++ [_])).setBinTypeMaximumWeight _ _ = _ → _
        unfold setBinTypeMaximumWeight
        rw [modifyBin_last]
        refine ⟨fun _ => rfl, fun b' _ => ⟨hp.1, hp.2.1, hp.2.2, h2, ?_⟩⟩
        by_cases hc : t.cost = -1
        · exact .inl hc
        · right; by_contra hn; exact h1 ⟨not_lt.mp hn, hc⟩
      · rw [if_pos (by omega)]
        exact ⟨fun h => absurd h.copies h2, fun b' h => by cases h⟩
  · refine ⟨fun h => absurd ⟨h.x, h.y, h.z⟩ hp, fun b' h => ?_⟩
    rw [← exchange_pos (d := d)] at hp
    obtain ⟨b1, h1, -⟩ := bind_ok.mp h
    unfold addBinType at h1
    split_ifs at h1 with hx hy hz
    exact absurd ⟨by omega, by omega, by omega⟩ hp

theorem addItem_ok (orig : Instance) {d : Direction} (hd : d ≠ .any) (b : InstanceBuilder)
    (i : Nat) :
    (ItemOk (orig.itemType i) → Flipper.addItem orig d b i
      = .ok (withItemTypes b (b.inst.itemTypes ++ [flipItem d (orig.itemType i)])))
    ∧ (∀ b', Flipper.addItem orig d b i = .ok b' → ItemOk (orig.itemType i)) := by
  unfold Flipper.addItem
  dsimp only
  generalize orig.itemType i = t
  by_cases hp : 0 ≤ t.box.x ∧ 0 ≤ t.box.y ∧ 0 ≤ t.box.z
  · unfold addItemType
    rw [if_neg (by omega), if_neg (by omega), if_neg (by omega)]
    change (ItemOk t → ((withItemTypes b (b.inst.itemTypes ++ [_])).setItemTypeProfit _ _ >>= _) = _)
      ∧ ∀ b', ((withItemTypes b (b.inst.itemTypes ++ [_])).setItemTypeProfit _ _ >>= _) = _ → _
    unfold setItemTypeProfit
    rw [modifyItem_last]
    change (ItemOk t → ((withItemTypes b (b.inst.itemTypes ++ [_])).setItemTypeCopies _ _ >>= _) = _)
      ∧ ∀ b', ((withItemTypes b (b.inst.itemTypes ++ [_])).setItemTypeCopies _ _ >>= _) = _ → _
    unfold setItemTypeCopies
    rw [modifyItem_last]
    by_cases h2 : t.copies = -1 ∨ 0 < t.copies
    · rw [if_neg (by omega), flipRotations_eq hd]
      change (ItemOk t → ((withItemTypes b (b.inst.itemTypes ++ [_])).addRotations _ _ >>= _) = _)
        ∧ ∀ b', ((withItemTypes b (b.inst.itemTypes ++ [_])).addRotations _ _ >>= _) = _ → _
      rw [addRotations_last]
      change (ItemOk t → (withItemTypes b (b.inst.itemTypes ++ [_])).setItemTypeWeight _ _ = _)
        ∧ ∀ b', (withItemTypes b (b.inst.itemTypes ++ [_])).setItemTypeWeight _ _ = _ → _
      unfold setItemTypeWeight
      rw [modifyItem_last]
      exact ⟨fun _ => rfl, fun b' _ => ⟨hp.1, hp.2.1, hp.2.2, h2⟩⟩
    · rw [if_pos (by omega)]
      exact ⟨fun h => absurd h.copies h2, fun b' h => by cases h⟩
  · refine ⟨fun h => absurd ⟨h.x, h.y, h.z⟩ hp, fun b' h => ?_⟩
    obtain ⟨b1, h1, -⟩ := bind_ok.mp h
    unfold addItemType at h1
    split_ifs at h1 with hx hy hz
    exact absurd ⟨by omega, by omega, by omega⟩ hp

theorem flip_bins {orig : Instance} {d : Direction} {b0 : InstanceBuilder}
    (h0 : b0.inst.binTypes = []) :
    ((∀ k, k < orig.numberOfBinTypes → BinOk (orig.binType k)) →
      (List.range orig.numberOfBinTypes).foldlM (Flipper.addBin orig d) b0
        = .ok (withBinTypes b0 (orig.binTypes.map (flipBin d))))
    ∧ (∀ b, (List.range orig.numberOfBinTypes).foldlM (Flipper.addBin orig d) b0 = .ok b →
      ∀ k, k < orig.numberOfBinTypes → BinOk (orig.binType k)) := by
  constructor
  · intro hok
    suffices h : ∀ n, n ≤ orig.numberOfBinTypes →
        (List.range n).foldlM (Flipper.addBin orig d) b0
          = .ok (withBinTypes b0 ((orig.binTypes.take n).map (flipBin d))) by
      have := h orig.numberOfBinTypes (le_refl _)
      unfold Instance.numberOfBinTypes at this ⊢
      rwa [List.take_length] at this
    intro n
    induction n with
    | zero =>
      intro _
      rw [List.take_zero, List.map_nil, ← h0]; rfl
    | succ n ih =>
      intro hn
      rw [List.range_succ, foldlM_snoc_ok]
      refine ⟨_, ih (by omega), ?_⟩
      rw [(addBin_ok orig d _ n).1 (hok n (by omega)), take_succ_getD _ n default hn]
      simp [withBinTypes, Instance.binType]
  · intro b h
    exact foldlM_range_inv (n := orig.numberOfBinTypes)
      (P := fun n _ => ∀ k, k < n → BinOk (orig.binType k)) (by simp) (by
        intro n a b2 hn ha hs k hk
        rcases Nat.lt_succ_iff_lt_or_eq.mp hk with h | rfl
        · exact ha k h
        · exact (addBin_ok orig d a k).2 b2 hs) h

theorem flip_items {orig : Instance} {d : Direction} (hd : d ≠ .any) {b0 : InstanceBuilder}
    (h0 : b0.inst.itemTypes = []) :
    ((∀ k, k < orig.numberOfItemTypes → ItemOk (orig.itemType k)) →
      (List.range orig.numberOfItemTypes).foldlM (Flipper.addItem orig d) b0
        = .ok (withItemTypes b0 (orig.itemTypes.map (flipItem d))))
    ∧ (∀ b, (List.range orig.numberOfItemTypes).foldlM (Flipper.addItem orig d) b0 = .ok b →
      ∀ k, k < orig.numberOfItemTypes → ItemOk (orig.itemType k)) := by
  constructor
  · intro hok
    suffices h : ∀ n, n ≤ orig.numberOfItemTypes →
        (List.range n).foldlM (Flipper.addItem orig d) b0
          = .ok (withItemTypes b0 ((orig.itemTypes.take n).map (flipItem d))) by
      have := h orig.numberOfItemTypes (le_refl _)
      unfold Instance.numberOfItemTypes at this ⊢
      rwa [List.take_length] at this
    intro n
    induction n with
    | zero =>
      intro _
      rw [List.take_zero, List.map_nil, ← h0]; rfl
    | succ n ih =>
      intro hn
      rw [List.range_succ, foldlM_snoc_ok]
      refine ⟨_, ih (by omega), ?_⟩
      rw [(addItem_ok orig hd _ n).1 (hok n (by omega)), take_succ_getD _ n default hn]
      simp [withItemTypes, Instance.itemType]
  · intro b h
    exact foldlM_range_inv (n := orig.numberOfItemTypes)
      (P := fun n _ => ∀ k, k < n → ItemOk (orig.itemType k)) (by simp) (by
        intro n a b2 hn ha hs k hk
        rcases Nat.lt_succ_iff_lt_or_eq.mp hk with h | rfl
        · exact ha k h
        · exact (addItem_ok orig hd a k).2 b2 hs) h

/-- The objective of the flipped instance. -/
def flipObjective (o : Objective) : Objective :=
  if o = .openDimensionY ∨ o = .openDimensionZ then .openDimensionX else o

/-- The builder from which the flipped instance is built. -/
def flipBuilder (orig : Instance) (d : Direction) : InstanceBuilder :=
  { inst := { objective := flipObjective orig.objective
              itemTypes := orig.itemTypes.map (flipItem d)
              binTypes := orig.binTypes.map (flipBin d) } }

theorem flip_eq (o : Objective) {orig : Instance} {d : Direction} (hd : d ≠ .any) :
    ((∀ k, k < orig.numberOfBinTypes → BinOk (orig.binType k)) →
      (∀ k, k < orig.numberOfItemTypes → ItemOk (orig.itemType k)) →
      Flipper.flip o orig d = (flipBuilder orig d).build)
    ∧ (∀ f, Flipper.flip o orig d = .ok f →
      (∀ k, k < orig.numberOfBinTypes → BinOk (orig.binType k))
      ∧ ∀ k, k < orig.numberOfItemTypes → ItemOk (orig.itemType k)) := by
  unfold Flipper.flip
  dsimp only
  constructor
  · intro hb hi
    rw [(flip_bins (by rfl)).1 hb, ok_bind, (flip_items hd (by rfl)).1 hi]
    rfl
  · intro f h
    obtain ⟨b1, h1, h⟩ := bind_ok.mp h
    obtain ⟨b2, h2, h⟩ := bind_ok.mp h
    have hb := (flip_bins (by rfl)).2 b1 h1
    refine ⟨hb, ?_⟩
    rw [(flip_bins (by rfl)).1 hb] at h1
    cases h1
    exact (flip_items hd (by rfl)).2 b2 h2

theorem flipBuilder_fresh {orig : Instance} {d : Direction}
    (hb : ∀ k, k < orig.numberOfBinTypes → BinOk (orig.binType k))
    (hi : ∀ k, k < orig.numberOfItemTypes → ItemOk (orig.itemType k)) :
    BFresh (flipBuilder orig d).inst := by
  refine ⟨⟨rfl, rfl, rfl, rfl, rfl, rfl, rfl, rfl, rfl, rfl⟩, ?_, ?_⟩
  · intro t ht
    obtain ⟨u, hu, rfl⟩ := List.mem_map.mp ht
    obtain ⟨k, hk, rfl⟩ := List.mem_iff_getElem.mp hu
    have hbk := hb k hk
    have e : orig.binType k = orig.binTypes[k] := List.getD_eq_getElem _ _ _
    rw [e] at hbk
    exact ⟨rfl, hbk.copies, le_refl _⟩
  · intro t ht
    obtain ⟨u, hu, rfl⟩ := List.mem_map.mp ht
    obtain ⟨k, hk, rfl⟩ := List.mem_iff_getElem.mp hu
    have hik := hi k hk
    have e : orig.itemType k = orig.itemTypes[k] := List.getD_eq_getElem _ _ _
    rw [e] at hik
    exact ⟨rfl, rfl, le_refl _, hik.x, hik.y, hik.z⟩

theorem flipBuilder_rotations {orig : Instance} (hs : Sizes orig) (d : Direction) :
    withRotations (flipBuilder orig d).inst = (flipBuilder orig d).inst := by
  unfold withRotations flipBuilder
  dsimp only
  congr 1
  rw [List.map_map]
  apply List.map_congr_left
  intro t ht
  have hr := (hs.items t ht).2.2.2.2
  change (if (flipItem d t).rotations = [] then _ else _) = _
  exact if_neg (by simpa [flipItem] using hr)

/-- What the flipper guarantees: the result is the instance with the axes exchanged, consistently
built, and the original satisfies the checks of the builder. -/
theorem flip_ok {o : Objective} {a f : Instance} {d : Direction} (hd : d ≠ .any)
    (ha : Aggregates a) (hs : Sizes a) (h : Flipper.flip o a d = .ok f) :
    FlippedOf d a f ∧ Aggregates f ∧ Sizes f
    ∧ (∀ k, k < a.numberOfBinTypes → BinOk (a.binType k))
    ∧ (∀ k, k < a.numberOfItemTypes → ItemOk (a.itemType k)) := by
  obtain ⟨hb, hi⟩ := (flip_eq o hd).2 f h
  rw [(flip_eq o hd).1 hb hi] at h
  have hF := flipBuilder_fresh (d := d) hb hi
  obtain ⟨hF0, hB⟩ := instance_built hF h
  have hw := flipBuilder_rotations hs d
  rw [hw] at hB
  have hR : ∀ t ∈ (flipBuilder a d).inst.itemTypes, t.rotations ≠ [] := by
    intro t ht
    obtain ⟨u, hu, rfl⟩ := List.mem_map.mp ht
    simpa [flipItem] using (hs.items u hu).2.2.2.2
  have hnum : f.numberOfItems = a.numberOfItems := by
    rw [hB.numberOfItems, ha.numberOfItems]
    unfold flipBuilder
    rw [List.map_map]; rfl
  have hli : f.itemTypes.length = a.itemTypes.length := by
    rw [hB.items_length]; simp [flipBuilder]
  have hlb : f.binTypes.length = a.binTypes.length := by
    rw [hB.bins]; simp [flipBuilder]
  have hbin : ∀ k, k < a.numberOfBinTypes →
      f.binType k = resolveBin a.numberOfItems (flipBin d (a.binType k)) := by
    intro k hk
    have hk' : k < a.binTypes.length := hk
    unfold Instance.binType
    rw [hB.bins, hnum, List.getD_eq_getElem _ _ (by simpa [flipBuilder] using hk'),
      List.getD_eq_getElem _ _ hk']
    simp [flipBuilder]
  have hitem0 : ∀ i, i < a.numberOfItemTypes →
      (flipBuilder a d).inst.itemType i = flipItem d (a.itemType i) := by
    intro i hi'
    have hi2 : i < a.itemTypes.length := hi'
    unfold Instance.itemType
    rw [List.getD_eq_getElem _ _ (by simpa [flipBuilder] using hi2), List.getD_eq_getElem _ _ hi2]
    simp [flipBuilder]
  refine ⟨⟨hB.objective, hli, hlb, fun i hi' => ?_, fun k hk => ?_, fun i hi' => ?_,
    fun k hk => ?_, fun p => ?_⟩, hB.aggregates hF hR, hB.sizes hF hR, hb, hi⟩
  · have key := fun {β : Type} (g : ItemType → β) hg hr => hB.item g hg hr i
    rw [hitem0 i hi'] at key
    refine ⟨?_, ?_, ?_, ?_, ?_⟩
    · exact key (·.box) (by intros; rfl) (fun o t => by unfold resolveItem; split_ifs <;> rfl)
    · exact key (·.rotations) (by intros; rfl) (fun o t => by unfold resolveItem; split_ifs <;> rfl)
    · exact key (·.profit) (by intros; rfl) (fun o t => by unfold resolveItem; split_ifs <;> rfl)
    · exact key (·.copies) (by intros; rfl) (fun o t => by unfold resolveItem; split_ifs <;> rfl)
    · exact key (·.weight) (by intros; rfl) (fun o t => by unfold resolveItem; split_ifs <;> rfl)
  · rw [hbin k hk]
    have hk' : k < a.binTypes.length := hk
    by_cases h1 : (a.binType k).copies = -1
    · have h2 : (resolveBin a.numberOfItems (flipBin d (a.binType k)))
          = { flipBin d (a.binType k) with copies := a.numberOfItems } := if_pos h1
      rw [h2]
      refine ⟨rfl, rfl, ?_, rfl⟩
      rcases (hs.bins _ (getD_mem default hk')).2 with h3 | h3
      · change 0 < (a.binType k).copies at h3; omega
      · exact h3.symm
    · have h2 : (resolveBin a.numberOfItems (flipBin d (a.binType k)))
          = flipBin d (a.binType k) := if_neg h1
      rw [h2]
      exact ⟨rfl, rfl, rfl, rfl⟩
  · obtain ⟨F, hF', -⟩ := hB.items
    have h1 : f.itemTypes.map (·.copiesMin) = (flipBuilder a d).inst.itemTypes.map
        (fun t => (resolveItem (flipBuilder a d).inst.objective t).copiesMin) := by
      rw [hF', map_withRes _ _ _ _ (by intros; rfl), List.map_map]; rfl
    have hi2 : i < a.itemTypes.length := hi'
    have hi3 : i < f.itemTypes.length := by omega
    have hi4 : i < (flipBuilder a d).inst.itemTypes.length := by simpa [flipBuilder] using hi2
    have h2 := congrArg (fun l => l[i]?) h1
    simp only [List.getElem?_map, List.getElem?_eq_getElem hi3, List.getElem?_eq_getElem hi4,
      Option.map_some, Option.some.injEq] at h2
    have h3 := hitem0 i hi'
    unfold Instance.itemType at h3 ⊢
    rw [List.getD_eq_getElem _ _ hi4] at h3
    rw [List.getD_eq_getElem _ _ hi3, h2, h3]
    change (resolveItem (flipObjective a.objective) _).copiesMin = _
    unfold resolveItem flipItem flipObjective
    by_cases h1 : a.objective = .knapsack
    · rw [h1]; rfl
    · have h4 : (if a.objective = .openDimensionY ∨ a.objective = .openDimensionZ
          then Objective.openDimensionX else a.objective) ≠ .knapsack := by
        split_ifs <;> simp [h1]
      simp [h1, h4]
  · rw [hbin k hk]
    have := resolveBin_fields a.numberOfItems (flipBin d (a.binType k))
    unfold resolveBin
    split_ifs <;> exact ⟨rfl, rfl⟩
  · rw [hB.callback]; rfl

/-- When the flipper succeeds. -/
theorem flip_succeeds (o : Objective) {a : Instance} {d : Direction} (hd : d ≠ .any)
    (hs : Sizes a) (ha : Flippable a) : ∃ f, Flipper.flip o a d = .ok f := by
  have hb : ∀ k, k < a.numberOfBinTypes → BinOk (a.binType k) := by
    intro k hk
    have h := ha.bins _ (getD_mem default hk)
    exact ⟨h.1.1, h.1.2.1, h.1.2.2, .inr h.2.1, h.2.2⟩
  have hi : ∀ k, k < a.numberOfItemTypes → ItemOk (a.itemType k) := by
    intro k hk
    have h := hs.items _ (getD_mem default hk)
    exact ⟨h.1.le, h.2.1.le, h.2.2.1.le, .inr (ha.items _ (getD_mem default hk))⟩
  rw [(flip_eq o hd).1 hb hi]
  have hF := flipBuilder_fresh (d := d) hb hi
  have hW : WellFormed (flipBuilder a d).inst := by
    refine ⟨?_, ?_, ?_⟩
    · intro t ht
      obtain ⟨u, hu, rfl⟩ := List.mem_map.mp ht
      have h := hs.items u hu
      exact ⟨h.1.ne', h.2.1.ne', h.2.2.1.ne'⟩
    · intro t ht
      obtain ⟨u, hu, rfl⟩ := List.mem_map.mp ht
      exact (ha.items u hu).le
    · intro t ht r hr
      obtain ⟨u, hu, rfl⟩ := List.mem_map.mp ht
      simp [flipBin] at hr
  have hBd : Buildable (flipBuilder a d).inst := by
    refine ⟨?_, ?_⟩
    · intro t ht
      obtain ⟨u, hu, rfl⟩ := List.mem_map.mp ht
      exact .inl rfl
    · intro ho
      have e : (((flipBuilder a d).inst.binTypes.map fun t =>
          if t.copies = -1 then ((flipBuilder a d).inst.itemTypes.map (·.copies)).sum
          else t.copies)) = a.binTypes.map (·.copies) := by
        unfold flipBuilder
        dsimp only
        rw [List.map_map]
        apply List.map_congr_left
        intro t ht
        have := (ha.bins t ht).2.1
        change (if t.copies = -1 then _ else _) = _
        exact if_neg (by omega)
      rw [e]
      apply ha.openDimension
      change flipObjective a.objective = _ ∨ flipObjective a.objective = _ at ho
      unfold flipObjective at ho
      by_cases hyz : a.objective = .openDimensionY ∨ a.objective = .openDimensionZ
      · exact .inr hyz
      · rw [if_neg hyz] at ho
        rcases ho with h | h
        · exact .inl h
        · exact .inr (.inl h)
  rcases build_cases hF hW with ⟨-, h⟩ | ⟨h, -⟩
  · exact h
  · exact absurd hBd h

end FlipLemmas

end PackingSolver.Box
