import Verif.Lemmas.Rect.Sweep
import Mathlib.Data.List.Nodup

/-!
# The modified instance of Clautiaux et al.

Lemmas: a packing of all items in `m` bins gives a packing of the modified instance in `2 m` bins.
-/

namespace PackingSolver.Rect.DffLemmas

open Dff _root_.PackingSolver.Rect.Spec

variable {inst : Instance}

/-! ## Placements by key -/

/-- A placement of the item named by a key. -/
structure Keyed (κ : Type) where
  key : κ
  x : Int
  y : Int

/-- The rectangle of a keyed placement. -/
def Keyed.rect {κ : Type} (f : κ → ItemType) (k : Keyed κ) : Placed :=
  ⟨k.x, k.y, (f k.key).x, (f k.key).y⟩

/-- The placed item of a keyed placement. -/
def Keyed.toPlaced {κ : Type} [DecidableEq κ] (keys : List κ) (k : Keyed κ) : PlacedItem :=
  ⟨keys.idxOf k.key, k.x, k.y, false⟩

/-- Keyed placements are a packing. -/
theorem fullPacking_of_keyed {κ : Type} [DecidableEq κ] {inst : Instance} {keys : List κ}
    {f : κ → ItemType} (hnd : keys.Nodup) (hit : inst.itemTypes = keys.map f)
    (bins : List (List (Keyed κ))) (hkeys : ∀ items ∈ bins, ∀ k ∈ items, k.key ∈ keys)
    (hin : ∀ items ∈ bins, ∀ k ∈ items,
      Inside (inst.binType 0).x (inst.binType 0).y (k.rect f))
    (hsep : ∀ items ∈ bins, items.Pairwise fun k l => Separated (k.rect f) (l.rect f))
    (hcount : ∀ key ∈ keys,
      ((bins.flatten.countP fun k => decide (k.key = key) : Nat) : Int) = (f key).copies) :
    FullPacking inst (bins.map fun items => items.map (Keyed.toPlaced keys)) := by
  have hget : ∀ key ∈ keys, inst.itemType (keys.idxOf key) = f key := by
    intro key hk
    have hlt := List.idxOf_lt_length_of_mem hk
    unfold Instance.itemType
    rw [hit, List.getD_eq_getElem _ _ (by rw [List.length_map]; exact hlt), List.getElem_map,
      List.getElem_idxOf]
  have hocc : ∀ items ∈ bins, ∀ k ∈ items,
      occupies inst (k.toPlaced keys) = k.rect f := by
    intro items hi k hk
    unfold occupies Keyed.toPlaced Keyed.rect ItemType.width ItemType.height
    dsimp only
    rw [hget _ (hkeys items hi k hk)]
    simp
  constructor
  · intro items' hi'
    obtain ⟨items, hi, rfl⟩ := List.mem_map.1 hi'
    constructor
    · intro p hp
      obtain ⟨k, hk, rfl⟩ := List.mem_map.1 hp
      unfold Instance.numberOfItemTypes
      rw [hit, List.length_map]
      exact List.idxOf_lt_length_of_mem (hkeys items hi k hk)
    · intro p hp hr
      obtain ⟨k, hk, rfl⟩ := List.mem_map.1 hp
      cases hr
    · intro p hp
      obtain ⟨k, hk, rfl⟩ := List.mem_map.1 hp
      rw [hocc items hi k hk]
      exact hin items hi k hk
    · rw [List.pairwise_map]
      refine (List.Pairwise.and_mem.1 (hsep items hi)).imp ?_
      rintro k l ⟨hk, hl, hs⟩
      rw [hocc items hi k hk, hocc items hi l hl]
      exact hs
  · intro i hi
    have hi' : i < keys.length := by
      unfold Instance.numberOfItemTypes at hi
      rwa [hit, List.length_map] at hi
    have hmem : keys[i] ∈ keys := List.getElem_mem hi'
    have hidx : keys.idxOf keys[i] = i := hnd.idxOf_getElem i hi'
    have e1 : inst.itemType i = f keys[i] := by
      have := hget _ hmem
      rwa [hidx] at this
    rw [e1, ← hcount _ hmem]
    unfold Spec.count
    rw [← List.map_flatten, List.countP_map]
    norm_cast
    apply List.countP_congr
    intro k hk
    obtain ⟨items, hit', hk'⟩ := List.mem_flatten.1 hk
    have hkk := hkeys items hit' k hk'
    have e : (k.toPlaced keys).itemTypeId = i ↔ k.key = keys[i] := by
      show keys.idxOf k.key = i ↔ _
      constructor
      · intro h
        exact (List.idxOf_inj hkk).1 (h.trans hidx.symm)
      · intro h
        rw [h, hidx]
    simpa using e

/-! ## The keys of the modified instance -/

/-- A key of the modified instance: the dummy item, or an item type and whether it is the
rotated one. -/
abbrev Key := Option (Nat × Bool)

/-- Whether an item type is a square. -/
def square (inst : Instance) (i : Nat) : Bool :=
  decide ((inst.itemType i).x = (inst.itemType i).y)

/-- The keys of one item type. -/
def itemKeys (inst : Instance) (i : Nat) : List Key :=
  if square inst i then [some (i, false)] else [some (i, false), some (i, true)]

/-- The key of an item type placed with the given rotation. -/
def canon (inst : Instance) (i : Nat) (r : Bool) : Key := some (i, r && !square inst i)

/-- The number of dummy items. -/
def dummies (inst : Instance) (d : Int) : Nat :=
  if (inst.binType 0).x = (inst.binType 0).y then 0 else d.toNat

/-- All keys. -/
def keysOf (inst : Instance) (d : Int) : List Key :=
  (if dummies inst d = 0 then [] else [none]) ++
    (List.range inst.numberOfItemTypes).flatMap (itemKeys inst)

/-- The dummy item. -/
def dummyItem (inst : Instance) (d : Int) : ItemType :=
  if (inst.binType 0).x > (inst.binType 0).y then
    { x := (inst.binType 0).x, y := (inst.binType 0).x - (inst.binType 0).y, copies := d }
  else { x := (inst.binType 0).y - (inst.binType 0).x, y := (inst.binType 0).y, copies := d }

/-- The item type of a key. -/
def keyItem (inst : Instance) (d : Int) : Key → ItemType
  | none => dummyItem inst d
  | some (i, r) =>
    let it := inst.itemType i
    { x := it.width r, y := it.height r, oriented := true, profit := it.profit,
      copies := if square inst i then 2 * it.copies else it.copies }

theorem modified_itemTypes (inst : Instance) (d : Int) :
    (modifiedInstance inst d).itemTypes = (keysOf inst d).map (keyItem inst d) := by
  show dummyItems (inst.binType 0) d ++ doubledItems inst = _
  unfold keysOf
  rw [List.map_append]
  congr 1
  · unfold dummyItems dummies
    by_cases h : (inst.binType 0).x = (inst.binType 0).y
    · simp [h]
    · rw [if_neg h, if_neg h]
      by_cases h2 : d.toNat = 0
      · have : ¬ d > 0 := by omega
        rw [if_neg this, if_neg this, if_pos h2]
        simp
      · have : d > 0 := by omega
        rw [if_pos this, if_pos this, if_neg h2]
        simp only [List.map_cons, List.map_nil, keyItem, dummyItem]
        split_ifs <;> rfl
  · unfold doubledItems
    conv_lhs => rw [itemTypes_eq inst]
    rw [List.flatMap_map, List.map_flatMap]
    apply List.flatMap_congr
    intro i _
    unfold itemKeys
    by_cases h : (inst.itemType i).x = (inst.itemType i).y
    · have hs : square inst i = true := by simp [square, h]
      rw [if_pos h, if_pos hs]
      simp [keyItem, hs, ItemType.width, ItemType.height]
    · have hs : square inst i = false := by simp [square, h]
      rw [if_neg h, if_neg (by simp [hs])]
      simp [keyItem, hs, ItemType.width, ItemType.height]

theorem mem_itemKeys {i : Nat} {k : Key} :
    k ∈ itemKeys inst i ↔ ∃ r, k = canon inst i r := by
  unfold itemKeys canon
  cases square inst i with
  | true => simp
  | false =>
    simp only [Bool.false_eq_true, if_false, Bool.not_false, Bool.and_true]
    constructor
    · intro h
      rcases List.mem_cons.1 h with h | h
      · exact ⟨false, h⟩
      · exact ⟨true, by simpa using h⟩
    · rintro ⟨r, rfl⟩
      cases r <;> simp

theorem keysOf_nodup (inst : Instance) (d : Int) : (keysOf inst d).Nodup := by
  unfold keysOf
  rw [List.nodup_append]
  refine ⟨?_, ?_, ?_⟩
  · split_ifs <;> simp
  · rw [List.nodup_flatMap]
    constructor
    · intro i _
      unfold itemKeys
      split_ifs <;> simp
    · refine List.nodup_range.imp ?_
      intro i j hij k h1 h2
      obtain ⟨r, rfl⟩ := mem_itemKeys.1 h1
      obtain ⟨r', h⟩ := mem_itemKeys.1 h2
      simp only [canon, Option.some.injEq, Prod.mk.injEq] at h
      exact hij h.1
  · intro a ha b hb hab
    subst hab
    split_ifs at ha with h0
    · cases ha
    · rw [List.mem_singleton] at ha
      subst ha
      obtain ⟨i, _, hb⟩ := List.mem_flatMap.1 hb
      obtain ⟨r, hb⟩ := mem_itemKeys.1 hb
      cases hb

theorem canon_mem (d : Int) {i : Nat} (hi : i < inst.numberOfItemTypes) (r : Bool) :
    canon inst i r ∈ keysOf inst d :=
  List.mem_append_right _
    (List.mem_flatMap.2 ⟨i, List.mem_range.2 hi, mem_itemKeys.2 ⟨r, rfl⟩⟩)

theorem canon_dims (inst : Instance) (d : Int) (i : Nat) (r : Bool) :
    (keyItem inst d (canon inst i r)).x = (inst.itemType i).width r ∧
    (keyItem inst d (canon inst i r)).y = (inst.itemType i).height r := by
  unfold canon keyItem
  dsimp only
  by_cases h : (inst.itemType i).x = (inst.itemType i).y
  · cases r <;> simp [square, h, ItemType.width, ItemType.height]
  · cases r <;> simp [square, h]

/-! ## The packing of the modified instance -/

/-- An item at its place. -/
def plain (inst : Instance) (p : PlacedItem) : Keyed Key :=
  ⟨canon inst p.itemTypeId p.rotate, p.x, p.y⟩

/-- An item reflected at the diagonal. -/
def transposed (inst : Instance) (p : PlacedItem) : Keyed Key :=
  ⟨canon inst p.itemTypeId (!p.rotate), p.y, p.x⟩

/-- The dummy item above, or to the right of, the original bin. -/
def dummyPlacement (inst : Instance) : Keyed Key :=
  if (inst.binType 0).x > (inst.binType 0).y then ⟨none, 0, (inst.binType 0).y⟩
  else ⟨none, (inst.binType 0).x, 0⟩

theorem plain_rect (d : Int) (p : PlacedItem) :
    (plain inst p).rect (keyItem inst d) = occupies inst p := by
  unfold plain Keyed.rect occupies
  dsimp only
  rw [(canon_dims inst d _ _).1, (canon_dims inst d _ _).2]

theorem transposed_rect (d : Int) (p : PlacedItem) :
    (transposed inst p).rect (keyItem inst d)
      = ⟨(occupies inst p).y, (occupies inst p).x, (occupies inst p).h, (occupies inst p).w⟩ := by
  unfold transposed Keyed.rect occupies
  dsimp only
  rw [(canon_dims inst d _ _).1, (canon_dims inst d _ _).2]
  cases p.rotate <;> rfl

theorem modifiedBin_dims (inst : Instance) (d : Int) :
    ((modifiedInstance inst d).binType 0).x = max (inst.binType 0).x (inst.binType 0).y ∧
    ((modifiedInstance inst d).binType 0).y = max (inst.binType 0).x (inst.binType 0).y := by
  have e : (modifiedInstance inst d).binType 0 = modifiedBin inst d := rfl
  rw [e]
  unfold modifiedBin
  dsimp only
  split_ifs with h1 h2
  · simp [h1]
  · dsimp only
    omega
  · dsimp only
    omega

/-- The bins of the packing of the modified instance. -/
def modifiedBins (inst : Instance) (d : Int) (bins : List (List PlacedItem)) :
    List (List (Keyed Key)) :=
  (bins.take (dummies inst d)).map (fun items => dummyPlacement inst :: items.map (plain inst)) ++
  ((bins.drop (dummies inst d)).map (fun items => items.map (plain inst)) ++
    bins.map fun items => items.map (transposed inst))

theorem mem_modifiedBins {d : Int} {bins : List (List PlacedItem)} {l : List (Keyed Key)}
    (h : l ∈ modifiedBins inst d bins) : ∃ items ∈ bins,
      (dummies inst d ≠ 0 ∧ l = dummyPlacement inst :: items.map (plain inst)) ∨
      l = items.map (plain inst) ∨ l = items.map (transposed inst) := by
  unfold modifiedBins at h
  rcases List.mem_append.1 h with h | h
  · obtain ⟨items, hi, rfl⟩ := List.mem_map.1 h
    refine ⟨items, List.mem_of_mem_take hi, .inl ⟨?_, rfl⟩⟩
    intro h0
    rw [h0] at hi
    simp at hi
  · rcases List.mem_append.1 h with h | h
    · obtain ⟨items, hi, rfl⟩ := List.mem_map.1 h
      exact ⟨items, List.mem_of_mem_drop hi, .inr (.inl rfl)⟩
    · obtain ⟨items, hi, rfl⟩ := List.mem_map.1 h
      exact ⟨items, hi, .inr (.inr rfl)⟩

theorem dummy_key (inst : Instance) : (dummyPlacement inst).key = none := by
  unfold dummyPlacement
  split_ifs <;> rfl

theorem dummy_rect (d : Int) (hd : dummies inst d ≠ 0) :
    ((inst.binType 0).x > (inst.binType 0).y ∧
      (dummyPlacement inst).rect (keyItem inst d)
        = ⟨0, (inst.binType 0).y, (inst.binType 0).x,
            (inst.binType 0).x - (inst.binType 0).y⟩) ∨
    ((inst.binType 0).x < (inst.binType 0).y ∧
      (dummyPlacement inst).rect (keyItem inst d)
        = ⟨(inst.binType 0).x, 0, (inst.binType 0).y - (inst.binType 0).x,
            (inst.binType 0).y⟩) := by
  have hne : (inst.binType 0).x ≠ (inst.binType 0).y := by
    intro h
    unfold dummies at hd
    rw [if_pos h] at hd
    exact hd rfl
  unfold dummyPlacement Keyed.rect
  by_cases h : (inst.binType 0).x > (inst.binType 0).y
  · refine .inl ⟨h, ?_⟩
    rw [if_pos h]
    dsimp only [keyItem]
    unfold dummyItem
    rw [if_pos h]
  · refine .inr ⟨by omega, ?_⟩
    rw [if_neg h]
    dsimp only [keyItem]
    unfold dummyItem
    rw [if_neg h]

theorem countP_modifiedBins (d : Int) (bins : List (List PlacedItem)) (q : Keyed Key → Bool) :
    (modifiedBins inst d bins).flatten.countP q
      = (bins.take (dummies inst d)).length * (if q (dummyPlacement inst) then 1 else 0)
        + bins.flatten.countP (fun p => q (plain inst p))
        + bins.flatten.countP (fun p => q (transposed inst p)) := by
  have h1 : ∀ B : List (List PlacedItem),
      (B.map fun items => dummyPlacement inst :: items.map (plain inst)).flatten.countP q
        = B.length * (if q (dummyPlacement inst) then 1 else 0)
          + B.flatten.countP (fun p => q (plain inst p)) := by
    intro B
    induction B with
    | nil => simp
    | cons b B ih =>
      rw [List.map_cons, List.flatten_cons, List.countP_append, ih, List.countP_cons,
        List.countP_map, List.flatten_cons, List.countP_append, List.length_cons]
      have e : (q ∘ plain inst) = fun p => q (plain inst p) := rfl
      rw [e]
      split_ifs <;> ring
  have h2 : ∀ (B : List (List PlacedItem)) (g : PlacedItem → Keyed Key),
      (B.map fun items => items.map g).flatten.countP q = B.flatten.countP (fun p => q (g p)) := by
    intro B g
    rw [← List.map_flatten, List.countP_map]
    rfl
  unfold modifiedBins
  rw [List.flatten_append, List.flatten_append, List.countP_append, List.countP_append, h1, h2, h2]
  have e : bins.flatten.countP (fun p => q (plain inst p))
      = (bins.take (dummies inst d)).flatten.countP (fun p => q (plain inst p))
        + (bins.drop (dummies inst d)).flatten.countP (fun p => q (plain inst p)) := by
    rw [← List.countP_append, ← List.flatten_append, List.take_append_drop]
  rw [e]
  ring

theorem countP_split (items : List PlacedItem) (i : Nat) (r : Bool) :
    items.countP (fun p => decide (p.itemTypeId = i ∧ p.rotate = r))
      + items.countP (fun p => decide (p.itemTypeId = i ∧ (!p.rotate) = r))
      = items.countP fun p => decide (p.itemTypeId = i) := by
  induction items with
  | nil => rfl
  | cons p items ih =>
    rw [List.countP_cons, List.countP_cons, List.countP_cons, ← ih]
    by_cases h : p.itemTypeId = i
    · cases p.rotate <;> cases r <;> simp [h] <;> omega
    · simp [h]

/-- A packing of all items in `m` bins gives one of the modified instance in `2 m` bins, as long
as there are at most `m` dummy items. -/
theorem modified_full (h : Positive inst) (hn : inst.binTypes ≠ []) {d : Int} {bins : List (List PlacedItem)} (hp : FullPacking inst bins)
    (hd : d ≤ bins.length) :
    ∃ bins', FullPacking (modifiedInstance inst d) bins' ∧ bins'.length = 2 * bins.length := by
  refine ⟨(modifiedBins inst d bins).map fun items =>
    items.map (Keyed.toPlaced (keysOf inst d)),
    fullPacking_of_keyed (f := keyItem inst d) (keysOf_nodup inst d) (modified_itemTypes inst d)
      _ ?_ ?_ ?_ ?_, ?_⟩
  · -- keys
    intro l hl k hk
    obtain ⟨items, hi, hl⟩ := mem_modifiedBins hl
    have hex := (hp.each items hi).exist
    rcases hl with ⟨h0, rfl⟩ | rfl | rfl
    · rcases List.mem_cons.1 hk with rfl | hk
      · rw [dummy_key]
        apply List.mem_append_left
        rw [if_neg h0]
        exact List.mem_singleton.2 rfl
      · obtain ⟨p, hpm, rfl⟩ := List.mem_map.1 hk
        exact canon_mem d (hex p hpm) _
    · obtain ⟨p, hpm, rfl⟩ := List.mem_map.1 hk
      exact canon_mem d (hex p hpm) _
    · obtain ⟨p, hpm, rfl⟩ := List.mem_map.1 hk
      exact canon_mem d (hex p hpm) _
  · -- inside
    intro l hl k hk
    rw [(modifiedBin_dims inst d).1, (modifiedBin_dims inst d).2]
    obtain ⟨items, hi, hl⟩ := mem_modifiedBins hl
    have hin := (hp.each items hi).inside
    have hplain : ∀ p ∈ items, Inside (max (inst.binType 0).x (inst.binType 0).y)
        (max (inst.binType 0).x (inst.binType 0).y) ((plain inst p).rect (keyItem inst d)) := by
      intro p hpm
      have := hin p hpm
      rw [plain_rect]
      unfold Inside at this ⊢
      omega
    rcases hl with ⟨h0, rfl⟩ | rfl | rfl
    · rcases List.mem_cons.1 hk with rfl | hk
      · -- the bin has nonnegative dimensions
        have hpos := bin0 h hn
        rcases dummy_rect d h0 with ⟨h1, h2⟩ | ⟨h1, h2⟩
        · rw [h2]
          unfold Inside
          dsimp only
          omega
        · rw [h2]
          unfold Inside
          dsimp only
          omega
      · obtain ⟨p, hpm, rfl⟩ := List.mem_map.1 hk
        exact hplain p hpm
    · obtain ⟨p, hpm, rfl⟩ := List.mem_map.1 hk
      exact hplain p hpm
    · obtain ⟨p, hpm, rfl⟩ := List.mem_map.1 hk
      have := hin p hpm
      rw [transposed_rect]
      unfold Inside at this ⊢
      dsimp only
      omega
  · -- separated
    intro l hl
    obtain ⟨items, hi, hl⟩ := mem_modifiedBins hl
    have hsep := (hp.each items hi).separated
    have hin := (hp.each items hi).inside
    have hplain : (items.map (plain inst)).Pairwise fun k l =>
        Separated (k.rect (keyItem inst d)) (l.rect (keyItem inst d)) := by
      rw [List.pairwise_map]
      refine hsep.imp ?_
      intro p q h
      rw [plain_rect, plain_rect]
      exact h
    rcases hl with ⟨h0, rfl⟩ | rfl | rfl
    · rw [List.pairwise_cons]
      refine ⟨?_, hplain⟩
      intro k hk
      obtain ⟨p, hpm, rfl⟩ := List.mem_map.1 hk
      have hip := hin p hpm
      rw [plain_rect]
      unfold Inside at hip
      unfold Separated
      rcases dummy_rect d h0 with ⟨h1, h2⟩ | ⟨h1, h2⟩
      · rw [h2]
        dsimp only
        omega
      · rw [h2]
        dsimp only
        omega
    · exact hplain
    · rw [List.pairwise_map]
      refine hsep.imp ?_
      intro p q h
      rw [transposed_rect, transposed_rect]
      unfold Separated at h ⊢
      dsimp only
      omega
  · -- counts
    intro key hkey
    rw [countP_modifiedBins]
    rcases List.mem_append.1 hkey with hkey | hkey
    · by_cases h0 : dummies inst d = 0
      · rw [if_pos h0] at hkey
        cases hkey
      · rw [if_neg h0, List.mem_singleton] at hkey
        subst hkey
        have z : ∀ g : PlacedItem → Keyed Key, (∀ p, (g p).key ≠ none) →
            bins.flatten.countP (fun p => decide ((g p).key = none)) = 0 := by
          intro g hg
          rw [List.countP_eq_zero]
          intro p _
          simp [hg p]
        rw [z (plain inst) (by simp [plain, canon]), z (transposed inst)
          (by simp [transposed, canon]), dummy_key]
        have hdn : dummies inst d = d.toNat := by
          unfold dummies at h0 ⊢
          split_ifs at h0 ⊢
          · exact absurd rfl h0
          · rfl
        have hc : (keyItem inst d none).copies = d := by
          show (dummyItem inst d).copies = d
          unfold dummyItem
          split_ifs <;> rfl
        rw [hc, List.length_take, hdn]
        simp only [decide_true, if_true]
        rw [hdn] at h0
        omega
    · obtain ⟨i, hi, hkey⟩ := List.mem_flatMap.1 hkey
      have hi' := List.mem_range.1 hi
      obtain ⟨r, rfl⟩ := mem_itemKeys.1 hkey
      have hcopies := hp.all i hi'
      unfold Spec.count at hcopies
      have hdk : decide ((dummyPlacement inst).key = canon inst i r) = false := by
        rw [dummy_key]
        simp [canon]
      rw [hdk]
      simp only [Bool.false_eq_true, if_false, mul_zero, zero_add]
      have e1 : ∀ p : PlacedItem, ((plain inst p).key = canon inst i r)
          ↔ (p.itemTypeId = i ∧ (p.rotate && !square inst i) = (r && !square inst i)) := by
        intro p
        unfold plain canon
        simp only [Option.some.injEq, Prod.mk.injEq]
        constructor
        · rintro ⟨rfl, h⟩; exact ⟨rfl, h⟩
        · rintro ⟨rfl, h⟩; exact ⟨rfl, h⟩
      have e2 : ∀ p : PlacedItem, ((transposed inst p).key = canon inst i r)
          ↔ (p.itemTypeId = i ∧ ((!p.rotate) && !square inst i) = (r && !square inst i)) := by
        intro p
        unfold transposed canon
        simp only [Option.some.injEq, Prod.mk.injEq]
        constructor
        · rintro ⟨rfl, h⟩; exact ⟨rfl, h⟩
        · rintro ⟨rfl, h⟩; exact ⟨rfl, h⟩
      simp only [e1, e2]
      have hk : (keyItem inst d (canon inst i r)).copies
          = if square inst i then 2 * (inst.itemType i).copies else (inst.itemType i).copies := rfl
      rw [hk]
      cases hs : square inst i with
      | true =>
        simp only [Bool.not_true, Bool.and_false, and_true, if_true]
        push_cast
        rw [hcopies]
        ring
      | false =>
        simp only [Bool.not_false, Bool.and_true, Bool.false_eq_true, if_false]
        rw [countP_split, hcopies]
  · -- number of bins
    unfold modifiedBins
    simp only [List.length_map, List.length_append, List.length_take, List.length_drop]
    omega

end PackingSolver.Rect.DffLemmas
