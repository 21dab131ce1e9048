import Verif.Lemmas.Rect.ReduceRun

/-!
# Items and their companions in a rectangle

A working item type stands for an original item and the companions placed beside it: they lie
inside the rectangle of the working item type and do not overlap.
-/

namespace PackingSolver.Rect.Reduction

open Rect.Spec

/-- A rectangle lies in another one. -/
def Sub (r R : Placed) : Prop :=
  R.x ≤ r.x ∧ r.x + r.w ≤ R.x + R.w ∧ R.y ≤ r.y ∧ r.y + r.h ≤ R.y + R.h

theorem Sub.trans {r s t : Placed} (h1 : Sub r s) (h2 : Sub s t) : Sub r t := by
  unfold Sub at *; omega

theorem Sub.separated {r s R S : Placed} (h1 : Sub r R) (h2 : Sub s S) (h : Separated R S) :
    Separated r s := by
  unfold Sub Separated at *; omega

theorem Separated.symm' {r s : Placed} (h : Separated r s) : Separated s r := by
  unfold Separated at *; omega

/-- Original items that lie in a rectangle and do not overlap. -/
structure Tiles (inst : Instance) (R : Placed) (l : List PlacedItem) : Prop where
  exist : ∀ p ∈ l, p.itemTypeId < inst.numberOfItemTypes
  rotation : ∀ p ∈ l, p.rotate = true → (inst.itemType p.itemTypeId).oriented = false
  inside : ∀ p ∈ l, Sub (occupies inst p) R
  separated : l.Pairwise fun p q => Separated (occupies inst p) (occupies inst q)

variable {inst : Instance} {R S T : Placed}

theorem Tiles.nil : Tiles inst R [] := ⟨by simp, by simp, by simp, List.Pairwise.nil⟩

theorem Tiles.mono {l : List PlacedItem} (h : Tiles inst R l) (hs : Sub R S) : Tiles inst S l :=
  ⟨h.exist, h.rotation, fun p hp => (h.inside p hp).trans hs, h.separated⟩

theorem Tiles.append {l m : List PlacedItem} (h1 : Tiles inst R l) (h2 : Tiles inst S m)
    (hR : Sub R T) (hS : Sub S T) (h : Separated R S) : Tiles inst T (l ++ m) := by
  refine ⟨fun p hp => ?_, fun p hp => ?_, fun p hp => ?_, ?_⟩
  · rcases List.mem_append.mp hp with hp | hp
    · exact h1.exist p hp
    · exact h2.exist p hp
  · rcases List.mem_append.mp hp with hp | hp
    · exact h1.rotation p hp
    · exact h2.rotation p hp
  · rcases List.mem_append.mp hp with hp | hp
    · exact (h1.inside p hp).trans hR
    · exact (h2.inside p hp).trans hS
  · rw [List.pairwise_append]
    exact ⟨h1.separated, h2.separated, fun p hp q hq =>
      (h1.inside p hp).separated (h2.inside q hq) h⟩

theorem Tiles.flatMap {α : Type} {f : α → Placed} {g : α → List PlacedItem} :
    ∀ {l : List α}, (∀ a ∈ l, Tiles inst (f a) (g a)) → (∀ a ∈ l, Sub (f a) R) →
    (l.Pairwise fun a b => Separated (f a) (f b)) → Tiles inst R (l.flatMap g) := by
  intro l
  induction l with
  | nil => intros; exact Tiles.nil
  | cons a l ih =>
    intro h1 h2 h3
    rw [List.pairwise_cons] at h3
    have t := ih (fun b hb => h1 b (List.mem_cons_of_mem _ hb))
      (fun b hb => h2 b (List.mem_cons_of_mem _ hb)) h3.2
    have u := h1 a List.mem_cons_self
    have v := h2 a List.mem_cons_self
    rw [List.flatMap_cons]
    refine ⟨fun p hp => ?_, fun p hp => ?_, fun p hp => ?_, ?_⟩
    · rcases List.mem_append.mp hp with hp | hp
      · exact u.exist p hp
      · exact t.exist p hp
    · rcases List.mem_append.mp hp with hp | hp
      · exact u.rotation p hp
      · exact t.rotation p hp
    · rcases List.mem_append.mp hp with hp | hp
      · exact (u.inside p hp).trans v
      · exact t.inside p hp
    · rw [List.pairwise_append]
      refine ⟨u.separated, t.separated, fun p hp q hq => ?_⟩
      obtain ⟨b, hb, hq⟩ := List.mem_flatMap.mp hq
      exact (u.inside p hp).separated ((h1 b (List.mem_cons_of_mem _ hb)).inside q hq) (h3.1 b hb)

/-! ## Moving items -/

/-- Move a placed item. -/
def shiftItem (dx dy : Int) (p : PlacedItem) : PlacedItem := { p with x := p.x + dx, y := p.y + dy }

mutual
theorem placeOne_shift : ∀ (c : Companion) (x y dx dy : Int),
    placeOne c (x + dx) (y + dy) = (placeOne c x y).map (shiftItem dx dy)
  | .mk i ox oy r nested, x, y, dx, dy => by
    unfold placeOne
    rw [List.map_cons, ← placeAll_shift nested (x + ox) (y + oy) dx dy]
    have e1 : x + dx + ox = x + ox + dx := by omega
    have e2 : y + dy + oy = y + oy + dy := by omega
    rw [e1, e2]; rfl

theorem placeAll_shift : ∀ (cs : List Companion) (x y dx dy : Int),
    placeAll cs (x + dx) (y + dy) = (placeAll cs x y).map (shiftItem dx dy)
  | [], _, _, _, _ => by unfold placeAll; rfl
  | c :: cs, x, y, dx, dy => by
    unfold placeAll
    rw [List.map_append, ← placeOne_shift c x y dx dy, ← placeAll_shift cs x y dx dy]
end

theorem placeAll_append (cs ds : List Companion) (x y : Int) :
    placeAll (cs ++ ds) x y = placeAll cs x y ++ placeAll ds x y := by
  induction cs with
  | nil => simp [placeAll]
  | cons c cs ih => simp only [List.cons_append, placeAll, ih, List.append_assoc]

theorem placeAll_flatMap (cs : List Companion) (x y : Int) :
    placeAll cs x y = cs.flatMap fun c => placeOne c x y := by
  induction cs with
  | nil => simp [placeAll]
  | cons c cs ih => simp only [placeAll, ih, List.flatMap_cons]

theorem place_append (i : Nat) (x y : Int) (r : Bool) (cs ds : List Companion) :
    place i x y r (cs ++ ds) = place i x y r cs ++ placeAll ds x y := by
  unfold place; rw [placeAll_append]; rfl

theorem occupies_shift (dx dy : Int) (p : PlacedItem) :
    occupies inst (shiftItem dx dy p)
      = ⟨(occupies inst p).x + dx, (occupies inst p).y + dy, (occupies inst p).w,
        (occupies inst p).h⟩ := rfl

theorem Tiles.shift {l : List PlacedItem} (h : Tiles inst R l) (dx dy : Int) :
    Tiles inst ⟨R.x + dx, R.y + dy, R.w, R.h⟩ (l.map (shiftItem dx dy)) := by
  refine ⟨fun p hp => ?_, fun p hp => ?_, fun p hp => ?_, ?_⟩
  · obtain ⟨q, hq, rfl⟩ := List.mem_map.mp hp; exact h.exist q hq
  · obtain ⟨q, hq, rfl⟩ := List.mem_map.mp hp; exact h.rotation q hq
  · obtain ⟨q, hq, rfl⟩ := List.mem_map.mp hp
    have := h.inside q hq
    rw [occupies_shift]
    unfold Sub at *; dsimp only; omega
  · rw [List.pairwise_map]
    refine h.separated.imp fun {p q} hpq => ?_
    rw [occupies_shift, occupies_shift]
    unfold Separated at *; dsimp only; omega

/-! ## Working item types -/

/-- The rectangle of a placed working item type. -/
def region (it : WorkItem) (x y : Int) (r : Bool) : Placed :=
  ⟨x, y, if r then it.y else it.x, if r then it.x else it.y⟩

/-- Companions that fit beside an item of type `i` in the rectangle of a working item type. -/
structure Fit (inst : Instance) (i : Nat) (it : WorkItem) (cs : List Companion) : Prop where
  tiles : Tiles inst ⟨0, 0, it.x, it.y⟩ (place i 0 0 false cs)
  plain : (inst.itemType i).oriented = false → cs = []

/-- A working item type that stands for its original item and its companions. -/
structure Sound (inst : Instance) (i : Nat) (it : WorkItem) : Prop where
  exist : i < inst.numberOfItemTypes
  pos : 0 < (inst.itemType i).x ∧ 0 < (inst.itemType i).y
  ge : (inst.itemType i).x ≤ it.x ∧ (inst.itemType i).y ≤ it.y
  same : (inst.itemType i).oriented = false →
    it.x = (inst.itemType i).x ∧ it.y = (inst.itemType i).y
  fit : ∀ cs ∈ it.companions, Fit inst i it cs

theorem Fit.congr {i : Nat} {it it' : WorkItem} {cs : List Companion} (h : Fit inst i it cs)
    (hx : it'.x = it.x) (hy : it'.y = it.y) : Fit inst i it' cs :=
  ⟨by rw [hx, hy]; exact h.tiles, h.plain⟩

theorem Sound.congr {i : Nat} {it it' : WorkItem} (h : Sound inst i it) (hx : it'.x = it.x)
    (hy : it'.y = it.y) (hc : ∀ cs ∈ it'.companions, cs ∈ it.companions) : Sound inst i it' :=
  ⟨h.exist, h.pos, by rw [hx, hy]; exact h.ge, by rw [hx, hy]; exact h.same,
    fun cs hcs => (h.fit cs (hc cs hcs)).congr hx hy⟩

theorem Tiles.single {p : PlacedItem} (h1 : p.itemTypeId < inst.numberOfItemTypes)
    (h2 : p.rotate = true → (inst.itemType p.itemTypeId).oriented = false)
    (h3 : Sub (occupies inst p) R) : Tiles inst R [p] := by
  refine ⟨fun q hq => ?_, fun q hq => ?_, fun q hq => ?_, List.pairwise_singleton _ _⟩ <;>
    rw [List.mem_singleton.mp hq]
  · exact h1
  · exact h2
  · exact h3

theorem Sound.fit_nil {i : Nat} {it : WorkItem} (h : Sound inst i it) : Fit inst i it [] := by
  refine ⟨?_, fun _ => rfl⟩
  unfold place placeAll
  refine Tiles.single h.exist (by simp) ?_
  have := h.ge
  unfold Sub occupies ItemType.width ItemType.height
  dsimp only
  simp only [Bool.false_eq_true, if_false]
  omega

/-- A placed working item type contains its original item and its companions. -/
theorem Sound.place_tiles {i : Nat} {it : WorkItem} {cs : List Companion} {r : Bool}
    (h : Sound inst i it) (hf : Fit inst i it cs)
    (hr : r = true → (inst.itemType i).oriented = false) (x y : Int) :
    Tiles inst (region it x y r) (place i x y r cs) := by
  cases r with
  | false =>
    have e : place i x y false cs = (place i 0 0 false cs).map (shiftItem x y) := by
      unfold place
      rw [List.map_cons, ← placeAll_shift]
      unfold shiftItem
      simp
    rw [e]
    have := hf.tiles.shift x y
    unfold region
    simpa using this
  | true =>
    rw [hf.plain (hr rfl)]
    unfold place placeAll
    refine Tiles.single h.exist (fun _ => hr rfl) ?_
    have := h.ge
    unfold Sub occupies region ItemType.width ItemType.height
    dsimp only
    simp only [if_true]
    omega

/-! ## Working item types in a rectangle -/

/-- Working item types (with the sizes `size`) that lie in a rectangle and do not overlap. -/
structure Laid (inst : Instance) (size : Nat → WorkItem) (R : Placed) (ps : List PlacedItem) :
    Prop where
  rotation : ∀ p ∈ ps, p.rotate = true → (inst.itemType p.itemTypeId).oriented = false
  inside : ∀ p ∈ ps, Sub (region (size p.itemTypeId) p.x p.y p.rotate) R
  separated : ps.Pairwise fun p q => Separated (region (size p.itemTypeId) p.x p.y p.rotate)
    (region (size q.itemTypeId) q.x q.y q.rotate)

/-- The items of a bin, each with its companions. -/
theorem Laid.expand {size : Nat → WorkItem} {l : List (PlacedItem × List Companion)}
    (h : Laid inst size R (l.map Prod.fst))
    (hs : ∀ q ∈ l, Sound inst q.1.itemTypeId (size q.1.itemTypeId)
      ∧ Fit inst q.1.itemTypeId (size q.1.itemTypeId) q.2) :
    Tiles inst R (l.flatMap fun q => place q.1.itemTypeId q.1.x q.1.y q.1.rotate q.2) := by
  refine Tiles.flatMap (f := fun q => region (size q.1.itemTypeId) q.1.x q.1.y q.1.rotate)
    (fun q hq => ?_) (fun q hq => h.inside q.1 (List.mem_map_of_mem hq)) ?_
  · exact (hs q hq).1.place_tiles (hs q hq).2 (h.rotation q.1 (List.mem_map_of_mem hq)) _ _
  · have := h.separated
    rw [List.pairwise_map] at this
    exact this

/-- The items of a bin of an instance made of working item types, once their ids are translated
and they are moved. -/
theorem Laid.of_bin {c : Instance} {ids : List Nat} {size : Nat → WorkItem} {t : Nat}
    {items : List PlacedItem} (hn : c.numberOfItemTypes = ids.length)
    (hi : ∀ k (h : k < ids.length), (c.itemType k).x = (size ids[k]).x
      ∧ (c.itemType k).y = (size ids[k]).y
      ∧ (c.itemType k).oriented = (inst.itemType ids[k]).oriented)
    (hb : BinPacking c t items) (dx dy : Int) :
    Laid inst size ⟨dx, dy, (c.binType t).x, (c.binType t).y⟩
      (items.map fun p => ⟨ids.getD p.itemTypeId 0, p.x + dx, p.y + dy, p.rotate⟩) := by
  have key : ∀ p ∈ items, region (size (ids.getD p.itemTypeId 0)) (p.x + dx) (p.y + dy) p.rotate
      = ⟨(occupies c p).x + dx, (occupies c p).y + dy, (occupies c p).w, (occupies c p).h⟩ := by
    intro p hp
    have hlt := hb.exist p hp
    rw [hn] at hlt
    obtain ⟨e1, e2, -⟩ := hi _ hlt
    rw [List.getD_eq_getElem _ _ hlt]
    unfold region occupies ItemType.width ItemType.height
    dsimp only
    rw [e1, e2]
  refine ⟨fun p hp hr => ?_, fun p hp => ?_, ?_⟩
  · obtain ⟨q, hq, rfl⟩ := List.mem_map.mp hp
    have hlt := hb.exist q hq
    rw [hn] at hlt
    have := hb.rotation q hq hr
    rw [(hi _ hlt).2.2] at this
    dsimp only
    rw [List.getD_eq_getElem _ _ hlt]; exact this
  · obtain ⟨q, hq, rfl⟩ := List.mem_map.mp hp
    dsimp only
    rw [key q hq]
    have := hb.inside q hq
    unfold Inside at this
    unfold Sub; dsimp only; omega
  · rw [List.pairwise_map]
    refine List.Pairwise.imp_of_mem (fun {p q} hp hq hpq => ?_) hb.separated
    dsimp only
    rw [key p hp, key q hq]
    unfold Separated at *; dsimp only; omega

end PackingSolver.Rect.Reduction
