import Verif.Lemmas.Rect.ReduceTiles

/-!
# The enlarged items contain their companions
-/

namespace PackingSolver.Rect.Reduction

open Rect.Spec

variable {env : Env} {st st' : State}

/-- The rectangle of a (shrunk) bin. -/
def Env.bin (env : Env) : Placed := ⟨0, 0, env.w, env.h⟩

/-- The reserved bins have valid contents. -/
structure Reserved (env : Env) (st : State) : Prop where
  full : ∀ f ∈ st.fullBins, ∀ cs ∈ f.companions,
    Tiles env.inst env.bin (place f.itemTypeId 0 0 f.rotate cs)
  pair : ∀ p ∈ st.pairs, ∀ c1 ∈ p.companions1, ∀ c2 ∈ p.companions2,
    Tiles env.inst env.bin
      (place p.itemTypeId1 0 0 false c1 ++ place p.itemTypeId2 p.offsetX p.offsetY false c2)
  group : ∀ g ∈ st.groups, Tiles env.inst env.bin (groupContents g)

theorem Reserved.of_same (h : Reserved env st) (hs : SameBins st st') : Reserved env st' :=
  ⟨by rw [hs.1]; exact h.full, by rw [hs.2.1]; exact h.pair, by rw [hs.2.2]; exact h.group⟩

/-- The working item types stand for their items and companions. -/
structure Items (inst : Instance) (st : State) : Prop where
  len : st.items.length = inst.numberOfItemTypes
  sound : ∀ i, i < st.items.length → Sound inst i (st.item i)

/-- The geometric invariant. -/
structure Geo (env : Env) (st : State) : Prop where
  items : Items env.inst st
  reserved : Reserved env st

theorem Geo.tick (h : Geo env st) : Geo env st.tick :=
  ⟨⟨h.items.len, h.items.sound⟩, ⟨h.reserved.full, h.reserved.pair, h.reserved.group⟩⟩

theorem Items.set {inst : Instance} (h : Items inst st) {i : Nat} {it : WorkItem}
    (hs : i < st.items.length → Sound inst i it) : Items inst (st.setItem i it) := by
  refine ⟨by rw [length_setItem]; exact h.len, fun j hj => ?_⟩
  rw [length_setItem] at hj
  rw [item_setItem]
  split_ifs with hc
  · obtain ⟨rfl, -⟩ := hc; exact hs hj
  · exact h.sound j hj

theorem extract_sub {it it' : WorkItem} {n : Nat} {e : List (List Companion)}
    (h : extract it n = .ok (e, it')) :
    (∀ cs ∈ e, cs = [] ∨ cs ∈ it.companions) ∧ ∀ cs ∈ it'.companions, cs ∈ it.companions := by
  unfold extract at h
  split_ifs at h with h1 h2
  · cases h
    exact ⟨fun cs hcs => Or.inl (List.eq_of_mem_replicate hcs), fun _ h => h⟩
  · cases h
    exact ⟨fun cs hcs => Or.inr (List.mem_of_mem_take hcs), fun cs hcs => List.mem_of_mem_drop hcs⟩

theorem extract_sound {inst : Instance} {i : Nat} {it it' : WorkItem} {n : Nat}
    {e : List (List Companion)} (h : extract it n = .ok (e, it')) (hs : Sound inst i it) :
    (∀ cs ∈ e, Fit inst i it cs) ∧ Sound inst i it' := by
  obtain ⟨-, -, hx, hy, -⟩ := extract_ok h
  obtain ⟨h1, h2⟩ := extract_sub h
  refine ⟨fun cs hcs => ?_, hs.congr hx hy h2⟩
  rcases h1 cs hcs with rfl | h3
  · exact hs.fit_nil
  · exact hs.fit cs h3

/-! ## Absorbing companions -/

/-- Where a companion is. -/
def Companion.spot : Companion → PlacedItem
  | .mk i dx dy r _ => ⟨i, dx, dy, r⟩

/-- The companions of a companion. -/
def Companion.inner : Companion → List Companion
  | .mk _ _ _ _ cs => cs

theorem placeOne_spot (c : Companion) :
    placeOne c 0 0 = place c.spot.itemTypeId c.spot.x c.spot.y c.spot.rotate c.inner := by
  obtain ⟨i, dx, dy, r, cs⟩ := c
  unfold placeOne place Companion.spot Companion.inner
  simp

/-- The invariant of the absorption of companions `rs`, whose sizes are `size`. -/
structure Absorbing (inst : Instance) (size : Nat → WorkItem) (rs : List Nat) (ap : Apply) :
    Prop where
  items : Items inst ap.st
  prior : ∀ i, ∀ cs ∈ ap.prior.getD i [], Fit inst i (size i) cs
  sizes : ∀ i ∈ rs, (ap.st.item i).x = (size i).x ∧ (ap.st.item i).y = (size i).y

variable {inst : Instance} {size : Nat → WorkItem} {rs : List Nat}

theorem absorb_sound {ap ap' : Apply} {c c' : Companion} (h : absorb ap c = .ok (ap', c'))
    (hA : Absorbing inst size rs ap) (hc : c.id ∈ rs) (hl : c.id < ap.st.items.length) :
    Absorbing inst size rs ap' ∧ c'.spot = c.spot ∧ Fit inst c.id (size c.id) c'.inner := by
  obtain ⟨i, dx, dy, r, ns⟩ := c
  change i ∈ rs at hc
  change i < _ at hl
  unfold absorb at h
  obtain ⟨ap1, h1, h2⟩ := bind_ok.mp h
  have key : Absorbing inst size rs ap1 := by
    split_ifs at h1 with hr
    · cases h1; exact hA
    · obtain ⟨⟨e, it⟩, he, h1⟩ := bind_ok.mp h1
      cases h1
      have hsi := hA.items.sound i hl
      obtain ⟨f1, f2⟩ := extract_sound he hsi
      obtain ⟨-, -, hx, hy, -⟩ := extract_ok he
      refine ⟨hA.items.set fun _ => f2.congr rfl rfl (fun _ h => h), fun j cs hcs => ?_,
        fun j hj => ?_⟩
      · dsimp only at hcs
        rw [List.getD_eq_getElem?_getD, List.getElem?_set] at hcs
        split_ifs at hcs with e1 e2
        · subst e1
          exact (f1 cs (by simpa using hcs)).congr (hA.sizes i hc).1.symm (hA.sizes i hc).2.symm
        · simp at hcs
        · rw [← List.getD_eq_getElem?_getD] at hcs; exact hA.prior j cs hcs
      · dsimp only
        rw [item_setItem]
        split_ifs with hj2
        · obtain ⟨rfl, -⟩ := hj2
          exact ⟨hx.trans (hA.sizes i hj).1, hy.trans (hA.sizes i hj).2⟩
        · exact hA.sizes j hj
  dsimp only at h2
  split at h2
  · rename_i nested hn
    cases h2
    exact ⟨⟨key.items, key.prior, key.sizes⟩, rfl,
      key.prior i nested (List.mem_of_getElem? hn)⟩
  · cases h2

theorem absorbAll_sound {cs cs' : List Companion} : ∀ {ap ap' : Apply},
    absorbAll ap cs = .ok (ap', cs') → Absorbing inst size rs ap →
    (∀ c ∈ cs, c.id ∈ rs ∧ c.id < ap.st.items.length) →
    Absorbing inst size rs ap' ∧ cs'.map Companion.spot = cs.map Companion.spot
      ∧ ∀ c ∈ cs', Fit inst c.spot.itemTypeId (size c.spot.itemTypeId) c.inner := by
  induction cs generalizing cs' with
  | nil => intro ap ap' h hA _; cases h; exact ⟨hA, rfl, by simp⟩
  | cons c cs ih =>
    intro ap ap' h hA hc
    unfold absorbAll at h
    obtain ⟨⟨ap1, c1⟩, h1, h⟩ := bind_ok.mp h
    obtain ⟨⟨ap2, cs2⟩, h2, h⟩ := bind_ok.mp h
    cases h
    have hc0 := hc c List.mem_cons_self
    obtain ⟨a1, a2, a3⟩ := absorb_sound h1 hA hc0.1 hc0.2
    obtain ⟨-, d1, -⟩ := absorb_ok h1 hc0.2
    obtain ⟨b1, b2, b3⟩ := ih h2 a1 (fun c' hc' => by
      rw [d1.len]; exact hc c' (List.mem_cons_of_mem _ hc'))
    refine ⟨b1, by rw [List.map_cons, List.map_cons, a2, b2], fun d hd => ?_⟩
    rcases List.mem_cons.mp hd with rfl | hd
    · rw [a2]
      have : c.spot.itemTypeId = c.id := by cases c; rfl
      rw [this]; exact a3
    · exact b3 d hd

theorem absorbCopies_sound {ls ls' : List (List Companion)} : ∀ {ap ap' : Apply},
    absorbCopies ap ls = .ok (ap', ls') → Absorbing inst size rs ap →
    (∀ cs ∈ ls, ∀ c ∈ cs, c.id ∈ rs ∧ c.id < ap.st.items.length) →
    Absorbing inst size rs ap' ∧ ∀ cs' ∈ ls', ∃ cs ∈ ls,
      cs'.map Companion.spot = cs.map Companion.spot
      ∧ ∀ c ∈ cs', Fit inst c.spot.itemTypeId (size c.spot.itemTypeId) c.inner := by
  induction ls generalizing ls' with
  | nil => intro ap ap' h hA _; cases h; exact ⟨hA, by simp⟩
  | cons l ls ih =>
    intro ap ap' h hA hc
    unfold absorbCopies at h
    obtain ⟨⟨ap1, l1⟩, h1, h⟩ := bind_ok.mp h
    obtain ⟨⟨ap2, ls2⟩, h2, h⟩ := bind_ok.mp h
    cases h
    obtain ⟨a1, a2, a3⟩ := absorbAll_sound h1 hA (hc l List.mem_cons_self)
    obtain ⟨d1, -⟩ := absorbAll_ok h1 (fun c hc' => (hc l List.mem_cons_self c hc').2)
    obtain ⟨b1, b2⟩ := ih h2 a1 (fun cs hcs c hc' => by
      rw [d1.len]; exact hc cs (List.mem_cons_of_mem _ hcs) c hc')
    refine ⟨b1, fun d hd => ?_⟩
    rcases List.mem_cons.mp hd with rfl | hd
    · exact ⟨l, List.mem_cons_self, a2, a3⟩
    · obtain ⟨cs, hcs, e⟩ := b2 d hd
      exact ⟨cs, List.mem_cons_of_mem _ hcs, e⟩

/-! ## Enlarging an item -/

/-- The companion bin of a big item, beside it. -/
def strip (env : Env) (a : Axis) (big : WorkItem) : Placed :=
  match a with
  | .wide => ⟨big.x, 0, env.w - big.x, big.y⟩
  | .tall => ⟨0, big.y, big.x, env.h - big.y⟩

theorem strip_tiles {a : Axis} {big : WorkItem} {cs cs' : List Companion}
    (hl : Laid inst size (strip env a big) (cs.map Companion.spot))
    (he : cs'.map Companion.spot = cs.map Companion.spot)
    (hf : ∀ c ∈ cs', Fit inst c.spot.itemTypeId (size c.spot.itemTypeId) c.inner)
    (hs : ∀ c ∈ cs', Sound inst c.spot.itemTypeId (size c.spot.itemTypeId)) :
    Tiles inst (strip env a big) (placeAll cs' 0 0) := by
  rw [placeAll_flatMap]
  have := Laid.expand (inst := inst) (size := size) (R := strip env a big)
    (l := cs'.map fun c => (c.spot, c.inner)) (by
      rw [List.map_map]
      change Laid _ _ _ (cs'.map Companion.spot)
      rw [he]; exact hl) (fun q hq => by
      obtain ⟨c, hc, rfl⟩ := List.mem_map.mp hq
      exact ⟨hs c hc, hf c hc⟩)
  rw [List.flatMap_map] at this
  simpa only [placeOne_spot] using this

theorem enlarge_sound {a : Axis} {i : Nat} {it it' : WorkItem} {ls : List (List Companion)}
    (h : enlarge env a it ls = .ok it') (hs : Sound inst i it)
    (ho : (inst.itemType i).oriented = true)
    (hp : 0 < (companionBin env a it).1 ∧ 0 < (companionBin env a it).2)
    (ht : ∀ cs ∈ ls, Tiles inst (strip env a it) (placeAll cs 0 0)) : Sound inst i it' := by
  -- the enlarged rectangle
  obtain ⟨hr, hcp, hx, hy⟩ := enlarge_ok h
  have s1 : Sub ⟨0, 0, it.x, it.y⟩ ⟨0, 0, it'.x, it'.y⟩ := by
    cases a <;> simp only [companionBin] at hp <;> simp only at hx hy <;>
      (unfold Sub; dsimp only; omega)
  have s2 : Sub (strip env a it) ⟨0, 0, it'.x, it'.y⟩ := by
    have := hs.ge
    have := hs.pos
    cases a <;> simp only [companionBin] at hp <;> simp only at hx hy <;>
      (unfold Sub strip; dsimp only; omega)
  have s3 : Separated ⟨0, 0, it.x, it.y⟩ (strip env a it) := by
    cases a <;> (unfold Separated strip; dsimp only; omega)
  have key : ∀ c0 cs, Fit inst i it c0 → cs ∈ ls → Fit inst i it' (c0 ++ cs) := by
    intro c0 cs h0 hcs
    refine ⟨?_, fun ho' => absurd ho (by simp [ho'])⟩
    rw [place_append]
    exact h0.tiles.append (ht cs hcs) s1 s2 s3
  refine ⟨hs.exist, hs.pos, ?_, fun ho' => absurd ho (by simp [ho']), fun cs hcs => ?_⟩
  · have := hs.ge
    unfold Sub at s1; dsimp only at s1; omega
  · unfold enlarge at h
    dsimp only at h
    have fin : it'.companions = ls ∨ it'.companions = List.zipWith (· ++ ·) it.companions ls := by
      cases a with
      | wide =>
        dsimp only at h
        split_ifs at h with h1 h2
        · cases h; exact Or.inl rfl
        · cases h; exact Or.inr rfl
      | tall =>
        dsimp only at h
        split_ifs at h with h1 h2
        · cases h; exact Or.inl rfl
        · cases h; exact Or.inr rfl
    rcases fin with e | e
    · rw [e] at hcs
      have := key [] cs hs.fit_nil hcs
      simpa using this
    · rw [e] at hcs
      obtain ⟨k, hk, rfl⟩ := List.mem_iff_getElem.mp hcs
      rw [List.getElem_zipWith]
      exact key _ _ (hs.fit _ (List.getElem_mem _)) (List.getElem_mem _)

end PackingSolver.Rect.Reduction
