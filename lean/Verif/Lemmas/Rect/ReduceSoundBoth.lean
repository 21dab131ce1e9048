import Verif.Lemmas.Rect.ReduceSoundGroup

/-!
# The reserved bins have valid contents
-/

namespace PackingSolver.Rect.Reduction

open Rect.Spec

variable {env : Env} {st st' : State} {inst : Instance}

theorem region_bin {it : WorkItem} {r : Bool} (h1 : (if r then it.y else it.x) ≤ env.w)
    (h2 : (if r then it.x else it.y) ≤ env.h) : Sub (region it 0 0 r) env.bin := by
  unfold Sub region Env.bin; dsimp only; omega

theorem captureOne_geo {acc acc' : State × Bool} {i : Nat} (h : captureOne env acc i = .ok acc')
    (hG : Geo env acc.1) (hi : i < acc.1.items.length) : Geo env acc'.1 := by
  unfold captureOne at h
  dsimp only at h
  split at h
  · cases h; exact hG
  · rename_i r hr
    split_ifs at h with h1
    · cases h; exact hG
    · obtain ⟨⟨prior, it'⟩, h2, h⟩ := bind_ok.mp h
      cases h
      have hs := hG.items.sound i hi
      obtain ⟨e1, e2⟩ := extract_sound h2 hs
      have hit := hG.items.set (i := i) (it := { it' with copies := 0, removed := true })
        (fun _ => e2.congr rfl rfl (fun _ h => h))
      refine ⟨⟨hit.len, hit.sound⟩, ⟨hG.reserved.full, hG.reserved.pair, fun g hg => ?_⟩⟩
      rcases List.mem_append.mp hg with hg | hg
      · exact hG.reserved.group g hg
      · obtain ⟨cs, hcs, rfl⟩ := List.mem_map.mp hg
        change Tiles _ _ (List.flatMap _ [_])
        rw [List.flatMap_singleton]
        have hro : (r = true → (env.inst.itemType i).oriented = false)
            ∧ Sub (region (acc.1.item i) 0 0 r) env.bin := by
          split_ifs at hr with c1 c2
          · cases hr
            exact ⟨by simp, region_bin (by simpa using c1.1) (by simpa using c1.2)⟩
          · cases hr
            refine ⟨fun _ => by simpa [Env.oriented] using c2.1,
              region_bin (by simpa using c2.2.1) (by simpa using c2.2.2)⟩
        exact (hs.place_tiles (e1 cs hcs) hro.1 0 0).mono hro.2

theorem capture_geo (l : List Nat) : ∀ {acc acc' : State × Bool},
    l.foldlM (captureOne env) acc = .ok acc' → Geo env acc.1 →
    (∀ i ∈ l, i < env.inst.numberOfItemTypes) → Geo env acc'.1 := by
  induction l with
  | nil => intro acc acc' h hG _; cases h; exact hG
  | cons i l ih =>
    intro acc acc' h hG hl
    obtain ⟨acc1, h1, h2⟩ := foldlM_cons_ok.mp h
    exact ih h2 (captureOne_geo h1 hG (by rw [hG.items.len]; exact hl i List.mem_cons_self))
      (fun j hj => hl j (List.mem_cons_of_mem _ hj))

/-! ## Groups of items -/

/-- Where an item of a group is. -/
def GroupItem.spot (g : GroupItem) : PlacedItem := ⟨g.itemTypeId, g.x, g.y, g.rotate⟩

theorem group_tiles {size : Nat → WorkItem} {R : Placed} {g : List GroupItem}
    (hl : Laid inst size R (g.map GroupItem.spot))
    (hs : ∀ p ∈ g, Sound inst p.itemTypeId (size p.itemTypeId)
      ∧ Fit inst p.itemTypeId (size p.itemTypeId) p.companions) :
    Tiles inst R (groupContents g) := by
  have := Laid.expand (inst := inst) (size := size) (R := R)
    (l := g.map fun p => (p.spot, p.companions)) (by
      rw [List.map_map]; exact hl) (fun q hq => by
      obtain ⟨c, hc, rfl⟩ := List.mem_map.mp hq
      exact hs c hc)
  rw [List.flatMap_map] at this
  exact this

theorem readGroup_spot {bigs rs : List Nat} {big : Nat} (hbig : big < bigs.length) :
    ∀ {items : List PlacedItem} {g : List GroupItem}, readGroup bigs rs big items = some g →
    g.map GroupItem.spot = (items.map fun p =>
        ⟨(bigs ++ rs).getD p.itemTypeId 0, p.x + 0, p.y + 0, p.rotate⟩)
      ∧ ∀ p ∈ g, p.itemTypeId ∈ bigs ++ rs := by
  intro items
  induction items with
  | nil =>
    intro g h
    unfold readGroup at h
    rw [List.mapM_nil] at h
    cases h; exact ⟨rfl, by simp⟩
  | cons p items ih =>
    intro g h
    unfold readGroup at h
    rw [List.mapM_cons] at h
    obtain ⟨c, h1, h⟩ := Option.bind_eq_some_iff.mp h
    obtain ⟨g1, h2, h⟩ := Option.bind_eq_some_iff.mp h
    cases h
    obtain ⟨i1, i2⟩ := ih h2
    have hc : c.spot = ⟨(bigs ++ rs).getD p.itemTypeId 0, p.x + 0, p.y + 0, p.rotate⟩
        ∧ c.itemTypeId ∈ bigs ++ rs := by
      split_ifs at h1 with c1 c2 c3
      · cases h1
        unfold GroupItem.spot
        dsimp only
        rw [c1, List.getD_append _ _ _ _ hbig, Int.add_zero, Int.add_zero]
        refine ⟨rfl, List.mem_append_left _ ?_⟩
        rw [List.getD_eq_getElem _ _ hbig]; exact List.getElem_mem _
      · cases h1
        unfold GroupItem.spot
        dsimp only
        rw [List.getD_append_right _ _ _ _ (by omega), Int.add_zero, Int.add_zero]
        refine ⟨rfl, List.mem_append_right _ ?_⟩
        rw [List.getD_eq_getElem _ _ c3]; exact List.getElem_mem _
    rw [List.map_cons, List.map_cons, hc.1, i1]
    refine ⟨rfl, fun q hq => ?_⟩
    rcases List.mem_cons.mp hq with rfl | hq
    · exact hc.2
    · exact i2 q hq

/-- The groups read off the check lie in the bin. -/
theorem readCheckBoth_laid {bigs rs : List Nat} {size : Nat → WorkItem} {R : Placed}
    (sol : List PackedBin)
    (hb : ∀ b ∈ sol, Laid inst size R (b.items.map fun p =>
        ⟨(bigs ++ rs).getD p.itemTypeId 0, p.x + 0, p.y + 0, p.rotate⟩)) :
    ∀ {acc groups : List (List (List GroupItem))},
    sol.foldlM (fun acc b =>
      match (b.items.find? fun p => decide (p.itemTypeId < bigs.length)) with
      | none => some acc
      | some p => do
        let g ← readGroup bigs rs p.itemTypeId b.items
        some (acc.modify p.itemTypeId (· ++ List.replicate b.copies.toNat g))) acc = some groups →
    (∀ l ∈ acc, ∀ g ∈ l, Laid inst size R (g.map GroupItem.spot)
      ∧ ∀ p ∈ g, p.itemTypeId ∈ bigs ++ rs) →
    ∀ l ∈ groups, ∀ g ∈ l, Laid inst size R (g.map GroupItem.spot)
      ∧ ∀ p ∈ g, p.itemTypeId ∈ bigs ++ rs := by
  induction sol with
  | nil => intro acc groups h ha; cases h; exact ha
  | cons b sol ih =>
    intro acc groups h ha
    rw [List.foldlM_cons] at h
    cases hf : b.items.find? (fun p => decide (p.itemTypeId < bigs.length)) with
    | none =>
      rw [hf] at h
      exact ih (fun c hc => hb c (List.mem_cons_of_mem _ hc)) h ha
    | some p =>
      rw [hf] at h
      dsimp only at h
      cases hg : readGroup bigs rs p.itemTypeId b.items with
      | none => rw [hg] at h; cases h
      | some g =>
        rw [hg] at h
        have h : sol.foldlM _ (acc.modify p.itemTypeId (· ++ List.replicate b.copies.toNat g))
          = some groups := h
        refine ih (fun c hc => hb c (List.mem_cons_of_mem _ hc)) h (fun l hl x hx => ?_)
        have hpl : p.itemTypeId < bigs.length := by
          have := List.find?_some hf; simpa using this
        obtain ⟨i, hi, rfl⟩ := List.mem_iff_getElem.mp hl
        rw [List.length_modify] at hi
        rw [List.getElem_modify] at hx
        split_ifs at hx
        · rcases List.mem_append.mp hx with h4 | h4
          · exact ha _ (List.getElem_mem hi) x h4
          · rw [List.eq_of_mem_replicate h4]
            obtain ⟨s1, s2⟩ := readGroup_spot hpl hg
            rw [s1]
            exact ⟨hb b List.mem_cons_self, s2⟩
        · exact ha _ (List.getElem_mem hi) x hx

/-- Only numbers of copies and companions change. -/
structure Keeps (inst : Instance) (st0 st : State) : Prop where
  items : Items inst st
  size : ∀ i, (st.item i).x = (st0.item i).x ∧ (st.item i).y = (st0.item i).y

theorem Keeps.set {st0 : State} (h : Keeps inst st0 st) {i : Nat} {it : WorkItem}
    (hs : i < st.items.length → Sound inst i it)
    (hx : it.x = (st.item i).x) (hy : it.y = (st.item i).y) : Keeps inst st0 (st.setItem i it) := by
  refine ⟨h.items.set hs, fun j => ?_⟩
  rw [item_setItem]
  split_ifs with hc
  · obtain ⟨rfl, -⟩ := hc
    rw [hx, hy]; exact h.size i
  · exact h.size j

theorem removeAll_sound {st0 : State} (l : List Nat) :
    ∀ {acc acc' : State × List (List (List Companion))}, l.foldlM removeAll acc = .ok acc' →
    (∀ i ∈ l, i < inst.numberOfItemTypes) → Keeps inst st0 acc.1 →
    (∀ i, ∀ cs ∈ acc.2.getD i [], Fit inst i (st0.item i) cs) →
    Keeps inst st0 acc'.1 ∧ ∀ i, ∀ cs ∈ acc'.2.getD i [], Fit inst i (st0.item i) cs := by
  induction l with
  | nil => intro acc acc' h _ hK hP; cases h; exact ⟨hK, hP⟩
  | cons i l ih =>
    intro acc acc' h hl hK hP
    obtain ⟨acc1, h1, h2⟩ := foldlM_cons_ok.mp h
    unfold removeAll at h1
    obtain ⟨⟨e, it'⟩, he, h1⟩ := bind_ok.mp h1
    cases h1
    have hi : i < acc.1.items.length := by rw [hK.items.len]; exact hl i List.mem_cons_self
    obtain ⟨-, -, hx, hy, -⟩ := extract_ok he
    obtain ⟨e1, e2⟩ := extract_sound he (hK.items.sound i hi)
    refine ih h2 (fun j hj => hl j (List.mem_cons_of_mem _ hj))
      (hK.set (fun _ => e2.congr rfl rfl (fun _ h => h)) hx hy) (fun j cs hcs => ?_)
    dsimp only at hcs
    rw [List.getD_eq_getElem?_getD, List.getElem?_set] at hcs
    split_ifs at hcs with c1 c2
    · subst c1
      exact (e1 cs (by simpa using hcs)).congr (hK.size i).1.symm (hK.size i).2.symm
    · simp at hcs
    · rw [← List.getD_eq_getElem?_getD] at hcs; exact hP j cs hcs

theorem dressGroup_sound {big : Nat} {cs : List Companion} {prior : List (List (List Companion))}
    {size : Nat → WorkItem} (hP : ∀ i, ∀ cs ∈ prior.getD i [], Fit inst i (size i) cs)
    (hb : Fit inst big (size big) cs) : ∀ {g g' : List GroupItem} {next next' : List Nat},
    dressGroup big cs prior next g = .ok (next', g') →
    g'.map GroupItem.spot = g.map GroupItem.spot
      ∧ ∀ p ∈ g', Fit inst p.itemTypeId (size p.itemTypeId) p.companions := by
  intro g
  induction g with
  | nil => intro g' next next' h; cases h; exact ⟨rfl, by simp⟩
  | cons p g ih =>
    intro g' next next' h
    unfold dressGroup at h
    obtain ⟨⟨next1, p1⟩, h1, h⟩ := bind_ok.mp h
    obtain ⟨⟨next2, g2⟩, h2, h⟩ := bind_ok.mp h
    cases h
    obtain ⟨i1, i2⟩ := ih h2
    have hp : p1.spot = p.spot ∧ Fit inst p1.itemTypeId (size p1.itemTypeId) p1.companions := by
      split_ifs at h1 with c1
      · cases h1; subst c1; exact ⟨rfl, hb⟩
      · dsimp only at h1
        split at h1
        · rename_i x hx
          cases h1
          exact ⟨rfl, hP _ _ (List.mem_of_getElem? hx)⟩
        · cases h1
    refine ⟨by rw [List.map_cons, List.map_cons, hp.1, i1], fun q hq => ?_⟩
    rcases List.mem_cons.mp hq with rfl | hq
    · exact hp.2
    · exact i2 q hq

theorem dressGroups_sound {big : Nat} {prior : List (List (List Companion))}
    {size : Nat → WorkItem} (hP : ∀ i, ∀ cs ∈ prior.getD i [], Fit inst i (size i) cs) :
    ∀ {l : List (List GroupItem × List Companion)} {next next' : List Nat}
      {gs : List (List GroupItem)}, dressGroups big prior next l = .ok (next', gs) →
    (∀ q ∈ l, Fit inst big (size big) q.2) →
    ∀ g' ∈ gs, ∃ q ∈ l, g'.map GroupItem.spot = q.1.map GroupItem.spot
      ∧ ∀ p ∈ g', Fit inst p.itemTypeId (size p.itemTypeId) p.companions := by
  intro l
  induction l with
  | nil => intro next next' gs h _; cases h; simp
  | cons q l ih =>
    intro next next' gs h hl
    obtain ⟨g, cs⟩ := q
    unfold dressGroups at h
    obtain ⟨⟨next1, g1⟩, h1, h⟩ := bind_ok.mp h
    obtain ⟨⟨next2, gs2⟩, h2, h⟩ := bind_ok.mp h
    cases h
    intro g' hg'
    rcases List.mem_cons.mp hg' with rfl | hg'
    · exact ⟨(g, cs), List.mem_cons_self, dressGroup_sound hP (hl _ List.mem_cons_self) h1⟩
    · obtain ⟨q, hq, e⟩ := ih h2 (fun q hq => hl q (List.mem_cons_of_mem _ hq)) g' hg'
      exact ⟨q, List.mem_cons_of_mem _ hq, e⟩

theorem commitAll_geo {prior : List (List (List Companion))} {st0 : State}
    (hP : ∀ i, ∀ cs ∈ prior.getD i [], Fit env.inst i (st0.item i) cs)
    (h0 : Items env.inst st0) (l : List (Nat × List (List GroupItem))) :
    ∀ {acc acc' : State × List Nat}, l.foldlM (commitOne prior) acc = .ok acc' →
    (∀ p ∈ l, p.1 < env.inst.numberOfItemTypes ∧ ∀ g ∈ p.2,
      Laid env.inst st0.item env.bin (g.map GroupItem.spot)
      ∧ ∀ q ∈ g, q.itemTypeId < env.inst.numberOfItemTypes) →
    Keeps env.inst st0 acc.1 → Reserved env acc.1 →
    Keeps env.inst st0 acc'.1 ∧ Reserved env acc'.1 := by
  induction l with
  | nil => intro acc acc' h _ hK hR; cases h; exact ⟨hK, hR⟩
  | cons p l ih =>
    intro acc acc' h hl hK hR
    obtain ⟨acc1, h1, h2⟩ := foldlM_cons_ok.mp h
    obtain ⟨l1, l2⟩ := hl p List.mem_cons_self
    have first : Keeps env.inst st0 acc1.1 ∧ Reserved env acc1.1 := by
      unfold commitOne at h1
      split_ifs at h1 with he
      · cases h1; exact ⟨hK, hR⟩
      · obtain ⟨⟨e, it'⟩, h3, h1⟩ := bind_ok.mp h1
        obtain ⟨⟨next, gs⟩, h4, h1⟩ := bind_ok.mp h1
        cases h1
        have hi : p.1 < acc.1.items.length := by rw [hK.items.len]; exact l1
        obtain ⟨-, -, hx, hy, -⟩ := extract_ok h3
        obtain ⟨e1, e2⟩ := extract_sound h3 (hK.items.sound p.1 hi)
        have hset := hK.set (i := p.1) (it :=
            if (acc.1.item p.1).copies - p.2.length = 0 then
              { it' with copies := (acc.1.item p.1).copies - p.2.length, removed := true }
            else { it' with copies := (acc.1.item p.1).copies - p.2.length })
          (fun _ => by split_ifs <;> exact e2.congr rfl rfl (fun _ h => h))
          (by split_ifs <;> exact hx) (by split_ifs <;> exact hy)
        refine ⟨⟨⟨hset.items.len, hset.items.sound⟩, hset.size⟩,
          ⟨hR.full, hR.pair, fun g hg => ?_⟩⟩
        rcases List.mem_append.mp hg with hg | hg
        · exact hR.group g hg
        · obtain ⟨q, hq, f1, f2⟩ := dressGroups_sound hP h4 (fun q hq =>
            (e1 _ (List.of_mem_zip (a := q.1) (b := q.2) hq).2).congr (hK.size _).1.symm
              (hK.size _).2.symm) g hg
          obtain ⟨m1, m2⟩ := l2 q.1 (List.of_mem_zip (a := q.1) (b := q.2) hq).1
          refine group_tiles (size := st0.item) (by rw [f1]; exact m1) (fun x hx => ?_)
          refine ⟨h0.sound _ ?_, f2 x hx⟩
          rw [h0.len]
          have : x.spot ∈ q.1.map GroupItem.spot := by rw [← f1]; exact List.mem_map_of_mem hx
          obtain ⟨y, hy, e⟩ := List.mem_map.mp this
          have e : x.itemTypeId = y.itemTypeId := (congrArg PlacedItem.itemTypeId e).symm
          rw [e]; exact m2 y hy
    exact ih h2 (fun q hq => hl q (List.mem_cons_of_mem _ hq)) first.1 first.2

theorem tryBoth_geo {bigs : List Nat} {found : Bool} (hG : Geo env st)
    (hb : Picked env false bigs)
    (hsolve : ∀ t ops inst, InstanceBuilder.runOps ops = .ok inst →
      ValidPacking inst (env.solve t inst))
    (h : tryBoth env st bigs = .ok (found, st')) : Geo env st' := by
  unfold tryBoth at h
  dsimp only at h
  set rs := candidatesBoth env st bigs with hrs
  have hrl : ∀ i ∈ rs, i < st.items.length := by
    intro i hi
    rw [hrs] at hi
    unfold candidatesBoth at hi
    rw [List.mem_filter] at hi
    exact List.mem_range.mp hi.1
  split_ifs at h with h1
  · obtain ⟨⟨st1, any⟩, h2, h⟩ := bind_ok.mp h
    cases h
    exact capture_geo bigs h2 hG (fun i hi => (hb.2 i hi).1)
  · obtain ⟨check, h3, h⟩ := bind_ok.mp h
    have hC := checkBothOps_built h3
    have hv := hsolve st.ticks _ _ h3
    split_ifs at h with h4
    · cases h; exact hG.tick
    · split at h
      · cases h; exact hG.tick
      · rename_i groups hg
        split_ifs at h with h5 h6
        · cases h; exact hG.tick
        · cases h; exact hG.tick
        · obtain ⟨⟨st1, prior⟩, h7, h⟩ := bind_ok.mp h
          obtain ⟨⟨st2, next⟩, h8, h⟩ := bind_ok.mp h
          cases h
          have hmem : ∀ i ∈ bigs ++ rs, i < env.inst.numberOfItemTypes := by
            intro i hi
            rcases List.mem_append.mp hi with hi | hi
            · exact (hb.2 i hi).1
            · rw [← hG.items.len]; exact hrl i hi
          unfold readCheckBoth at hg
          have hlaid := readCheckBoth_laid (inst := env.inst) (size := st.item) (R := env.bin)
            (rs := rs) _ (fun b hbm => by
              have hbv := hv.bins b hbm
              have hz : b.binTypeId = 0 := by have := hbv.1; rw [hC.bins] at this; omega
              have := Laid.of_bin (inst := env.inst) (size := st.item) hC.items
                (fun k hk => ⟨(hC.item k hk).x, (hC.item k hk).y, (hC.item k hk).oriented⟩)
                hbv.2.2 0 0
              rw [hz, hC.x, hC.y] at this
              exact this) hg (by
              intro l hl g hg'
              rw [List.eq_of_mem_replicate hl] at hg'
              simp at hg')
          have hk0 : Keeps env.inst st st.tick := ⟨⟨hG.items.len, hG.items.sound⟩, fun _ => ⟨rfl, rfl⟩⟩
          obtain ⟨r1, r2⟩ := removeAll_sound (inst := env.inst) (st0 := st) rs h7
            (fun i hi => by rw [← hG.items.len]; exact hrl i hi) hk0 (fun i cs hcs => by
              rw [List.getD_eq_getElem?_getD, List.getElem?_replicate] at hcs
              split_ifs at hcs <;> simp at hcs)
          obtain ⟨d, -⟩ := removeAll_ok rs h7 (fun i hi => hrl i hi)
          obtain ⟨s1, s2⟩ := commitAll_geo (env := env) r2 hG.items (bigs.zip groups) h8
            (fun p hp => by
              obtain ⟨p1, p2⟩ := List.of_mem_zip (a := p.1) (b := p.2) hp
              refine ⟨(hb.2 _ p1).1, fun g hg' => ?_⟩
              obtain ⟨q1, q2⟩ := hlaid _ p2 g hg'
              exact ⟨q1, fun q hq => hmem _ (q2 q hq)⟩) r1 (hG.tick.reserved.of_same d.bins)
          exact ⟨s1.items, s2⟩

/-! ## Bins filled by an item or a pair -/

theorem fullBinOne_geo {acc acc' : State × Bool} {i : Nat} (h : fullBinOne env acc i = .ok acc')
    (hG : Geo env acc.1) (hi : i < acc.1.items.length) : Geo env acc'.1 := by
  unfold fullBinOne at h
  dsimp only at h
  by_cases h0 : (acc.1.item i).removed = true
  · rw [if_pos h0] at h; cases h; exact hG
  rw [if_neg h0] at h
  split at h
  · cases h; exact hG
  · rename_i r hr
    split_ifs at h with h1
    · cases h; exact hG
    · obtain ⟨⟨e, it'⟩, h2, h⟩ := bind_ok.mp h
      cases h
      have hs := hG.items.sound i hi
      obtain ⟨e1, e2⟩ := extract_sound h2 hs
      have hit := hG.items.set (i := i) (it := { it' with removed := true })
        (fun _ => e2.congr rfl rfl (fun _ h => h))
      refine ⟨⟨hit.len, hit.sound⟩, ⟨fun f hf => ?_, hG.reserved.pair, hG.reserved.group⟩⟩
      rcases List.mem_append.mp hf with hf | hf
      · exact hG.reserved.full f hf
      · rw [List.mem_singleton.mp hf]
        intro cs hcs
        have hro : (r = true → (env.inst.itemType i).oriented = false)
            ∧ Sub (region (acc.1.item i) 0 0 r) env.bin := by
          split_ifs at hr with c1 c2
          · cases hr
            exact ⟨by simp, region_bin (by simpa using c1.1.le) (by simpa using c1.2.le)⟩
          · cases hr
            refine ⟨fun _ => by simpa [Env.oriented] using c2.1,
              region_bin (by simpa using c2.2.1.le) (by simpa using c2.2.2.le)⟩
        exact (hs.place_tiles (e1 cs hcs) hro.1 0 0).mono hro.2

theorem consume_sound {i : Nat} {n : Int} {e : List (List Companion)}
    (hi : i < st.items.length) (h : consume st i n = .ok (e, st')) (hI : Items inst st) :
    Items inst st' ∧ (∀ cs ∈ e, Fit inst i (st.item i) cs) ∧ SameBins st st'
      ∧ ∀ j, j ≠ i → st'.item j = st.item j := by
  unfold consume at h
  obtain ⟨⟨e1, it'⟩, he, h⟩ := bind_ok.mp h
  cases h
  obtain ⟨f1, f2⟩ := extract_sound he (hI.sound i hi)
  exact ⟨hI.set fun _ => by split_ifs <;> exact f2.congr rfl rfl (fun _ h => h), f1,
    ⟨rfl, rfl, rfl⟩, fun j hj => item_setItem_ne _ (Ne.symm hj) _⟩

theorem pairOne_geo {acc acc' : State × Bool} {i : Nat} (h : pairOne env acc i = .ok acc')
    (hG : Geo env acc.1) (hi : i < acc.1.items.length) : Geo env acc'.1 := by
  unfold pairOne at h
  dsimp only at h
  split_ifs at h with h0 h00
  · cases h; exact hG
  · cases h; exact hG
  split at h
  · cases h; exact hG
  · rename_i j hj
    have hjl : j < acc.1.items.length := List.mem_range.mp (List.mem_of_find?_eq_some hj)
    split at h
    · cases h; exact hG
    · rename_i dx dy hp
      obtain ⟨⟨e1, st1⟩, h1, h⟩ := bind_ok.mp h
      obtain ⟨⟨e2, st2⟩, h2, h⟩ := bind_ok.mp h
      cases h
      unfold pairWith at hp
      split_ifs at hp with q1 q2 q3 q4
      have c1 := consume_sound (inst := env.inst) hi h1 hG.items
      have c2 := consume_sound (inst := env.inst)
        (by rw [c1.1.len, ← hG.items.len]; exact hjl) h2 c1.1
      have hs1 := hG.items.sound i hi
      have hs2 := hG.items.sound j hjl
      have hres := (hG.reserved.of_same c1.2.2.1).of_same c2.2.2.1
      refine ⟨⟨c2.1.len, c2.1.sound⟩, ⟨hres.full, fun p hpm => ?_, hres.group⟩⟩
      rcases List.mem_append.mp hpm with hpm | hpm
      · exact hres.pair p hpm
      · rw [List.mem_singleton.mp hpm]
        intro d1 hd1 d2 hd2
        have f1 := c1.2.1 d1 hd1
        have f2 := c2.2.1 d2 hd2
        rw [c1.2.2.2 j q1] at f2
        have t1 := hs1.place_tiles f1 (r := false) (by simp) 0 0
        have t2 := hs2.place_tiles f2 (r := false) (by simp) dx dy
        have hp1 := hs1.pos
        have hg1 := hs1.ge
        have hp2 := hs2.pos
        have hg2 := hs2.ge
        have hgeo : Sub (region (acc.1.item i) 0 0 false) env.bin
            ∧ Sub (region (acc.1.item j) dx dy false) env.bin
            ∧ Separated (region (acc.1.item i) 0 0 false) (region (acc.1.item j) dx dy false) := by
          unfold pairOffset at hp
          split_ifs at hp with o1 o2
          · cases hp
            simp only [Sub, Separated, region, Env.bin, Bool.false_eq_true, if_false]
            omega
          · cases hp
            simp only [Sub, Separated, region, Env.bin, Bool.false_eq_true, if_false]
            omega
        exact t1.append t2 hgeo.1 hgeo.2.1 hgeo.2.2

theorem foldl_geo {f : State × Bool → Nat → Except Err (State × Bool)}
    (hf : ∀ acc acc' i, f acc i = .ok acc' → Geo env acc.1 → i < acc.1.items.length →
      Geo env acc'.1) (l : List Nat) : ∀ {acc acc' : State × Bool},
    l.foldlM f acc = .ok acc' → Geo env acc.1 → (∀ i ∈ l, i < env.inst.numberOfItemTypes) →
    Geo env acc'.1 := by
  induction l with
  | nil => intro acc acc' h hG _; cases h; exact hG
  | cons i l ih =>
    intro acc acc' h hG hl
    obtain ⟨acc1, h1, h2⟩ := foldlM_cons_ok.mp h
    exact ih h2 (hf _ _ _ h1 hG (by rw [hG.items.len]; exact hl i List.mem_cons_self))
      (fun j hj => hl j (List.mem_cons_of_mem _ hj))

theorem fullBins_geo {found : Bool} (h : fullBins env st = .ok (found, st')) (hG : Geo env st) :
    Geo env st' := by
  unfold fullBins at h
  obtain ⟨⟨s, any⟩, h1, h⟩ := bind_ok.mp h
  cases h
  exact foldl_geo (fun _ _ _ h1 h2 h3 => fullBinOne_geo h1 h2 h3) _ h1 hG
    (fun i hi => by rw [← hG.items.len]; exact List.mem_range.mp hi)

theorem perfectPairs_geo {found : Bool} (h : perfectPairs env st = .ok (found, st'))
    (hG : Geo env st) : Geo env st' := by
  unfold perfectPairs at h
  obtain ⟨⟨s, any⟩, h1, h⟩ := bind_ok.mp h
  cases h
  exact foldl_geo (fun _ _ _ h1 h2 h3 => pairOne_geo h1 h2 h3) _ h1 hG
    (fun i hi => by rw [← hG.items.len]; exact List.mem_range.mp hi)

end PackingSolver.Rect.Reduction
