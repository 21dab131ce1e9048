import Verif.Lemmas.Rect.ReduceSound

/-!
# Enlarging groups of items keeps the contents of their rectangles valid
-/

namespace PackingSolver.Rect.Reduction

open Rect.Spec

variable {env : Env} {st st' : State} {inst : Instance} {size : Nat → WorkItem} {rs : List Nat}

/-- The companions read off a bin, and where they are. -/
theorem readCompanions_spot {a : Axis} {big : WorkItem} :
    ∀ {items : List PlacedItem} {cs : List Companion}, readCompanions a big rs items = .ok cs →
    cs.map Companion.spot = items.map fun p => ⟨rs.getD p.itemTypeId 0,
      p.x + (match a with | .wide => big.x | .tall => 0),
      p.y + (match a with | .wide => 0 | .tall => big.y), p.rotate⟩ := by
  intro items
  induction items with
  | nil =>
    intro cs h
    unfold readCompanions at h
    rw [List.mapM_nil] at h
    cases h; rfl
  | cons p items ih =>
    intro cs h
    unfold readCompanions at h
    rw [List.mapM_cons] at h
    obtain ⟨c, h1, h⟩ := bind_ok.mp h
    obtain ⟨cs1, h2, h⟩ := bind_ok.mp h
    cases h
    split_ifs at h1 with hp
    cases h1
    rw [List.map_cons, List.map_cons, ih h2, List.getD_eq_getElem _ _ hp]
    congr 1
    unfold Companion.spot offset
    cases a
    · simp [Int.add_comm]
    · simp [Int.add_comm]

/-- The companions read for each big item lie beside it. -/
theorem readCheck_laid {a : Axis} {checked : List Nat} (sol : List PackedBin)
    (hb : ∀ b ∈ sol, ∀ (h : b.binTypeId < checked.length), ∀ cs,
      readCompanions a (st.item checked[b.binTypeId]) rs b.items = .ok cs →
      Laid inst size (strip env a (st.item checked[b.binTypeId])) (cs.map Companion.spot)) :
    ∀ {acc comps : List (List (List Companion))},
    sol.foldlM (fun acc b =>
      if h : b.binTypeId < checked.length then do
        let cs ← readCompanions a (st.item checked[b.binTypeId]) rs b.items
        .ok (acc.modify b.binTypeId (· ++ List.replicate b.copies.toNat cs))
      else .error .ub) acc = (.ok comps : Except Err _) →
    (∀ k (h : k < checked.length), ∀ cs ∈ acc.getD k [],
      Laid inst size (strip env a (st.item checked[k])) (cs.map Companion.spot)) →
    ∀ k (h : k < checked.length), ∀ cs ∈ comps.getD k [],
      Laid inst size (strip env a (st.item checked[k])) (cs.map Companion.spot) := by
  induction sol with
  | nil => intro acc comps h ha; cases h; exact ha
  | cons b sol ih =>
    intro acc comps h ha
    obtain ⟨acc1, h1, h2⟩ := foldlM_cons_ok.mp h
    by_cases hbt : b.binTypeId < checked.length
    · rw [dif_pos hbt] at h1
      obtain ⟨cs, h3, h1⟩ := bind_ok.mp h1
      cases h1
      refine ih (fun b' hb' => hb b' (List.mem_cons_of_mem _ hb')) h2 (fun k hk x hx => ?_)
      rw [List.getD_eq_getElem?_getD, List.getElem?_modify] at hx
      cases hak : acc[k]? with
      | none => rw [hak] at hx; simp at hx
      | some l =>
        rw [hak] at hx
        have hold : ∀ y ∈ l, Laid inst size (strip env a (st.item checked[k]))
            (y.map Companion.spot) := by
          intro y hy
          refine ha k hk y ?_
          rw [List.getD_eq_getElem?_getD, hak]; exact hy
        by_cases hkb : b.binTypeId = k
        · simp only [hkb, if_true, Option.map_eq_map, Option.map_some, Option.getD_some] at hx
          rcases List.mem_append.mp hx with h4 | h4
          · exact hold x h4
          · rw [List.eq_of_mem_replicate h4]
            subst hkb
            exact hb b List.mem_cons_self hbt cs h3
        · simp only [hkb, if_false, Option.map_eq_map, Option.map_some, Option.getD_some] at hx
          exact hold x hx
    · rw [dif_neg hbt] at h1; cases h1

/-- The loop over the checked big items. -/
theorem applyLoop_sound {a : Axis} {trivial : Bool} {st0 : State}
    (hsz : ∀ i ∈ rs, Sound inst i (st0.item i)) (l : List (Nat × List (List Companion))) :
    ∀ {acc acc' : Apply × Bool}, l.foldlM (applyOne env a trivial) acc = .ok acc' →
    (l.map Prod.fst).Nodup →
    Absorbing inst st0.item rs acc.1 →
    (∀ p ∈ l, p.1 ∉ rs ∧ p.1 < acc.1.st.items.length ∧ (inst.itemType p.1).oriented = true
      ∧ acc.1.st.item p.1 = st0.item p.1
      ∧ 0 < (companionBin env a (st0.item p.1)).1 ∧ 0 < (companionBin env a (st0.item p.1)).2
      ∧ ∀ cs ∈ p.2, Laid inst st0.item (strip env a (st0.item p.1)) (cs.map Companion.spot)) →
    (∀ p ∈ l, ∀ cs ∈ p.2, ∀ c ∈ cs, c.id ∈ rs ∧ c.id < acc.1.st.items.length) →
    Items inst acc'.1.st ∧ SameBins acc.1.st acc'.1.st := by
  induction l with
  | nil => intro acc acc' h _ hA _ _; cases h; exact ⟨hA.items, SameBins.refl _⟩
  | cons p l ih =>
    intro acc acc' h hnd hA hp hc
    obtain ⟨acc1, h1, h2⟩ := foldlM_cons_ok.mp h
    rw [List.map_cons, List.nodup_cons] at hnd
    obtain ⟨p1, p2, p3, p4, p5, p6, p7⟩ := hp p List.mem_cons_self
    have first : Absorbing inst st0.item rs acc1.1 ∧ SameBins acc.1.st acc1.1.st
        ∧ acc1.1.st.items.length = acc.1.st.items.length
        ∧ ∀ j, j ∉ rs → j ≠ p.1 → acc1.1.st.item j = acc.1.st.item j := by
      unfold applyOne at h1
      split_ifs at h1 with hv
      · cases h1; exact ⟨hA, SameBins.refl _, rfl, fun _ _ _ => rfl⟩
      · obtain ⟨⟨ap, cs'⟩, h3, h1⟩ := bind_ok.mp h1
        obtain ⟨it, h4, h1⟩ := bind_ok.mp h1
        cases h1
        obtain ⟨d, -⟩ := absorbCopies_ok h3 (fun cs hcs c hc' =>
          (hc p List.mem_cons_self cs hcs c hc').2)
        obtain ⟨a1, a2⟩ := absorbCopies_sound h3 hA (hc p List.mem_cons_self)
        have hkeep : ∀ j, j ∉ rs → ap.st.item j = acc.1.st.item j := by
          intro j hj
          rcases d.item j with e | ⟨⟨cs, hcs, c, hc', he⟩, -⟩
          · exact e
          · exact absurd (he ▸ (hc p List.mem_cons_self cs hcs c hc').1) hj
        have hbig : ap.st.item p.1 = st0.item p.1 := (hkeep p.1 p1).trans p4
        have hlen : p.1 < ap.st.items.length := by rw [d.len]; exact p2
        have hsnd := a1.items.sound p.1 hlen
        have hit : Sound inst p.1 it := by
          refine enlarge_sound h4 hsnd p3 (by rw [hbig]; exact ⟨p5, p6⟩) (fun cs hcs => ?_)
          obtain ⟨cs0, h5, h6, h7⟩ := a2 cs hcs
          rw [hbig]
          refine strip_tiles (p7 cs0 h5) h6 h7 (fun c hc' => hsz _ ?_)
          have : c.spot ∈ cs0.map Companion.spot := by
            rw [← h6]; exact List.mem_map_of_mem hc'
          obtain ⟨c0, hc0, he⟩ := List.mem_map.mp this
          have e : c.spot.itemTypeId = c0.id := by rw [← he]; cases c0; rfl
          rw [e]
          exact (hc p List.mem_cons_self cs0 h5 c0 hc0).1
        refine ⟨⟨a1.items.set fun _ => hit, a1.prior, fun i hi => ?_⟩, d.bins, ?_, fun j hj hne => ?_⟩
        · change ((ap.st.setItem p.1 it).item i).x = _ ∧ _
          rw [item_setItem_ne _ (show p.1 ≠ i from fun e => p1 (e ▸ hi))]
          exact a1.sizes i hi
        · change (ap.st.setItem p.1 it).items.length = _
          rw [length_setItem, d.len]
        · change (ap.st.setItem p.1 it).item j = _
          rw [item_setItem_ne _ (Ne.symm hne)]
          exact hkeep j hj
    obtain ⟨f1, f2, f3, f4⟩ := first
    obtain ⟨g1, g2⟩ := ih h2 hnd.2 f1 (fun q hq => by
        obtain ⟨q1, q2, q3, q4, q5⟩ := hp q (List.mem_cons_of_mem _ hq)
        refine ⟨q1, by rw [f3]; exact q2, q3, ?_, q5⟩
        rw [f4 q.1 q1 (fun e => hnd.1 (e ▸ List.mem_map_of_mem hq))]
        exact q4)
      (fun q hq cs hcs c hc' => by
        rw [f3]; exact hc q (List.mem_cons_of_mem _ hq) cs hcs c hc')
    exact ⟨g1, f2.trans g2⟩

/-- Big items that must not be rotated. -/
def Picked (env : Env) (a : Bool) (bigs : List Nat) : Prop :=
  bigs.Nodup ∧ ∀ i ∈ bigs, i < env.inst.numberOfItemTypes ∧ (a = true → env.oriented i = true)

theorem tryGroup_geo {a : Axis} {bigs : List Nat} {found : Bool}
    (hG : Geo env st) (hb : Picked env true bigs)
    (hsolve : ∀ t ops inst, InstanceBuilder.runOps ops = .ok inst →
      ValidPacking inst (env.solve t inst))
    (h : tryGroup env a st bigs = .ok (found, st')) : Geo env st' := by
  unfold tryGroup at h
  dsimp only at h
  set checked := checkedBigs env a st bigs with hch
  set rs := candidates env a st bigs checked with hrs
  have hcb : ∀ i ∈ checked, i ∈ bigs ∧ 0 < (companionBin env a (st.item i)).1
      ∧ 0 < (companionBin env a (st.item i)).2 := by
    intro i hi
    rw [hch] at hi
    unfold checkedBigs at hi
    rw [List.mem_filter, Bool.and_eq_true, decide_eq_true_eq, decide_eq_true_eq] at hi
    exact ⟨hi.1, hi.2.1, hi.2.2⟩
  have hrsb : ∀ i ∈ rs, i ∉ bigs ∧ i < st.items.length := by
    intro i hi
    rw [hrs] at hi
    unfold candidates at hi
    rw [List.mem_filter, Bool.and_eq_true, Bool.and_eq_true] at hi
    exact ⟨by simpa using hi.2.1.2, List.mem_range.mp hi.1⟩
  have hnd : checked.Nodup := by rw [hch]; exact hb.1.filter _
  -- applying a reduction, with companions that lie beside the big items
  have apply : ∀ (trivial any : Bool) (s s' : State) (comps : List (List (List Companion))),
      s.items = st.items → Geo env s → comps.length = checked.length →
      (∀ l ∈ comps, ∀ cs ∈ l, ∀ c ∈ cs, c.id ∈ rs) →
      (∀ k (h : k < checked.length), ∀ cs ∈ comps.getD k [],
        Laid env.inst st.item (strip env a (st.item checked[k])) (cs.map Companion.spot)) →
      applyGroup env a trivial s checked comps = .ok (any, s') → Geo env s' := by
    intro trivial any s s' comps hs hGs hlen hids hlaid happ
    have hitem : s.item = st.item := by funext i; unfold State.item; rw [hs]
    unfold applyGroup at happ
    obtain ⟨⟨ap, any'⟩, h1, happ⟩ := bind_ok.mp happ
    cases happ
    have hfst : (checked.zip comps).map Prod.fst = checked := by
      rw [List.map_fst_zip (by omega)]
    obtain ⟨r1, r2⟩ := applyLoop_sound (inst := env.inst) (rs := rs) (st0 := st)
      (fun i hi => hG.items.sound i (hrsb i hi).2) (checked.zip comps) h1
      (by rw [hfst]; exact hnd)
      ⟨hGs.items, fun i cs hcs => by
          rw [List.getD_eq_getElem?_getD, List.getElem?_replicate] at hcs
          split_ifs at hcs <;> simp at hcs,
        fun i _ => by dsimp only; rw [hitem]; exact ⟨rfl, rfl⟩⟩
      (fun p hp => by
        obtain ⟨k, hk, rfl⟩ := List.mem_iff_getElem.mp hp
        rw [List.length_zip] at hk
        rw [List.getElem_zip]
        have hkc : k < checked.length := by omega
        have hmem : checked[k] ∈ checked := List.getElem_mem _
        obtain ⟨c1, c2, c3⟩ := hcb _ hmem
        dsimp only
        refine ⟨fun hr => (hrsb _ hr).1 c1, ?_, (hb.2 _ c1).2 rfl, by rw [hitem], c2, c3, ?_⟩
        · rw [hGs.items.len]; exact (hb.2 _ c1).1
        · have := hlaid k hkc
          rw [List.getD_eq_getElem _ _ (by omega)] at this
          exact this)
      (fun p hp cs hcs c hc => by
        have := hids p.2 (List.of_mem_zip hp).2 cs hcs c hc
        refine ⟨this, ?_⟩
        dsimp only
        rw [hs]; exact (hrsb _ this).2)
    exact ⟨r1, hGs.reserved.of_same r2⟩
  split_ifs at h with h1 h2
  · cases h; exact hG
  · refine apply true found st st' _ rfl hG (by simp) ?_ ?_ h
    · intro l hl cs hcs c hc
      obtain ⟨i, -, rfl⟩ := List.mem_map.mp hl
      rw [List.eq_of_mem_replicate hcs] at hc
      simp at hc
    · intro k hk cs hcs
      rw [List.getD_eq_getElem _ _ (by simpa using hk), List.getElem_map] at hcs
      rw [List.eq_of_mem_replicate hcs]
      exact ⟨by simp, by simp, List.Pairwise.nil⟩
  · obtain ⟨check, h3, h⟩ := bind_ok.mp h
    have hC := checkOps_built h3
    have hv := hsolve st.ticks _ _ h3
    split_ifs at h with h4
    · cases h; exact hG.tick
    · obtain ⟨comps, h5, h⟩ := bind_ok.mp h
      unfold readCheck at h5
      obtain ⟨k1, k2, -⟩ := readCheck_ok _ h5 (by simp) (by
        intro l hl cs hcs
        rw [List.eq_of_mem_replicate hl] at hcs
        simp at hcs)
      refine apply false found st.tick st' comps rfl hG.tick k1 k2 ?_ h
      refine readCheck_laid (st := st) (env := env) (inst := env.inst) (size := st.item) (rs := rs)
        _ ?_ h5 ?_
      · intro b hbm hbt cs hcs
        have hbv := (hv.bins b hbm).2.2
        have e := readCompanions_spot hcs
        rw [e]
        have := Laid.of_bin (inst := env.inst) (size := st.item) hC.items
          (fun k hk => ⟨(hC.item k hk).x, (hC.item k hk).y, (hC.item k hk).oriented⟩) hbv
          (match a with | .wide => (st.item checked[b.binTypeId]).x | .tall => 0)
          (match a with | .wide => 0 | .tall => (st.item checked[b.binTypeId]).y)
        rw [(hC.bin _ hbt).1, (hC.bin _ hbt).2.1] at this
        have e2 : strip env a (st.item checked[b.binTypeId])
          = ⟨(match a with | .wide => (st.item checked[b.binTypeId]).x | .tall => 0),
            (match a with | .wide => 0 | .tall => (st.item checked[b.binTypeId]).y),
            (companionBin env a (st.item checked[b.binTypeId])).1,
            (companionBin env a (st.item checked[b.binTypeId])).2⟩ := by
          cases a <;> rfl
        rw [e2]; exact this
      · intro k hk cs hcs
        rw [List.getD_eq_getElem?_getD, List.getElem?_replicate] at hcs
        split_ifs at hcs
        simp at hcs

end PackingSolver.Rect.Reduction
