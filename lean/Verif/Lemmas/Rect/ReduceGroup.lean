import Verif.Lemmas.Rect.ReduceState

/-!
# The reduction of groups of wide (tall) items keeps the invariant
-/

namespace PackingSolver.Rect.Reduction

open Rect.Spec

variable {env : Env} {k : Int} {st st' : State}

/-! ## Reading a check solution -/

theorem readCompanions_ok {a : Axis} {big : WorkItem} {rs : List Nat} :
    ∀ {items : List PlacedItem} {cs : List Companion}, readCompanions a big rs items = .ok cs →
    (∀ c ∈ cs, c.id ∈ rs)
      ∧ ∀ p ∈ items, ∃ c ∈ cs, ∃ h : p.itemTypeId < rs.length, c.id = rs[p.itemTypeId] := by
  intro items
  induction items with
  | nil =>
    intro cs h
    unfold readCompanions at h
    rw [List.mapM_nil] at h
    cases h
    exact ⟨by simp, by simp⟩
  | cons p items ih =>
    intro cs h
    unfold readCompanions at h
    rw [List.mapM_cons] at h
    obtain ⟨c, h1, h⟩ := bind_ok.mp h
    obtain ⟨cs', h2, h⟩ := bind_ok.mp h
    cases h
    obtain ⟨i1, i2⟩ := ih h2
    by_cases hp : p.itemTypeId < rs.length
    · rw [dif_pos hp] at h1
      cases h1
      refine ⟨?_, ?_⟩
      · intro c hc
        rcases List.mem_cons.mp hc with rfl | h3
        · exact List.getElem_mem hp
        · exact i1 c h3
      · intro q hq
        rcases List.mem_cons.mp hq with rfl | h3
        · exact ⟨_, List.mem_cons_self, hp, rfl⟩
        · obtain ⟨c, hc, h4⟩ := i2 q h3
          exact ⟨c, List.mem_cons_of_mem _ hc, h4⟩
    · rw [dif_neg hp] at h1; cases h1

/-- The companions read off a check solution. -/
theorem readCheck_ok {a : Axis} {checked rs : List Nat} (sol : List PackedBin) :
    ∀ {acc comps : List (List (List Companion))},
    sol.foldlM (fun acc b =>
      if h : b.binTypeId < checked.length then do
        let cs ← readCompanions a (st.item checked[b.binTypeId]) rs b.items
        .ok (acc.modify b.binTypeId (· ++ List.replicate b.copies.toNat cs))
      else .error .ub) acc = (.ok comps : Except Err _) →
    acc.length = checked.length →
    (∀ l ∈ acc, ∀ cs ∈ l, ∀ c ∈ cs, c.id ∈ rs) →
    comps.length = checked.length
      ∧ (∀ l ∈ comps, ∀ cs ∈ l, ∀ c ∈ cs, c.id ∈ rs)
      ∧ (∀ l ∈ acc, ∃ l' ∈ comps, ∀ cs ∈ l, cs ∈ l')
      ∧ ∀ b ∈ sol, 0 < b.copies → ∀ p ∈ b.items, ∃ l ∈ comps, ∃ cs ∈ l, ∃ c ∈ cs,
        ∃ h : p.itemTypeId < rs.length, c.id = rs[p.itemTypeId] := by
  induction sol with
  | nil =>
    intro acc comps h hl hr
    cases h
    exact ⟨hl, hr, fun l hl => ⟨l, hl, fun _ h => h⟩, by simp⟩
  | cons b sol ih =>
    intro acc comps h hl hr
    obtain ⟨acc1, h1, h2⟩ := foldlM_cons_ok.mp h
    by_cases hb : b.binTypeId < checked.length
    · rw [dif_pos hb] at h1
      obtain ⟨cs, h3, h1⟩ := bind_ok.mp h1
      cases h1
      obtain ⟨c1, c2⟩ := readCompanions_ok h3
      have hba : b.binTypeId < acc.length := by omega
      have hmem : ∀ l ∈ acc.modify b.binTypeId (· ++ List.replicate b.copies.toNat cs),
          ∃ l0 ∈ acc, ∀ x ∈ l, x ∈ l0 ∨ x = cs := by
        intro l hl'
        obtain ⟨i, hi, rfl⟩ := List.mem_iff_getElem.mp hl'
        rw [List.length_modify] at hi
        rw [List.getElem_modify]
        refine ⟨acc[i], List.getElem_mem hi, fun x hx => ?_⟩
        split_ifs at hx
        · rcases List.mem_append.mp hx with h4 | h4
          · exact Or.inl h4
          · exact Or.inr (List.eq_of_mem_replicate h4)
        · exact Or.inl hx
      have hkeep : ∀ l ∈ acc, ∃ l' ∈ acc.modify b.binTypeId (· ++ List.replicate b.copies.toNat cs),
          ∀ x ∈ l, x ∈ l' := by
        intro l hl'
        obtain ⟨i, hi, rfl⟩ := List.mem_iff_getElem.mp hl'
        refine ⟨_, List.getElem_mem (by rw [List.length_modify]; exact hi), fun x hx => ?_⟩
        rw [List.getElem_modify]
        split_ifs
        · exact List.mem_append_left _ hx
        · exact hx
      obtain ⟨j1, j2, j3, j4⟩ := ih h2 (by rw [List.length_modify]; exact hl)
        (by
          intro l hl' x hx c hc
          obtain ⟨l0, hl0, h4⟩ := hmem l hl'
          rcases h4 x hx with h5 | rfl
          · exact hr l0 hl0 x h5 c hc
          · exact c1 c hc)
      refine ⟨j1, j2, ?_, ?_⟩
      · intro l hl'
        obtain ⟨l1, h4, h5⟩ := hkeep l hl'
        obtain ⟨l2, h6, h7⟩ := j3 l1 h4
        exact ⟨l2, h6, fun x hx => h7 x (h5 x hx)⟩
      · intro b' hb' hpos p hp
        rcases List.mem_cons.mp hb' with rfl | h4
        · obtain ⟨c, hc, hpr⟩ := c2 p hp
          have hml : (acc.modify b'.binTypeId (· ++ List.replicate b'.copies.toNat cs))[b'.binTypeId]'
              (by rw [List.length_modify]; exact hba)
              ∈ acc.modify b'.binTypeId (· ++ List.replicate b'.copies.toNat cs) :=
            List.getElem_mem _
          obtain ⟨l', hl', hsub⟩ := j3 _ hml
          refine ⟨l', hl', cs, hsub cs ?_, c, hc, hpr⟩
          rw [List.getElem_modify, if_pos rfl]
          apply List.mem_append_right
          rw [List.mem_replicate]
          exact ⟨by omega, rfl⟩
        · exact j4 b' h4 hpos p hp
    · rw [dif_neg hb] at h1; cases h1

/-! ## Growth of a state -/

/-- Item types that remain are only enlarged, and only if they must not be rotated. -/
structure Grow (env : Env) (st st' : State) : Prop where
  len : st'.items.length = st.items.length
  item : ∀ i, (st'.item i).removed = true ∨ ((st.item i).removed = false
    ∧ (st.item i).x ≤ (st'.item i).x ∧ (st.item i).y ≤ (st'.item i).y
    ∧ (env.oriented i = false → (st'.item i).x = (st.item i).x ∧ (st'.item i).y = (st.item i).y))

theorem Grow.refl (env : Env) (st : State) : Grow env st st := by
  refine ⟨rfl, fun i => ?_⟩
  cases h : (st.item i).removed
  · right; exact ⟨rfl, le_refl _, le_refl _, fun _ => ⟨rfl, rfl⟩⟩
  · left; rfl

theorem Grow.tick (env : Env) (st : State) : Grow env st st.tick :=
  ⟨rfl, (Grow.refl env st).item⟩

theorem Grow.trans {a b c : State} (h : Grow env a b) (h' : Grow env b c) : Grow env a c := by
  refine ⟨h'.len.trans h.len, fun i => ?_⟩
  rcases h'.item i with e | ⟨e1, e2, e3, e4⟩
  · exact Or.inl e
  · rcases h.item i with f | ⟨f1, f2, f3, f4⟩
    · rw [f] at e1; exact absurd e1 (by simp)
    · right
      refine ⟨f1, by omega, by omega, fun ho => ?_⟩
      rw [(e4 ho).1, (e4 ho).2]; exact f4 ho

theorem Grow.removed {a b : State} (h : Grow env a b) {i : Nat} (hi : (b.item i).removed = false) :
    (a.item i).removed = false := by
  rcases h.item i with e | ⟨e, -⟩
  · rw [e] at hi; exact absurd hi (by simp)
  · exact e

/-- A list of distinct remaining item types with a property. -/
structure Bigs (P : Nat → WorkItem → Bool) (st : State) (bigs : List Nat) : Prop where
  nodup : bigs.Nodup
  big : ∀ i ∈ bigs, i < st.items.length ∧ (st.item i).removed = false ∧ P i (st.item i) = true

theorem Inv.tick (h : Inv env k st) : Inv env k st.tick := ⟨h.len, h.pos, h.same, h.ded, h.packs⟩

theorem isBig_wide {i : Nat} {it : WorkItem} (h : isBig env .wide i it = true) :
    env.oriented i = true ∧ env.w < 2 * it.x := by
  unfold isBig at h
  cases ho : env.oriented i
  · rw [ho] at h; simp at h
  · rw [ho] at h; simp at h; exact ⟨rfl, by omega⟩

theorem isBig_tall {i : Nat} {it : WorkItem} (h : isBig env .tall i it = true) :
    env.oriented i = true ∧ env.h < 2 * it.y := by
  unfold isBig at h
  cases ho : env.oriented i
  · rw [ho] at h; simp at h
  · rw [ho] at h; simp at h; exact ⟨rfl, by omega⟩

/-- What `applyGroup` does. -/
theorem applyGroup_ok {a : Axis} {trivial any : Bool} {checked rs : List Nat}
    {comps : List (List (List Companion))}
    (h : applyGroup env a trivial st checked comps = .ok (any, st'))
    (hnd : checked.Nodup) (hdis : ∀ i ∈ checked, i ∉ rs)
    (hrs : ∀ i ∈ rs, i < st.items.length) (hlen : comps.length = checked.length)
    (hids : ∀ l ∈ comps, ∀ cs ∈ l, ∀ c ∈ cs, c.id ∈ rs) :
    Applied env a (· ∈ checked) (· ∈ rs) st st'
      ∧ ∀ l ∈ comps, ∀ cs ∈ l, ∀ c ∈ cs, (st'.item c.id).removed = true := by
  unfold applyGroup at h
  obtain ⟨⟨ap, any'⟩, h1, h⟩ := bind_ok.mp h
  cases h
  have hfst : (checked.zip comps).map Prod.fst = checked := by
    rw [List.map_fst_zip (by omega)]
  obtain ⟨h2, h3⟩ := applyLoop_ok (B := (· ∈ checked)) (S := (· ∈ rs)) hdis
    (checked.zip comps) h1 (by rw [hfst]; exact hnd)
    (fun p hp => (List.of_mem_zip hp).1)
    (fun p hp cs hcs c hc => by
      have := hids p.2 (List.of_mem_zip hp).2 cs hcs c hc
      exact ⟨this, hrs _ this⟩)
  refine ⟨⟨h2.len, h2.bins, fun i => ?_⟩, ?_⟩
  · rcases h2.item i with e | e | ⟨⟨e1, -⟩, e2⟩
    · exact Or.inl e
    · exact Or.inr (Or.inl e)
    · exact Or.inr (Or.inr ⟨e1, e2⟩)
  · intro l hl cs hcs c hc
    obtain ⟨i, hi, rfl⟩ := List.mem_iff_getElem.mp hl
    have hz : (checked[i]'(by omega), comps[i]) ∈ checked.zip comps := by
      rw [List.mem_iff_getElem]
      exact ⟨i, by rw [List.length_zip]; omega, List.getElem_zip ..⟩
    exact h3 _ hz cs hcs c hc

/-- **The geometric step**: enlarging keeps the invariant. -/
theorem applied_inv {a : Axis} {bigs : List Nat} (hI : Inv env k st)
    (hb : Bigs (isBig env a) st bigs)
    (hA : Applied env a (· ∈ checkedBigs env a st bigs)
      (· ∈ candidates env a st bigs (checkedBigs env a st bigs)) st st')
    (hR : ∀ i ∈ candidates env a st bigs (checkedBigs env a st bigs), (st.item i).copies ≠ 0 →
      (st'.item i).removed = true) :
    Inv env k st' ∧ Grow env st st' := by
  classical
  set checked := checkedBigs env a st bigs with hch
  set rs := candidates env a st bigs checked with hrs
  -- facts
  have hcb : ∀ i ∈ checked, i ∈ bigs ∧ 0 < (companionBin env a (st.item i)).1
      ∧ 0 < (companionBin env a (st.item i)).2 := by
    intro i hi
    rw [hch] at hi
    unfold checkedBigs at hi
    rw [List.mem_filter, Bool.and_eq_true, decide_eq_true_eq, decide_eq_true_eq] at hi
    exact ⟨hi.1, hi.2.1, hi.2.2⟩
  have hcand : ∀ j, j < st.items.length → j ∉ rs → (st.item j).removed = false → j ∉ bigs →
      ∀ i ∈ checked, couldFit env a (st.item i) j (st.item j) = false := by
    intro j hj hjr hrem hjb i hi
    by_contra hcf
    apply hjr
    rw [hrs]
    unfold candidates
    rw [List.mem_filter]
    refine ⟨List.mem_range.mpr hj, ?_⟩
    rw [hrem, Bool.and_eq_true, Bool.and_eq_true]
    refine ⟨⟨rfl, by simpa using hjb⟩, ?_⟩
    rw [List.any_eq_true]
    exact ⟨i, hi, by simpa using hcf⟩
  have hrsb : ∀ i ∈ rs, i ∉ bigs ∧ i < st.items.length ∧ (st.item i).removed = false := by
    intro i hi
    rw [hrs] at hi
    unfold candidates at hi
    rw [List.mem_filter, Bool.and_eq_true, Bool.and_eq_true] at hi
    exact ⟨by simpa using hi.2.1.2, List.mem_range.mp hi.1, by simpa using hi.2.1.1⟩
  -- how each item type ends
  have hxy : ∀ i, i < st.items.length → (st.item i).x ≤ (st'.item i).x
      ∧ (st.item i).y ≤ (st'.item i).y
      ∧ (i ∉ checked → (st'.item i).x = (st.item i).x ∧ (st'.item i).y = (st.item i).y)
      ∧ ((st'.item i).copies = (st.item i).copies ∨ (st'.item i).copies = 0) := by
    intro i hi
    rcases hA.item i with e | ⟨-, -, e2, e3, e4⟩ | ⟨hc, he⟩
    · rw [e]; exact ⟨le_refl _, le_refl _, fun _ => ⟨rfl, rfl⟩, Or.inl rfl⟩
    · rw [e2, e3]; exact ⟨le_refl _, le_refl _, fun _ => ⟨rfl, rfl⟩, Or.inr e4⟩
    · obtain ⟨-, h1, h2⟩ := hcb i hc
      obtain ⟨-, e2, e3, e4⟩ := he
      refine ⟨?_, ?_, fun hn => absurd hc hn, Or.inl e2⟩
      · rw [e3]; cases a
        · simp only [companionBin] at h1; dsimp only; omega
        · exact le_refl _
      · rw [e4]; cases a
        · exact le_refl _
        · simp only [companionBin] at h2; dsimp only; omega
  have hor : ∀ i ∈ checked, env.oriented i = true := by
    intro i hi
    have := (hb.big i (hcb i hi).1).2.2
    cases a
    · exact (isBig_wide this).1
    · exact (isBig_tall this).1
  have hgrow : Grow env st st' := by
    refine ⟨hA.len, fun i => ?_⟩
    by_cases hi : i < st.items.length
    · cases hr : (st'.item i).removed
      · right
        obtain ⟨h1, h2, h3, -⟩ := hxy i hi
        refine ⟨?_, h1, h2, fun ho => h3 ?_⟩
        · rcases hA.item i with e | ⟨-, e, -⟩ | ⟨-, e, -⟩
          · rw [← e]; exact hr
          · rw [e] at hr; exact absurd hr (by simp)
          · rw [← e]; exact hr
        · intro hc; rw [hor i hc] at ho; exact absurd ho (by simp)
      · left; rfl
    · right
      have e1 : st.item i = default := by
        unfold State.item; rw [List.getD_eq_default _ _ (by omega)]
      have e2 : st'.item i = default := by
        unfold State.item; rw [List.getD_eq_default _ _ (by rw [hA.len]; omega)]
      rw [e1, e2]
      exact ⟨rfl, le_refl _, le_refl _, fun _ => ⟨rfl, rfl⟩⟩
  refine ⟨⟨hA.len.trans hI.len, ?_, ?_, by rw [hA.bins.dedicated]; exact hI.ded, ?_⟩, hgrow⟩
  · intro i hi
    rw [hA.len] at hi
    have h1 := hI.pos i hi
    have h2 := hxy i hi
    refine ⟨by omega, by omega, ?_⟩
    rcases h2.2.2.2 with h | h <;> omega
  · intro i hi ho
    rw [hA.len] at hi
    have hc : i ∉ checked := fun hc => by rw [hor i hc] at ho; exact absurd ho (by simp)
    have h2 := (hxy i hi).2.2.1 hc
    rw [h2.1, h2.2]; exact hI.same i hi ho
  · obtain ⟨bins, hp, hle⟩ := hI.packs
    rw [hA.bins.dedicated]
    -- enlarged and dropped item types
    set E : Nat → Prop := fun i => i ∈ checked ∧ (tab env st).c i ≠ 0
      ∧ Enlarged env a (st.item i) (st'.item i) with hE
    set R : Nat → Prop := fun i => i ∈ rs ∨ (tab env st).c i = 0 with hRdef
    have hER : ∀ i, E i → ¬ R i := by
      rintro i ⟨h1, h2, -⟩ (h3 | h3)
      · exact (hrsb i h3).1 (hcb i h1).1
      · exact h2 h3
    have hcnt : ∀ i, i < st.items.length → (tab env st').c i = if R i then 0 else (tab env st).c i := by
      intro i hi
      change (if (st'.item i).removed then 0 else (st'.item i).copies) = _
      split_ifs with h1 h2 h3
      · rfl
      · -- removed, not R
        rcases hA.item i with e | ⟨e, -⟩ | ⟨-, e, -⟩
        · rw [e] at h1; change (0 : Int) = if (st.item i).removed then 0 else (st.item i).copies
          rw [if_pos h1]
        · exact absurd (Or.inl e) h2
        · change (0 : Int) = if (st.item i).removed then 0 else (st.item i).copies
          rw [if_pos (e ▸ h1)]
      · -- not removed, R
        rcases h3 with h3 | h3
        · have hz : (st.item i).copies = 0 := by
            by_contra hne; exact h1 (hR i h3 hne)
          rcases (hxy i hi).2.2.2 with h4 | h4 <;> omega
        · change (if (st.item i).removed then 0 else (st.item i).copies) = 0 at h3
          have hr0 : (st.item i).removed = false := by
            have := hgrow.item i
            rcases this with h4 | h4
            · exact absurd h4 h1
            · exact h4.1
          rw [hr0] at h3
          rcases (hxy i hi).2.2.2 with h4 | h4
          · rw [h4]; simpa using h3
          · exact h4
      · rcases hA.item i with e | ⟨e, -⟩ | ⟨-, e1, e2, -⟩
        · rw [e] at h1 ⊢
          change _ = if (st.item i).removed then 0 else (st.item i).copies
          rw [if_neg h1]
        · exact absurd (Or.inl e) h3
        · change _ = if (st.item i).removed then 0 else (st.item i).copies
          rw [e1] at h1
          rw [if_neg h1, e2]
    have hnE : ∀ i, ¬ R i → ¬ E i → st'.item i = st.item i := by
      intro i hr he
      rcases hA.item i with e | ⟨e, -⟩ | ⟨e1, e2⟩
      · exact e
      · exact absurd (Or.inl e) hr
      · exact absurd ⟨e1, fun h0 => hr (Or.inr h0), e2⟩ he
    cases a with
    | wide =>
      obtain ⟨bins', hp', hl'⟩ := hp.widen (T' := tab env st') E R hER
        (by
          rintro i ⟨h1, -, -⟩
          have h2 := isBig_wide (hb.big i (hcb i h1).1).2.2
          have h3 := (hcb i h1).2.1
          simp only [companionBin] at h3
          exact ⟨h2.1, h2.2, by change (st.item i).x ≤ _; omega⟩)
        (by
          rintro i j hi hj ⟨h1, -, -⟩ hr
          by_cases hjb : j ∈ bigs
          · left
            have := isBig_wide (hb.big j hjb).2.2
            exact ⟨this.2, this.1⟩
          · right
            have hrem : (st.item j).removed = false := by
              by_contra h
              apply hr; right
              change (if (st.item j).removed then 0 else (st.item j).copies) = 0
              rw [if_pos (by simpa using h)]
            have hcf := hcand j hj (fun h => hr (Or.inl h)) hrem hjb i h1
            unfold couldFit at hcf
            simp only [Bool.or_eq_false_iff, decide_eq_false_iff_not, Bool.and_eq_false_iff,
              Bool.not_eq_false'] at hcf
            refine ⟨by change env.w - (st.item i).x < (st.item j).x; omega, ?_⟩
            rcases hcf.2 with h | h
            · exact Or.inl h
            · right; change env.w - (st.item i).x < (st.item j).y; omega)
        hA.len (fun i hi => rfl)
        (by
          intro i hi hr
          change (st'.item i).x = _
          split_ifs with he
          · exact he.2.2.2.2.1
          · rw [hnE i hr he]; rfl)
        (by
          intro i hi hr
          change (st'.item i).y = _
          by_cases he : E i
          · exact he.2.2.2.2.2
          · rw [hnE i hr he]; rfl)
        hcnt
      exact ⟨bins', hp', by rw [hl']; exact hle⟩
    | tall =>
      obtain ⟨bins', hp', hl'⟩ := hp.flip.widen (T' := (tab env st').flip) E R hER
        (by
          rintro i ⟨h1, -, -⟩
          have h2 := isBig_tall (hb.big i (hcb i h1).1).2.2
          have h3 := (hcb i h1).2.2
          simp only [companionBin] at h3
          exact ⟨h2.1, h2.2, by change (st.item i).y ≤ _; omega⟩)
        (by
          rintro i j hi hj ⟨h1, -, -⟩ hr
          by_cases hjb : j ∈ bigs
          · left
            have := isBig_tall (hb.big j hjb).2.2
            exact ⟨this.2, this.1⟩
          · right
            have hrem : (st.item j).removed = false := by
              by_contra h
              apply hr; right
              change (if (st.item j).removed then 0 else (st.item j).copies) = 0
              rw [if_pos (by simpa using h)]
            have hcf := hcand j hj (fun h => hr (Or.inl h)) hrem hjb i h1
            unfold couldFit at hcf
            simp only [Bool.or_eq_false_iff, decide_eq_false_iff_not, Bool.and_eq_false_iff,
              Bool.not_eq_false'] at hcf
            refine ⟨by change env.h - (st.item i).y < (st.item j).y; omega, ?_⟩
            rcases hcf.2 with h | h
            · exact Or.inl h
            · right; change env.h - (st.item i).y < (st.item j).x; omega)
        hA.len (fun i hi => rfl)
        (by
          intro i hi hr
          change (st'.item i).y = _
          split_ifs with he
          · exact he.2.2.2.2.2
          · rw [hnE i hr he]; rfl)
        (by
          intro i hi hr
          change (st'.item i).x = _
          by_cases he : E i
          · exact he.2.2.2.2.1
          · rw [hnE i hr he]; rfl)
        hcnt
      have hp2 : (tab env st').Packs env.w env.h _ := hp'.flip
      refine ⟨_, hp2, ?_⟩
      rw [List.length_map, hl', List.length_map]; exact hle

/-- `try_reduce_group` keeps the invariant. -/
theorem tryGroup_inv {a : Axis} {bigs : List Nat} {found : Bool} (hI : Inv env k st)
    (hb : Bigs (isBig env a) st bigs)
    (hsolve : ∀ t ops inst, InstanceBuilder.runOps ops = .ok inst →
      ValidPacking inst (env.solve t inst))
    (h : tryGroup env a st bigs = .ok (found, st')) : Inv env k st' ∧ Grow env st st' := by
  have hnd : (checkedBigs env a st bigs).Nodup := hb.nodup.filter _
  have hdis : ∀ i ∈ checkedBigs env a st bigs,
      i ∉ candidates env a st bigs (checkedBigs env a st bigs) := by
    intro i hi hc
    unfold candidates at hc
    rw [List.mem_filter, Bool.and_eq_true, Bool.and_eq_true] at hc
    have : i ∉ bigs := by simpa using hc.2.1.2
    exact this (List.mem_of_mem_filter hi)
  have hrs : ∀ i ∈ candidates env a st bigs (checkedBigs env a st bigs), i < st.items.length := by
    intro i hc
    exact List.mem_range.mp (List.mem_of_mem_filter hc)
  unfold tryGroup at h
  dsimp only at h
  split_ifs at h with h1 h2
  · cases h; exact ⟨hI, Grow.refl _ _⟩
  · have h2' : candidates env a st bigs (checkedBigs env a st bigs) = [] := by
      simpa using h2
    obtain ⟨hA, -⟩ := applyGroup_ok (rs := candidates env a st bigs (checkedBigs env a st bigs)) h
      hnd hdis hrs (by simp) (by
        intro l hl cs hcs c hc
        obtain ⟨i, hi, rfl⟩ := List.mem_map.mp hl
        rw [List.eq_of_mem_replicate hcs] at hc
        simp at hc)
    exact applied_inv hI hb hA (by rw [h2']; simp)
  · obtain ⟨check, hc, h⟩ := bind_ok.mp h
    have hC := checkOps_built hc
    have hv := hsolve st.ticks _ _ hc
    have hCn : ∀ i, i < check.numberOfItemTypes → 0 ≤ (check.itemType i).copies := by
      intro i hi
      rw [hC.items] at hi
      rw [(hC.item i hi).copies]
      exact (hI.pos _ (hrs _ (List.getElem_mem hi))).2.2
    split_ifs at h with h3
    · cases h; exact ⟨hI.tick, Grow.tick env st⟩
    · obtain ⟨comps, hr, h⟩ := bind_ok.mp h
      have hfull := full_packs hC.agg hv hCn (by simpa using h3)
      obtain ⟨r1, r2, -, r4⟩ := readCheck_ok _ hr (by simp) (by
        intro l hl cs hcs
        rw [List.eq_of_mem_replicate hl] at hcs
        simp at hcs)
      obtain ⟨hA, hrem⟩ := applyGroup_ok h hnd hdis hrs r1 r2
      have hA' : Applied env a (· ∈ checkedBigs env a st bigs)
          (· ∈ candidates env a st bigs (checkedBigs env a st bigs)) st st' :=
        ⟨hA.len, hA.bins, hA.item⟩
      refine applied_inv hI hb hA' ?_
      intro i hi hne
      obtain ⟨j, hj, rfl⟩ := List.mem_iff_getElem.mp hi
      have hcop := (hC.item j hj).copies
      have hpk := hfull j (by rw [hC.items]; exact hj)
      obtain ⟨b, hb', q, hq, hqj⟩ := packed_in_bin (p := env.solve st.ticks check) (i := j)
        (by rw [hpk, hcop]; exact hne)
      obtain ⟨l, hl, cs, hcs, c, hc', hlt, hid⟩ := r4 b hb' (hv.bins b hb').2.1 q hq
      have := hrem l hl cs hcs c hc'
      rw [hid] at this
      subst hqj
      exact this

end PackingSolver.Rect.Reduction
