import Verif.Lemmas.Rect.ReduceBoth

/-!
# The reduction of items that are big on both axes: the check with companions
-/

namespace PackingSolver.Rect.Reduction

open Rect.Spec

variable {env : Env} {k : Int} {st st' : State}

theorem width_eq (t : ItemType) (r : Bool) : t.width r = if r then t.y else t.x := by
  cases r <;> rfl

theorem height_eq (t : ItemType) (r : Bool) : t.height r = if r then t.x else t.y := by
  cases r <;> rfl

/-- In a valid bin of the check there is at most one big item. -/
theorem check_bin_big (hN : NoTurning env.inst env.w env.h) (hI : Inv env k st)
    {bigs rs : List Nat} (hb : Bigs (bothBig env) st bigs) {n : Int} {c : Instance}
    (hC : CheckBoth env st (bigs ++ rs) n c) {items : List PlacedItem}
    (hp : BinPacking c 0 items) :
    items.countP (fun p => decide (p.itemTypeId < bigs.length)) ≤ 1 := by
  have hbig : ∀ p ∈ items, p.itemTypeId < bigs.length →
      env.w < 2 * (occupies c p).w ∧ env.h < 2 * (occupies c p).h := by
    intro p hpi hlt
    have hlt2 : p.itemTypeId < (bigs ++ rs).length := by rw [List.length_append]; omega
    have hit := hC.item p.itemTypeId hlt2
    have hg : (bigs ++ rs)[p.itemTypeId] = bigs[p.itemTypeId] := List.getElem_append_left hlt
    rw [hg] at hit
    obtain ⟨h1, -, h3⟩ := hb.big _ (List.getElem_mem hlt)
    have hocc : (tab env st).occ ⟨bigs[p.itemTypeId], p.x, p.y, p.rotate⟩ = occupies c p := by
      unfold Tab.occ occupies Tab.wd Tab.ht
      rw [width_eq, height_eq, hit.x, hit.y]; rfl
    have := bothBig_placed hN hI (p := ⟨bigs[p.itemTypeId], p.x, p.y, p.rotate⟩) h1 h3 rfl
      (fun hr => by rw [← hit.oriented]; exact hp.rotation p hpi hr)
      (by rw [hocc, ← hC.x, ← hC.y]; exact hp.inside p hpi)
    have e1 : (tab env st).wd ⟨bigs[p.itemTypeId], p.x, p.y, p.rotate⟩ = (occupies c p).w := by
      rw [← hocc]; rfl
    have e2 : (tab env st).ht ⟨bigs[p.itemTypeId], p.x, p.y, p.rotate⟩ = (occupies c p).h := by
      rw [← hocc]; rfl
    rw [e1, e2] at this
    exact this
  have hin := hp.inside
  rw [hC.x, hC.y] at hin
  have hsep := hp.separated
  clear hp
  induction items with
  | nil => simp
  | cons p ps ih =>
    rw [List.countP_cons]
    by_cases hlt : p.itemTypeId < bigs.length
    · have : ps.countP (fun p => decide (p.itemTypeId < bigs.length)) = 0 := by
        rw [List.countP_eq_zero]
        intro q hq hql
        simp only [decide_eq_true_eq] at hql
        have h1 := hbig p List.mem_cons_self hlt
        have h2 := hbig q (List.mem_cons_of_mem _ hq) hql
        have h3 := hin p List.mem_cons_self
        have h4 := hin q (List.mem_cons_of_mem _ hq)
        have h5 := (List.pairwise_cons.mp hsep).1 q hq
        unfold Inside at h3 h4
        unfold Separated at h5
        omega
      rw [this]; split_ifs <;> omega
    · rw [if_neg (by simpa using hlt)]
      exact ih (fun q hq => hbig q (List.mem_cons_of_mem _ hq))
        (fun q hq => hin q (List.mem_cons_of_mem _ hq)) (List.pairwise_cons.mp hsep).2

/-- How often the big items are in a bin with one of them. -/
theorem count_of_one {items : List PlacedItem} {m : Nat}
    (h1 : items.countP (fun p => decide (p.itemTypeId < m)) ≤ 1) {p : PlacedItem}
    (hf : items.find? (fun p => decide (p.itemTypeId < m)) = some p) {j : Nat} (hj : j < m) :
    count items j = if j = p.itemTypeId then 1 else 0 := by
  have hpm : p.itemTypeId < m := by simpa using List.find?_some hf
  have hpi := List.mem_of_find?_eq_some hf
  obtain ⟨a, b, rfl⟩ := List.append_of_mem hpi
  rw [List.countP_append, List.countP_cons] at h1
  simp only [hpm, decide_true, if_true] at h1
  have ha : a.countP (fun p => decide (p.itemTypeId < m)) = 0 := by omega
  have hb : b.countP (fun p => decide (p.itemTypeId < m)) = 0 := by omega
  rw [List.countP_eq_zero] at ha hb
  rw [Tab.count_append, Tab.count_cons,
    (Tab.count_zero_iff a j).mpr (fun q hq e => ha q hq (by simpa [e] using hj)),
    (Tab.count_zero_iff b j).mpr (fun q hq e => hb q hq (by simpa [e] using hj))]
  by_cases h : j = p.itemTypeId
  · rw [if_pos h, if_pos h.symm]; rfl
  · rw [if_neg h, if_neg (fun e => h e.symm)]; rfl

/-- Every big item gets as many groups as it is packed. -/
theorem readCheckBoth_ok {bigs rs : List Nat} (sol : List PackedBin) :
    ∀ {acc groups : List (List (List GroupItem))},
    sol.foldlM (fun acc b =>
      match (b.items.find? fun p => decide (p.itemTypeId < bigs.length)) with
      | none => some acc
      | some p => do
        let g ← readGroup bigs rs p.itemTypeId b.items
        some (acc.modify p.itemTypeId (· ++ List.replicate b.copies.toNat g))) acc = some groups →
    (∀ b ∈ sol, 0 < b.copies
      ∧ b.items.countP (fun p => decide (p.itemTypeId < bigs.length)) ≤ 1) →
    acc.length = bigs.length →
    groups.length = bigs.length
      ∧ ∀ j, j < bigs.length →
        ((groups.getD j []).length : Int) = (acc.getD j []).length + itemCopies sol j := by
  induction sol with
  | nil =>
    intro acc groups h _ hl
    cases h
    exact ⟨hl, fun j _ => by simp [itemCopies]⟩
  | cons b sol ih =>
    intro acc groups h hs hl
    rw [List.foldlM_cons] at h
    have hb := hs b List.mem_cons_self
    have e : ∀ i, itemCopies (b :: sol) i = b.copies * count b.items i + itemCopies sol i := by
      intro i; unfold itemCopies; rw [List.map_cons, List.sum_cons]
    cases hf : b.items.find? (fun p => decide (p.itemTypeId < bigs.length)) with
    | none =>
      rw [hf] at h
      obtain ⟨h1, h2⟩ := ih h (fun c hc => hs c (List.mem_cons_of_mem _ hc)) hl
      refine ⟨h1, fun j hj => ?_⟩
      rw [h2 j hj, e, (Tab.count_zero_iff b.items j).mpr (fun q hq he => by
        have := List.find?_eq_none.mp hf q hq
        simp [he] at this; omega)]
      omega
    | some p =>
      rw [hf] at h
      dsimp only at h
      cases hg : readGroup bigs rs p.itemTypeId b.items with
      | none => rw [hg] at h; cases h
      | some g =>
        rw [hg] at h
        have h : sol.foldlM _ (acc.modify p.itemTypeId (· ++ List.replicate b.copies.toNat g))
          = some groups := h
        obtain ⟨h1, h2⟩ := ih h (fun c hc => hs c (List.mem_cons_of_mem _ hc))
          (by rw [List.length_modify]; exact hl)
        refine ⟨h1, fun j hj => ?_⟩
        rw [h2 j hj, e, count_of_one hb.2 hf hj]
        rw [List.getD_eq_getElem?_getD, List.getD_eq_getElem?_getD, List.getElem?_modify,
          List.getElem?_eq_getElem (by omega)]
        by_cases hjp : p.itemTypeId = j
        · rw [if_pos hjp.symm]
          simp only [hjp, if_true, Option.map_eq_map, Option.map_some, Option.getD_some,
            List.length_append, List.length_replicate]
          have := hb.1
          push_cast
          omega
        · rw [if_neg (fun h => hjp h.symm)]
          simp only [hjp, if_false, Option.map_eq_map, Option.map_some, Option.getD_some]
          omega

/-! ## Removing the companions -/

theorem removeAll_ok (l : List Nat) :
    ∀ {acc acc' : State × List (List (List Companion))}, l.foldlM removeAll acc = .ok acc' →
    (∀ i ∈ l, i < acc.1.items.length) →
    Drops (· ∈ l) acc.1 acc'.1 ∧ ∀ i ∈ l, (acc'.1.item i).removed = true := by
  induction l with
  | nil => intro acc acc' h _; cases h; exact ⟨Drops.refl _ _, by simp⟩
  | cons i l ih =>
    intro acc acc' h hl
    obtain ⟨acc1, h1, h2⟩ := foldlM_cons_ok.mp h
    unfold removeAll at h1
    obtain ⟨⟨e, it'⟩, he, h1⟩ := bind_ok.mp h1
    cases h1
    obtain ⟨-, -, hx, hy, -⟩ := extract_ok he
    have hi := hl i List.mem_cons_self
    have d1 : Drops (· ∈ i :: l) acc.1
        (acc.1.setItem i { it' with copies := 0, removed := true }) := by
      refine ⟨length_setItem _ _ _, ⟨rfl, rfl, rfl⟩, fun j => ?_⟩
      rw [item_setItem]
      split_ifs with hj
      · obtain ⟨rfl, -⟩ := hj
        right; exact ⟨List.mem_cons_self, rfl, hx, hy, rfl⟩
      · left; rfl
    obtain ⟨d2, r2⟩ := ih h2 (fun j hj => by
      rw [d1.len]; exact hl j (List.mem_cons_of_mem _ hj))
    refine ⟨d1.trans (d2.mono fun j hj => List.mem_cons_of_mem _ hj), fun j hj => ?_⟩
    rcases List.mem_cons.mp hj with rfl | hj
    · refine d2.removed ?_
      dsimp only
      rw [item_setItem_self _ hi]
    · exact r2 j hj

/-! ## Reserving the bins -/

theorem dressGroups_length {big : Nat} {prior : List (List (List Companion))} :
    ∀ {l : List (List GroupItem × List Companion)} {next next' : List Nat}
      {gs : List (List GroupItem)}, dressGroups big prior next l = .ok (next', gs) →
    gs.length = l.length := by
  intro l
  induction l with
  | nil => intro next next' gs h; cases h; rfl
  | cons p l ih =>
    intro next next' gs h
    obtain ⟨g, cs⟩ := p
    unfold dressGroups at h
    obtain ⟨⟨n1, g1⟩, h1, h⟩ := bind_ok.mp h
    obtain ⟨⟨n2, gs2⟩, h2, h⟩ := bind_ok.mp h
    cases h
    rw [List.length_cons, List.length_cons, ih h2]

/-- All copies of some item types are packed in reserved bins. -/
structure Commits (ids : List Nat) (m : Int) (st st' : State) : Prop where
  len : st'.items.length = st.items.length
  dedicated : st'.dedicated = st.dedicated + m
  sizes : ∀ i, (st'.item i).x = (st.item i).x ∧ (st'.item i).y = (st.item i).y
  copies : ∀ i, 0 ≤ (st.item i).copies → 0 ≤ (st'.item i).copies
  removed : ∀ i, (st.item i).removed = true → (st'.item i).removed = true
  gone : ∀ i ∈ ids, (st'.item i).removed = true ∨ (st'.item i).copies = 0
  kept : ∀ i, i ∉ ids → st'.item i = st.item i

theorem commitOne_ok {prior : List (List (List Companion))} {acc acc' : State × List Nat}
    {p : Nat × List (List GroupItem)} (h : commitOne prior acc p = .ok acc')
    (hi : p.1 < acc.1.items.length) (hc : (p.2.length : Int) = (acc.1.item p.1).copies) :
    Commits [p.1] p.2.length acc.1 acc'.1 := by
  unfold commitOne at h
  split_ifs at h with he
  · cases h
    have he : p.2 = [] := by simpa using he
    rw [he] at hc ⊢
    refine ⟨rfl, by simp, fun _ => ⟨rfl, rfl⟩, fun _ h => h, fun _ h => h, fun i hi => ?_,
      fun _ _ => rfl⟩
    rw [List.mem_singleton.mp hi]
    right; simpa using hc.symm
  · obtain ⟨⟨e, it'⟩, hx, h⟩ := bind_ok.mp h
    dsimp only at h
    obtain ⟨⟨n, gs⟩, hd, h⟩ := bind_ok.mp h
    have h' := Except.ok.inj h
    obtain ⟨hl, -, hx1, hx2, -⟩ := extract_ok hx
    have hlen := dressGroups_length hd
    rw [List.length_zip, hl, Nat.min_self] at hlen
    have hz : (acc.1.item p.1).copies - (p.2.length : Int) = 0 := by omega
    have hitem : ∀ j, acc'.1.item j = if p.1 = j ∧ j < acc.1.items.length then
          { it' with copies := 0, removed := true } else acc.1.item j := by
      intro j
      rw [← h']
      change (acc.1.setItem p.1 _).item j = _
      rw [item_setItem, if_pos hz, hz]
    refine ⟨by rw [← h']; exact length_setItem _ _ _, ?_, fun j => ?_, fun j hj => ?_,
      fun j hj => ?_, fun j hj => ?_, fun j hj => ?_⟩
    · rw [← h']
      have := dedicated_groups (acc.1.setItem p.1
        (if (acc.1.item p.1).copies - (p.2.length : Int) = 0 then
          { it' with copies := (acc.1.item p.1).copies - (p.2.length : Int), removed := true }
          else { it' with copies := (acc.1.item p.1).copies - (p.2.length : Int) })) gs
      rw [dedicated_setItem, hlen] at this
      exact this
    · rw [hitem j]
      split_ifs with hj
      · obtain ⟨rfl, -⟩ := hj; exact ⟨hx1, hx2⟩
      · exact ⟨rfl, rfl⟩
    · rw [hitem j]
      split_ifs
      · exact le_refl _
      · exact hj
    · rw [hitem j]
      split_ifs
      · rfl
      · exact hj
    · rw [List.mem_singleton.mp hj]
      left
      rw [hitem p.1, if_pos ⟨rfl, hi⟩]
    · rw [hitem j, if_neg (fun h => hj (by rw [h.1]; exact List.mem_singleton_self _))]

theorem commitAll_ok {prior : List (List (List Companion))}
    (l : List (Nat × List (List GroupItem))) :
    ∀ {acc acc' : State × List Nat}, l.foldlM (commitOne prior) acc = .ok acc' →
    (l.map Prod.fst).Nodup →
    (∀ p ∈ l, p.1 < acc.1.items.length ∧ (p.2.length : Int) = (acc.1.item p.1).copies) →
    Commits (l.map Prod.fst) ((l.map fun p => (p.2.length : Int)).sum) acc.1 acc'.1 := by
  induction l with
  | nil =>
    intro acc acc' h _ _
    cases h
    exact ⟨rfl, by simp, fun _ => ⟨rfl, rfl⟩, fun _ h => h, fun _ h => h, by simp, fun _ _ => rfl⟩
  | cons p l ih =>
    intro acc acc' h hnd hl
    obtain ⟨acc1, h1, h2⟩ := foldlM_cons_ok.mp h
    rw [List.map_cons, List.nodup_cons] at hnd
    have c1 := commitOne_ok h1 (hl p List.mem_cons_self).1 (hl p List.mem_cons_self).2
    have c2 := ih h2 hnd.2 (fun q hq => by
      have := hl q (List.mem_cons_of_mem _ hq)
      rw [c1.len, c1.kept q.1 (fun h => hnd.1 (by
        rw [← List.mem_singleton.mp h]; exact List.mem_map_of_mem hq))]
      exact this)
    refine ⟨c2.len.trans c1.len, ?_, fun i => ?_, fun i h => c2.copies i (c1.copies i h),
      fun i h => c2.removed i (c1.removed i h), fun i hi => ?_, fun i hi => ?_⟩
    · rw [c2.dedicated, c1.dedicated, List.map_cons, List.sum_cons]; omega
    · rw [(c2.sizes i).1, (c2.sizes i).2]; exact c1.sizes i
    · rw [List.map_cons] at hi
      rcases List.mem_cons.mp hi with rfl | hi
      · rw [c2.kept _ hnd.1]; exact c1.gone _ (List.mem_singleton_self _)
      · exact c2.gone i hi
    · rw [List.map_cons, List.mem_cons, not_or] at hi
      rw [c2.kept i hi.2, c1.kept i (by simpa using hi.1)]

/-! ## The attempt -/

theorem tryBoth_inv (hN : NoTurning env.inst env.w env.h) {bigs : List Nat} {found : Bool}
    (hI : Inv env k st) (hb : Bigs (bothBig env) st bigs)
    (hsolve : ∀ t ops inst, InstanceBuilder.runOps ops = .ok inst →
      ValidPacking inst (env.solve t inst))
    (h : tryBoth env st bigs = .ok (found, st')) : Inv env k st' ∧ Grow env st st' := by
  have hbb : ∀ i ∈ bigs, i < st.items.length ∧ bothBig env i (st.item i) = true :=
    fun i hi => ⟨(hb.big i hi).1, (hb.big i hi).2.2⟩
  -- what may share a bin with a big item
  have hcand : ∀ j, j < st.items.length → (st.item j).removed = false → j ∉ bigs →
      ∀ b ∈ bigs, couldFitBoth env b (st.item b) j (st.item j) = true →
      j ∈ candidatesBoth env st bigs := by
    intro j hj hr hjb b hbm hf
    unfold candidatesBoth
    rw [List.mem_filter, Bool.and_eq_true, Bool.and_eq_true]
    refine ⟨List.mem_range.mpr hj, ⟨by rw [hr]; rfl, by simpa using hjb⟩, ?_⟩
    rw [List.any_eq_true]
    exact ⟨b, hbm, hf⟩
  unfold tryBoth at h
  dsimp only at h
  split_ifs at h with h1
  · obtain ⟨⟨st1, any⟩, h2, h⟩ := bind_ok.mp h
    cases h
    have hemp : candidatesBoth env st bigs = [] := by simpa using h1
    exact captureAll_inv hN bigs h2 hb.nodup (fun i hi => ⟨hi, (hb.big i hi).2.1⟩) hI hbb (by
      intro j hj hr hjb b hbm
      by_contra hf
      have := hcand j hj hr hjb b hbm (by simpa using hf)
      rw [hemp] at this; simp at this)
  · obtain ⟨check, hc, h⟩ := bind_ok.mp h
    have hC := checkBothOps_built hc
    have hv := hsolve st.ticks _ _ hc
    have hCn : ∀ i, i < check.numberOfItemTypes → 0 ≤ (check.itemType i).copies := by
      intro i hi
      rw [hC.items] at hi
      rw [(hC.item i hi).copies]
      refine (hI.pos _ ?_).2.2
      rcases List.mem_append.mp (List.getElem_mem hi) with h | h
      · exact (hb.big _ h).1
      · unfold candidatesBoth at h
        exact List.mem_range.mp (List.mem_filter.mp h).1
    split_ifs at h with h3
    · cases h; exact ⟨hI.tick, Grow.tick env st⟩
    · have hfull := full_packs hC.agg hv hCn (by simpa using h3)
      split at h
      · cases h; exact ⟨hI.tick, Grow.tick env st⟩
      · rename_i groups hg
        split_ifs at h with h4 h5
        · cases h; exact ⟨hI.tick, Grow.tick env st⟩
        · cases h; exact ⟨hI.tick, Grow.tick env st⟩
        · obtain ⟨⟨st1, prior⟩, h6, h⟩ := bind_ok.mp h
          obtain ⟨⟨st2, next⟩, h7, h⟩ := bind_ok.mp h
          cases h
          set rs := candidatesBoth env st bigs with hrs
          have hrl : ∀ i ∈ rs, i < st.items.length ∧ i ∉ bigs := by
            intro i hi
            rw [hrs] at hi
            unfold candidatesBoth at hi
            rw [List.mem_filter, Bool.and_eq_true, Bool.and_eq_true] at hi
            exact ⟨List.mem_range.mp hi.1, by simpa using hi.2.1.2⟩
          obtain ⟨hd, hdr⟩ := removeAll_ok rs h6 (fun i hi => (hrl i hi).1)
          obtain ⟨g1, g2⟩ := readCheckBoth_ok _ hg (by
            intro b hbs
            have := hv.bins b hbs
            have hz : b.binTypeId = 0 := by have := this.1; rw [hC.bins] at this; omega
            refine ⟨this.2.1, check_bin_big hN hI hb hC ?_⟩
            rw [← hz]; exact this.2.2) (by simp)
          have hlen : ∀ p ∈ bigs.zip groups,
              p.1 ∈ bigs ∧ (p.2.length : Int) = (st.item p.1).copies := by
            intro p hp
            obtain ⟨j, hj, rfl⟩ := List.mem_iff_getElem.mp hp
            rw [List.length_zip] at hj
            rw [List.getElem_zip]
            have hjb : j < bigs.length := by omega
            have hjg : j < groups.length := by omega
            refine ⟨List.getElem_mem _, ?_⟩
            have e1 := g2 j hjb
            rw [List.getD_eq_getElem _ _ hjg] at e1
            dsimp only
            rw [e1, hfull j (by rw [hC.items, List.length_append]; omega),
              (hC.item j (by rw [List.length_append]; omega)).copies,
              List.getElem_append_left hjb]
            have e3 : (List.replicate bigs.length ([] : List (List GroupItem))).getD j [] = [] := by
              rw [List.getD_eq_getElem _ _ (by simpa using hjb), List.getElem_replicate]
            rw [e3]; simp
          have hfst : (bigs.zip groups).map Prod.fst = bigs := List.map_fst_zip (by omega)
          have hkeep : ∀ i ∈ bigs, st1.item i = st.item i := by
            intro i hi
            rcases hd.item i with e | ⟨hs, -⟩
            · exact e
            · exact absurd hi (hrl i hs).2
          have hdl : st1.items.length = st.items.length := hd.len
          have hcm := commitAll_ok _ h7 (by rw [hfst]; exact hb.nodup) (by
            intro p hp
            obtain ⟨e1, e2⟩ := hlen p hp
            dsimp only
            rw [hdl, hkeep p.1 e1]
            exact ⟨(hb.big _ e1).1, e2⟩)
          rw [hfst] at hcm
          have hsum : ((bigs.zip groups).map fun p => (p.2.length : Int)).sum
              = (bigs.map (tab env st).c).sum := by
            have : ((bigs.zip groups).map fun p => (p.2.length : Int))
                = ((bigs.zip groups).map fun p => (tab env st).c p.1) := by
              apply List.map_congr_left
              intro p hp
              obtain ⟨e1, e2⟩ := hlen p hp
              rw [e2]
              change _ = if (st.item p.1).removed then 0 else (st.item p.1).copies
              rw [(hb.big _ e1).2.1]; rfl
            have e2 : ((bigs.zip groups).map fun p => (tab env st).c p.1)
                = ((bigs.zip groups).map Prod.fst).map (tab env st).c := by
              rw [List.map_map]; rfl
            rw [this, e2, hfst]
          have hds : st1.dedicated = st.dedicated := hd.bins.dedicated
          have hCap : Captured (· ∈ bigs) (· ∈ rs)
              ((bigs.zip groups).map fun p => (p.2.length : Int)).sum st st2 := by
            have hsz : ∀ i, (st1.item i).x = (st.item i).x ∧ (st1.item i).y = (st.item i).y := by
              intro i
              rcases hd.item i with e | ⟨-, e⟩
              · rw [e]; exact ⟨rfl, rfl⟩
              · exact ⟨e.2.1, e.2.2.1⟩
            refine ⟨hcm.len.trans hdl, ?_, fun i => ?_, fun i hi => ?_, fun i hi => ?_,
              fun i hi => ?_, fun i hi1 hi2 => ?_⟩
            · rw [hcm.dedicated, hds]
            · rw [(hcm.sizes i).1, (hcm.sizes i).2]; exact hsz i
            · refine hcm.copies i ?_
              rcases hd.item i with e | ⟨-, e⟩
              · rw [e]; exact hi
              · rw [e.2.2.2]
            · exact hcm.removed i (hd.removed hi)
            · rcases hi with hi | hi
              · exact hcm.gone i hi
              · left; exact hcm.removed i (hdr i hi)
            · rw [hcm.kept i hi1]
              rcases hd.item i with e | ⟨e, -⟩
              · dsimp only at e ⊢; rw [e]; exact ⟨rfl, fun _ => rfl⟩
              · exact absurd e hi2
          refine ⟨captured_inv hI hCap hb.nodup (fun i hi => (hb.big i hi).1) hsum ?_,
            hCap.grow⟩
          intro b hgd p hpb q hqb hne hpm
          obtain ⟨f1, f2⟩ := not_together hN hI hbb hgd hpb hqb hne hpm
          refine ⟨f1, fun hc0 => ?_⟩
          have hqr : (st.item q.itemTypeId).removed = false := by
            by_contra hh
            apply hc0
            change (if (st.item q.itemTypeId).removed then 0 else _) = 0
            rw [if_pos (by simpa using hh)]
          exact hcand q.itemTypeId (hgd.exist q hqb) hqr f1 p.itemTypeId hpm f2

end PackingSolver.Rect.Reduction
