import Verif.Lemmas.Rect.ReduceCountRun

/-!
# The reduction loses no item if every item type has one copy
-/

namespace PackingSolver.Rect.Reduction

open Rect.Spec

variable {env : Env} {st st' : State} {inst : Instance} {j : Nat}

/-- Removed item types have no companions left, the others have one copy and at most one list of
companions. -/
def OneCopy (it : WorkItem) : Prop :=
  (it.removed = true → it.companions = [])
    ∧ (it.removed = false → it.copies = 1 ∧ it.companions.length ≤ 1)

/-- That, and every reserved bin has its companions. -/
def Single (st : State) : Prop :=
  (∀ i, i < st.items.length → OneCopy (st.item i))
    ∧ (∀ f ∈ st.fullBins, f.companions.length = f.copies.toNat)
    ∧ ∀ p ∈ st.pairs, p.companions1.length = p.copies.toNat
      ∧ p.companions2.length = p.copies.toNat

theorem Single.set (h : Single st) {i : Nat} {it : WorkItem} (hi : OneCopy it) :
    Single (st.setItem i it) := by
  refine ⟨fun k hk => ?_, h.2⟩
  rw [length_setItem] at hk
  rw [item_setItem]
  split_ifs
  · exact hi
  · exact h.1 k hk

theorem extract_one {it it' : WorkItem} {e : List (List Companion)} (h : extract it 1 = .ok (e, it'))
    (h1 : it.companions.length ≤ 1) : it'.companions = [] ∧ ∃ cs, e = [cs] := by
  refine ⟨?_, List.length_eq_one_iff.mp (extract_ok h).1⟩
  unfold extract at h
  split_ifs at h with c1 c2
  · cases h; simpa using c1
  · cases h
    dsimp only
    exact List.drop_eq_nil_of_le h1

theorem load_gone {i : Nat} {it : WorkItem} (h : it.removed = true) (hc : it.companions = []) :
    load j i it = 0 := by
  rw [load_removed h, hc]; rfl

theorem ews_single (j i : Nat) (cs : List Companion) : ews j i [cs] = ew j i cs := by simp [ews]

/-- Taking the only copy of an item type away. -/
theorem take_out {i : Nat} {it it' : WorkItem} {e : List (List Companion)}
    (h : extract it it.copies.toNat = .ok (e, it')) (hr : it.removed = false) (h1 : OneCopy it) :
    it'.companions = [] ∧ ∃ cs, e = [cs] ∧ ∀ j, load j i it = ew j i cs := by
  obtain ⟨hc, hl⟩ := h1.2 hr
  rw [hc] at h
  obtain ⟨a, cs, rfl⟩ := extract_one h hl
  refine ⟨a, cs, rfl, fun j => ?_⟩
  have := extract_count (i := i) h j
  rw [a, ews_single] at this
  rw [load_live hr, hc]
  have e0 : cws j [] = 0 := rfl
  rw [e0] at this
  simpa using this.symm

/-! ## Absorbing companions -/

/-- The arrays have the right sizes, all companions that were taken away are handed out, and every
item type has one copy. -/
structure Fresh (ap : Apply) : Prop where
  next : ap.next.length = ap.st.items.length
  prior : ap.prior.length = ap.st.items.length
  done : ∀ i, (ap.prior.getD i []).length ≤ ap.next.getD i 0
  single : Single ap.st

theorem absorb_exact {ap ap' : Apply} {c c' : Companion} (h : absorb ap c = .ok (ap', c'))
    (hF : Fresh ap) (hc : c.id < ap.st.items.length) :
    Fresh ap' ∧ ∀ j, total j ap'.st + count (placeOne c' 0 0) j = total j ap.st := by
  obtain ⟨i, dx, dy, r, ns⟩ := c
  change i < _ at hc
  unfold absorb at h
  obtain ⟨ap1, h1, h2⟩ := bind_ok.mp h
  dsimp only at h2
  split at h2
  swap
  · cases h2
  rename_i nested hn
  cases h2
  have e : ∀ j, count (placeOne (.mk i dx dy r nested) 0 0) j = ew j i nested := by
    intro j; rw [placeOne_spot]; exact count_place _ _ _ _ _ _
  split_ifs at h1 with hr
  · cases h1
    obtain ⟨hk, -⟩ := List.getElem?_eq_some_iff.mp hn
    have := hF.done i
    omega
  · obtain ⟨⟨e1, it⟩, he, h1⟩ := bind_ok.mp h1
    cases h1
    have hr : (ap.st.item i).removed = false := by simpa using hr
    obtain ⟨q1, cs, rfl, q2⟩ := take_out (i := i) he hr (hF.single.1 i hc)
    dsimp only at hn ⊢
    have hpr : (ap.prior.set i [cs]).getD i [] = [cs] := by
      rw [List.getD_eq_getElem?_getD, List.getElem?_set_self (by rw [hF.prior]; exact hc)]; rfl
    rw [hpr] at hn
    have hk : ap.next.getD i 0 = 0 := by
      obtain ⟨hk, -⟩ := List.getElem?_eq_some_iff.mp hn
      rw [List.length_singleton] at hk; omega
    rw [hk] at hn
    have hcs : cs = nested := by simpa using hn
    refine ⟨⟨?_, ?_, fun x => ?_, hF.single.set ⟨fun _ => q1, by simp⟩⟩, fun j => ?_⟩
    · dsimp only; rw [List.length_set, length_setItem]; exact hF.next
    · dsimp only; rw [List.length_set, length_setItem]; exact hF.prior
    · dsimp only
      by_cases hx : i = x
      · subst hx
        rw [hpr, List.getD_eq_getElem?_getD (l := ap.next.set _ _),
          List.getElem?_set_self (by rw [hF.next]; exact hc)]
        simp
      · rw [List.getD_eq_getElem?_getD, List.getElem?_set_ne hx, ← List.getD_eq_getElem?_getD,
          List.getD_eq_getElem?_getD (l := ap.next.set _ _), List.getElem?_set_ne hx,
          ← List.getD_eq_getElem?_getD]
        exact hF.done x
    · have g : load j i { it with copies := 0, removed := true } = 0 := load_gone rfl q1
      rw [e, total_set hc, q2, ← hcs]
      omega

theorem absorbAll_exact {cs cs' : List Companion} : ∀ {ap ap' : Apply},
    absorbAll ap cs = .ok (ap', cs') → Fresh ap → (∀ c ∈ cs, c.id < ap.st.items.length) →
    Fresh ap' ∧ ∀ j, total j ap'.st + cw j cs' = total j ap.st := by
  induction cs generalizing cs' with
  | nil =>
    intro ap ap' h hF _; cases h
    exact ⟨hF, fun j => by simp [cw, placeAll, count]⟩
  | cons c cs ih =>
    intro ap ap' h hF hc
    unfold absorbAll at h
    obtain ⟨⟨ap1, c1⟩, h1, h⟩ := bind_ok.mp h
    obtain ⟨⟨ap2, cs2⟩, h2, h⟩ := bind_ok.mp h
    cases h
    obtain ⟨a1, a2⟩ := absorb_exact h1 hF (hc c List.mem_cons_self)
    obtain ⟨-, d1, -⟩ := absorb_ok h1 (hc c List.mem_cons_self)
    obtain ⟨b1, b2⟩ := ih h2 a1 (fun c' hc' => by
      rw [d1.len]; exact hc c' (List.mem_cons_of_mem _ hc'))
    refine ⟨b1, fun j => ?_⟩
    have := a2 j
    have := b2 j
    have e : cw j (c1 :: cs2) = count (placeOne c1 0 0) j + cw j cs2 := by
      unfold cw; rw [placeAll, count_append]
    rw [e]; omega

theorem absorbCopies_exact {ls ls' : List (List Companion)} : ∀ {ap ap' : Apply},
    absorbCopies ap ls = .ok (ap', ls') → Fresh ap →
    (∀ cs ∈ ls, ∀ c ∈ cs, c.id < ap.st.items.length) →
    Fresh ap' ∧ ls'.length = ls.length ∧ ∀ j, total j ap'.st + cws j ls' = total j ap.st := by
  induction ls generalizing ls' with
  | nil => intro ap ap' h hF _; cases h; exact ⟨hF, rfl, fun j => by simp [cws]⟩
  | cons l ls ih =>
    intro ap ap' h hF hc
    unfold absorbCopies at h
    obtain ⟨⟨ap1, l1⟩, h1, h⟩ := bind_ok.mp h
    obtain ⟨⟨ap2, ls2⟩, h2, h⟩ := bind_ok.mp h
    cases h
    obtain ⟨a1, a2⟩ := absorbAll_exact h1 hF (hc l List.mem_cons_self)
    obtain ⟨d1, -⟩ := absorbAll_ok h1 (hc l List.mem_cons_self)
    obtain ⟨b1, b2, b3⟩ := ih h2 a1 (fun cs hcs c hc' => by
      rw [d1.len]; exact hc cs (List.mem_cons_of_mem _ hcs) c hc')
    refine ⟨b1, by rw [List.length_cons, List.length_cons, b2], fun j => ?_⟩
    have := a2 j
    have := b3 j
    have e : cws j (l1 :: ls2) = cw j l1 + cws j ls2 := by
      unfold cws; rw [List.map_cons, List.sum_cons]
    rw [e]; omega

theorem enlarge_exact {a : Axis} {i : Nat} {it it' : WorkItem} {ls : List (List Companion)}
    (h : enlarge env a it ls = .ok it') (h1 : OneCopy it) (hr : it.removed = false)
    (hl : ls.length = 1) : OneCopy it' ∧ ∀ j, load j i it' = load j i it + cws j ls := by
  obtain ⟨e1, e2, -, -⟩ := enlarge_ok h
  obtain ⟨l, rfl⟩ := List.length_eq_one_iff.mp hl
  have key : it'.companions.length ≤ 1
      ∧ ∀ j, cws j it'.companions = cws j it.companions + cws j [l] := by
    have hc := (h1.2 hr).2
    have go : ∀ out : List (List Companion),
        (it.companions.isEmpty = true → out = [l]) →
        (it.companions.isEmpty = false → out = List.zipWith (· ++ ·) it.companions [l]) →
        out.length ≤ 1 ∧ ∀ j, cws j out = cws j it.companions + cws j [l] := by
      intro out p1 p2
      rcases hcs : it.companions with _ | ⟨cs, rest⟩
      · rw [p1 (by rw [hcs]; rfl)]
        exact ⟨le_refl _, fun j => by simp [cws]⟩
      · rw [hcs, List.length_cons] at hc
        have : rest = [] := List.length_eq_zero_iff.mp (by omega)
        subst this
        rw [p2 (by rw [hcs]; rfl), hcs]
        refine ⟨by simp, fun j => ?_⟩
        simp [cws, cw_append]
    unfold enlarge at h
    cases a with
    | wide =>
      dsimp only at h
      split_ifs at h with c1 c2
      · cases h; exact go _ (fun _ => rfl) (fun e => by rw [e] at c1; simp at c1)
      · cases h; exact go _ (fun e => absurd e c1) (fun _ => rfl)
    | tall =>
      dsimp only at h
      split_ifs at h with c1 c2
      · cases h; exact go _ (fun _ => rfl) (fun e => by rw [e] at c1; simp at c1)
      · cases h; exact go _ (fun e => absurd e c1) (fun _ => rfl)
  refine ⟨⟨fun hr' => ?_, fun _ => ⟨by rw [e2]; exact (h1.2 hr).1, key.1⟩⟩, fun j => ?_⟩
  · rw [e1, hr] at hr'; cases hr'
  · unfold load
    rw [e1, e2, key.2 j]; omega

theorem applyLoop_exact {a : Axis} {trivial : Bool} {rs : List Nat}
    (l : List (Nat × List (List Companion))) :
    ∀ {acc acc' : Apply × Bool}, l.foldlM (applyOne env a trivial) acc = .ok acc' → Fresh acc.1 →
    (∀ i ∈ rs, i < acc.1.st.items.length) →
    (∀ p ∈ l, p.1 < acc.1.st.items.length ∧ (acc.1.st.item p.1).removed = false ∧ p.1 ∉ rs
      ∧ (trivial = true ∨ validated p.2 = true → p.2.length = 1)
      ∧ ∀ cs ∈ p.2, ∀ c ∈ cs, c.id ∈ rs) →
    Fresh acc'.1 ∧ acc'.1.st.items.length = acc.1.st.items.length
      ∧ SameBins acc.1.st acc'.1.st ∧ ∀ j, total j acc'.1.st = total j acc.1.st := by
  induction l with
  | nil => intro acc acc' h hF _ _; cases h; exact ⟨hF, rfl, SameBins.refl _, fun _ => rfl⟩
  | cons p l ih =>
    intro acc acc' h hF hrs hp
    obtain ⟨acc1, h1, h2⟩ := foldlM_cons_ok.mp h
    have first : Fresh acc1.1 ∧ acc1.1.st.items.length = acc.1.st.items.length
        ∧ SameBins acc.1.st acc1.1.st ∧ (∀ j, total j acc1.1.st = total j acc.1.st)
        ∧ ∀ q, q ∉ rs → (acc1.1.st.item q).removed = (acc.1.st.item q).removed := by
      unfold applyOne at h1
      split_ifs at h1 with hv
      · cases h1; exact ⟨hF, rfl, SameBins.refl _, fun _ => rfl, fun _ _ => rfl⟩
      · obtain ⟨⟨ap, cs'⟩, h3, h1⟩ := bind_ok.mp h1
        obtain ⟨it, h4, h1⟩ := bind_ok.mp h1
        cases h1
        obtain ⟨p1, p2, p3, p4, p5⟩ := hp p List.mem_cons_self
        have hlt : ∀ cs ∈ p.2, ∀ c ∈ cs, c.id < acc.1.st.items.length :=
          fun cs hcs c hc => hrs _ (p5 cs hcs c hc)
        obtain ⟨d, -⟩ := absorbCopies_ok h3 hlt
        obtain ⟨a1, a2, a3⟩ := absorbCopies_exact h3 hF hlt
        have hin : p.1 < ap.st.items.length := by rw [d.len]; exact p1
        have keep : ∀ q, q ∉ rs → ap.st.item q = acc.1.st.item q := by
          intro q hq
          rcases d.item q with e | ⟨⟨cs, hcs, c, hc, e⟩, -⟩
          · exact e
          · exact absurd (e ▸ p5 cs hcs c hc) hq
        have hone : cs'.length = 1 := by
          rw [a2]
          apply p4
          cases trivial
          · right; simpa using hv
          · left; rfl
        obtain ⟨b1, b2⟩ := enlarge_exact (i := p.1) h4 (a1.single.1 p.1 hin)
          (by rw [keep _ p3]; exact p2) hone
        refine ⟨⟨?_, ?_, a1.done, a1.single.set b1⟩, ?_, ⟨d.bins.1, d.bins.2.1, d.bins.2.2⟩,
          fun j => ?_, fun q hq => ?_⟩
        · dsimp only; rw [length_setItem]; exact a1.next
        · dsimp only; rw [length_setItem]; exact a1.prior
        · dsimp only; rw [length_setItem]; exact d.len
        · dsimp only
          have := a3 j
          rw [total_set hin, b2]
          omega
        · dsimp only
          rw [item_setItem]
          split_ifs with c
          · rw [(enlarge_ok h4).1, ← c.1, keep _ p3]
          · rw [keep q hq]
    obtain ⟨f1, f2, f3, f4, f5⟩ := first
    obtain ⟨g1, g2, g3, g4⟩ := ih h2 f1 (fun i hi => by rw [f2]; exact hrs i hi) (fun q hq => by
      obtain ⟨q1, q2, q3, q4, q5⟩ := hp q (List.mem_cons_of_mem _ hq)
      exact ⟨by rw [f2]; exact q1, by rw [f5 _ q3]; exact q2, q3, q4, q5⟩)
    exact ⟨g1, g2.trans f2, f3.trans g3, fun j => (g4 j).trans (f4 j)⟩

theorem readCheck_length {a : Axis} {checked rs : List Nat} (sol : List PackedBin) :
    ∀ {acc comps : List (List (List Companion))},
    sol.foldlM (fun acc b =>
      if h : b.binTypeId < checked.length then do
        let cs ← readCompanions a (st.item checked[b.binTypeId]) rs b.items
        .ok (acc.modify b.binTypeId (· ++ List.replicate b.copies.toNat cs))
      else .error .ub) acc = (.ok comps : Except Err _) →
    acc.length = checked.length → (∀ b ∈ sol, 0 < b.copies) →
    ∀ i, ((comps.getD i []).length : Int) ≤ (acc.getD i []).length + Spec.binCopies sol i := by
  induction sol with
  | nil => intro acc comps h _ _ i; cases h; rw [show Spec.binCopies [] i = 0 from rfl]; omega
  | cons b sol ih =>
    intro acc comps h hl hpos i
    obtain ⟨acc1, h1, h2⟩ := foldlM_cons_ok.mp h
    by_cases hb : b.binTypeId < checked.length
    · rw [dif_pos hb] at h1
      obtain ⟨cs, -, h1⟩ := bind_ok.mp h1
      cases h1
      have := ih h2 (by rw [List.length_modify]; exact hl)
        (fun c hc => hpos c (List.mem_cons_of_mem _ hc)) i
      refine this.trans ?_
      have hp := hpos b List.mem_cons_self
      have e : Spec.binCopies (b :: sol) i
          = (if b.binTypeId = i then b.copies else 0) + Spec.binCopies sol i := by
        unfold Spec.binCopies
        rw [List.map_cons, List.sum_cons]
      rw [e, List.getD_eq_getElem?_getD, List.getElem?_modify]
      by_cases c : b.binTypeId = i
      · subst c
        rw [List.getD_eq_getElem?_getD]
        have hbl : b.binTypeId < acc.length := by rw [hl]; exact hb
        rw [List.getElem?_eq_getElem hbl]
        simp only [Option.map_eq_map, Option.map_some, Option.getD_some, if_true,
          List.length_append, List.length_replicate]
        push_cast
        omega
      · simp only [if_neg c]
        rw [List.getD_eq_getElem?_getD]
        simp
    · rw [dif_neg hb] at h1; cases h1

/-- Big item types that are still there. -/
structure Live (st : State) (bigs : List Nat) : Prop where
  nodup : bigs.Nodup
  live : ∀ i ∈ bigs, i < st.items.length ∧ (st.item i).removed = false

theorem tryGroup_exact {a : Axis} {bigs : List Nat} {found : Bool} (hS : Single st)
    (hb : Live st bigs)
    (hsolve : ∀ t ops inst, InstanceBuilder.runOps ops = .ok inst →
      ValidPacking inst (env.solve t inst))
    (h : tryGroup env a st bigs = .ok (found, st')) :
    Single st' ∧ st'.items.length = st.items.length ∧ ∀ j, allUses j st' = allUses j st := by
  unfold tryGroup at h
  dsimp only at h
  set checked := checkedBigs env a st bigs with hch
  set rs := candidates env a st bigs checked with hrs
  have hcb : ∀ i ∈ checked, i ∈ bigs := by
    intro i hi
    rw [hch] at hi
    unfold checkedBigs at hi
    exact (List.mem_filter.mp hi).1
  have hrl : ∀ i ∈ rs, i < st.items.length ∧ i ∉ bigs := by
    intro i hi
    rw [hrs] at hi
    unfold candidates at hi
    rw [List.mem_filter, Bool.and_eq_true, Bool.and_eq_true] at hi
    exact ⟨List.mem_range.mp hi.1, by simpa using hi.2.1.2⟩
  have apply : ∀ (trivial any : Bool) (s s' : State) (comps : List (List (List Companion))),
      s.items = st.items → SameBins st s → s.fullBins = st.fullBins → s.pairs = st.pairs →
      (∀ p ∈ checked.zip comps, (trivial = true ∨ validated p.2 = true → p.2.length = 1)
        ∧ ∀ cs ∈ p.2, ∀ c ∈ cs, c.id ∈ rs) →
      applyGroup env a trivial s checked comps = .ok (any, s') →
      Single s' ∧ s'.items.length = st.items.length ∧ ∀ j, allUses j s' = allUses j st := by
    intro trivial any s s' comps hs hsb hsf hsp hids happ
    unfold applyGroup at happ
    obtain ⟨⟨ap, any'⟩, h1, happ⟩ := bind_ok.mp happ
    cases happ
    have hit : ∀ i, s.item i = st.item i := fun i => by unfold State.item; rw [hs]
    obtain ⟨r1, r2, r3, r4⟩ := applyLoop_exact (env := env) (rs := rs) (checked.zip comps) h1
      ⟨by simp, by simp, fun i => by
        have : (List.replicate s.items.length ([] : List (List Companion))).getD i [] = [] := by
          rw [List.getD_eq_getElem?_getD, List.getElem?_replicate]; split_ifs <;> rfl
        dsimp only
        rw [this]; simp, ⟨fun i hi => by rw [hit]; exact hS.1 i (by rw [← hs]; exact hi),
        hsf ▸ hS.2.1, hsp ▸ hS.2.2⟩⟩
      (fun i hi => by rw [hs]; exact (hrl i hi).1)
      (fun p hp => by
        obtain ⟨p1, -⟩ := List.of_mem_zip (a := p.1) (b := p.2) hp
        have hlv := hb.live _ (hcb _ p1)
        dsimp only
        rw [hs, hit]
        exact ⟨hlv.1, hlv.2, fun hr => (hrl _ hr).2 (hcb _ p1), (hids p hp).1, (hids p hp).2⟩)
    refine ⟨r1.single, r2.trans (by rw [hs]), fun j => ?_⟩
    have e3 : total j s = total j st := by
      unfold total State.item; rw [hs]
    have e4 := r4 j
    dsimp only at e4
    unfold allUses
    rw [dedicatedUses_same (hsb.trans r3), ← e3, e4]
  split_ifs at h with h1 h2
  · cases h; exact ⟨hS, rfl, fun _ => rfl⟩
  · refine apply true found st st' _ rfl (SameBins.refl _) rfl rfl ?_ h
    intro p hp
    obtain ⟨p1, p2⟩ := List.of_mem_zip (a := p.1) (b := p.2) hp
    obtain ⟨i, hi, e⟩ := List.mem_map.mp p2
    rw [← e]
    have hlv := hb.live _ (hcb _ hi)
    rw [((hS.1 i hlv.1).2 hlv.2).1]
    exact ⟨fun _ => rfl, by simp⟩
  · obtain ⟨check, h3, h⟩ := bind_ok.mp h
    have hC := checkOps_built h3
    have hv := hsolve st.ticks _ _ h3
    split_ifs at h with h4
    · cases h; exact ⟨hS, rfl, fun _ => rfl⟩
    · obtain ⟨comps, h5, h⟩ := bind_ok.mp h
      unfold readCheck at h5
      obtain ⟨-, k2, -⟩ := readCheck_ok _ h5 (by simp) (by
        intro l hl cs hcs
        rw [List.eq_of_mem_replicate hl] at hcs
        simp at hcs)
      have hlen := readCheck_length _ h5 (by simp) (fun b hbm => (hv.bins b hbm).2.1)
      refine apply false found st.tick st' comps rfl ⟨rfl, rfl, rfl⟩ rfl rfl (fun p hp => ⟨?_, ?_⟩) h
      · intro hval
        have hne : p.2 ≠ [] := by
          intro e
          rw [e] at hval
          rcases hval with hval | hval <;> simp [validated] at hval
        obtain ⟨i, hi, rfl⟩ := List.mem_iff_getElem.mp hp
        rw [List.length_zip] at hi
        rw [List.getElem_zip] at hne ⊢
        have hic : i < checked.length := by omega
        have hig : i < comps.length := by omega
        have q := hlen i
        rw [List.getD_eq_getElem _ _ hig] at q
        have e0 : (List.replicate checked.length ([] : List (List Companion))).getD i [] = [] := by
          rw [List.getD_eq_getElem _ _ (by simpa using hic), List.getElem_replicate]
        rw [e0] at q
        have q2 := hv.binCopies i (by rw [hC.bins]; exact hic)
        have hlv := hb.live _ (hcb _ (List.getElem_mem hic))
        have hone := ((hS.1 _ hlv.1).2 hlv.2).1
        rw [(hC.bin i hic).2.2 (by rw [hone]; decide), hone] at q2
        dsimp only at hne ⊢
        have : 0 < comps[i].length := List.length_pos_iff.mpr hne
        simp only [List.length_nil, Nat.cast_zero] at q
        have hm : max (0 : Int) 1 = 1 := by decide
        rw [hm] at q2
        omega
      · obtain ⟨-, p2⟩ := List.of_mem_zip (a := p.1) (b := p.2) hp
        exact k2 _ p2

end PackingSolver.Rect.Reduction
