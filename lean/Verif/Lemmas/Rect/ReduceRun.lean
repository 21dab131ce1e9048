import Verif.Lemmas.Rect.ReduceBothCheck

/-!
# The passes and rounds of the reduction keep the invariant
-/

namespace PackingSolver.Rect.Reduction

open Rect.Spec

variable {env : Env} {k : Int} {st st' : State}

/-! ## Items that fill a bin -/

theorem fullBinOne_inv {i : Nat} {acc acc' : State × Bool} (hi : i < acc.1.items.length)
    (hI : Inv env k acc.1) (h : fullBinOne env acc i = .ok acc') :
    Inv env k acc'.1 ∧ Grow env acc.1 acc'.1 := by
  unfold fullBinOne at h
  dsimp only at h
  by_cases hr : (acc.1.item i).removed = true
  · rw [if_pos hr] at h; cases h; exact ⟨hI, Grow.refl _ _⟩
  · rw [if_neg hr] at h
    have hr : (acc.1.item i).removed = false := by simpa using hr
    split at h
    · cases h; exact ⟨hI, Grow.refl _ _⟩
    · rename_i r hrot
      split_ifs at h with hc
      · cases h; exact ⟨hI, Grow.refl _ _⟩
      · obtain ⟨⟨e, it'⟩, he, h⟩ := bind_ok.mp h
        cases h
        obtain ⟨-, -, hx, hy, hcp⟩ := extract_ok he
        have hfill : (acc.1.item i).x + (acc.1.item i).y = env.w + env.h := by
          split_ifs at hrot with h1 h2
          · omega
          · omega
        have hpos := hI.pos i hi
        have hC := captured_one (st := acc.1) (m := (acc.1.item i).copies) hi
          (it' := { it' with removed := true })
          (st1 := { acc.1.setItem i { it' with removed := true } with
            fullBins := (acc.1.setItem i { it' with removed := true }).fullBins
              ++ [⟨i, r, (acc.1.item i).copies, e⟩] })
          rfl hx hy (by change 0 ≤ it'.copies; rw [hcp]; exact hpos.2.2) rfl (by
            rw [dedicated_fullBins, dedicated_setItem])
        refine ⟨captured_inv hI hC (List.nodup_singleton i)
          (by intro j hj; rw [List.mem_singleton.mp hj]; exact hi)
          (by
            simp only [List.map_cons, List.map_nil, List.sum_cons, List.sum_nil, Int.add_zero]
            change _ = if (acc.1.item i).removed then 0 else (acc.1.item i).copies
            rw [hr]; rfl)
          ?_, hC.grow⟩
        intro b hg p hpb q hqb hne hpi
        exfalso
        have hpi : p.itemTypeId = i := by simpa using hpi
        have hs := hg.sep hpb hqb hne
        have hip := hg.inside p hpb
        have hiq := hg.inside q hqb
        have hq1 := hI.tabPos.wd_pos (hg.exist q hqb)
        have hq2 := hI.tabPos.ht_pos (hg.exist q hqb)
        have hsum : (tab env acc.1).wd p + (tab env acc.1).ht p = env.w + env.h := by
          unfold Tab.wd Tab.ht
          rw [hpi]
          simp only [show (tab env acc.1).w i = (acc.1.item i).x from rfl,
            show (tab env acc.1).h i = (acc.1.item i).y from rfl]
          split_ifs <;> omega
        unfold Inside Tab.occ at hip hiq
        unfold Separated Tab.occ at hs
        simp only at hip hiq hs
        omega

theorem fullBins_inv {found : Bool} (hI : Inv env k st) (h : fullBins env st = .ok (found, st')) :
    Inv env k st' ∧ Grow env st st' := by
  unfold fullBins at h
  obtain ⟨⟨st1, any⟩, h1, h⟩ := bind_ok.mp h
  cases h
  exact foldlM_inv (l := List.range st.items.length)
    (fun acc : State × Bool => Inv env k acc.1 ∧ Grow env st acc.1)
    ⟨hI, Grow.refl _ _⟩ (fun a i a' hi ha hs => by
      have := fullBinOne_inv (by rw [ha.2.len]; exact List.mem_range.mp hi) ha.1 hs
      exact ⟨this.1, ha.2.trans this.2⟩) h1

/-! ## Perfect pairs -/

/-- `n` copies of one item type are used. -/
structure Consumed (i : Nat) (n : Int) (st st' : State) : Prop where
  len : st'.items.length = st.items.length
  bins : SameBins st st'
  sizes : (st'.item i).x = (st.item i).x ∧ (st'.item i).y = (st.item i).y
  copies : (st'.item i).copies = (st.item i).copies - n
  removed : (st'.item i).removed = true ∨ (st'.item i).removed = (st.item i).removed
  zero : (st'.item i).removed = true → (st.item i).removed = false → (st'.item i).copies = 0
  kept : ∀ j, j ≠ i → st'.item j = st.item j

theorem consume_ok {i : Nat} {n : Int} {e : List (List Companion)} (hi : i < st.items.length)
    (h : consume st i n = .ok (e, st')) : Consumed i n st st' := by
  unfold consume at h
  obtain ⟨⟨e1, it'⟩, he, h⟩ := bind_ok.mp h
  obtain ⟨-, hr, hx, hy, -⟩ := extract_ok he
  have h' := Except.ok.inj h
  have h' := (Prod.mk.inj h').2
  have hitem : st'.item i = if (st.item i).copies - n = 0 then
      { it' with copies := (st.item i).copies - n, removed := true }
      else { it' with copies := (st.item i).copies - n } := by
    rw [← h', item_setItem_self _ hi]
  refine ⟨by rw [← h']; exact length_setItem _ _ _, by rw [← h']; exact ⟨rfl, rfl, rfl⟩, ?_, ?_,
    ?_, ?_, fun j hj => by rw [← h']; exact item_setItem_ne _ (Ne.symm hj) _⟩
  · rw [hitem]; split_ifs <;> exact ⟨hx, hy⟩
  · rw [hitem]; split_ifs <;> rfl
  · rw [hitem]; split_ifs
    · exact Or.inl rfl
    · exact Or.inr hr
  · rw [hitem]; split_ifs with hz
    · intro _ _; exact hz
    · intro h1 h2
      change it'.removed = true at h1
      rw [hr, h2] at h1; exact absurd h1 (by simp)

theorem pairOne_inv {i : Nat} {acc acc' : State × Bool} (hi : i < acc.1.items.length)
    (hI : Inv env k acc.1) (h : pairOne env acc i = .ok acc') :
    Inv env k acc'.1 ∧ Grow env acc.1 acc'.1 := by
  unfold pairOne at h
  dsimp only at h
  split_ifs at h with hr ho
  · cases h; exact ⟨hI, Grow.refl _ _⟩
  · cases h; exact ⟨hI, Grow.refl _ _⟩
  · have hr : (acc.1.item i).removed = false := by simpa using hr
    have ho : env.oriented i = true := by simpa using ho
    split at h
    · cases h; exact ⟨hI, Grow.refl _ _⟩
    · rename_i j hj
      have hjl := List.mem_range.mp (List.mem_of_find?_eq_some hj)
      split at h
      · cases h; exact ⟨hI, Grow.refl _ _⟩
      · rename_i dx dy hp
        obtain ⟨⟨e1, st1⟩, h1, h⟩ := bind_ok.mp h
        obtain ⟨⟨e2, st2⟩, h2, h⟩ := bind_ok.mp h
        have h' := Except.ok.inj h
        unfold pairWith at hp
        split_ifs at hp with p1 p2 p3 p4
        have hrj : (acc.1.item j).removed = false := by simpa using p2
        have hoj : env.oriented j = true := by simpa using p3
        set n := min (acc.1.item i).copies (acc.1.item j).copies with hn
        have hposi := hI.pos i hi
        have hposj := hI.pos j hjl
        have hn0 : 0 ≤ n := by omega
        have c1 := consume_ok hi h1
        have c2 := consume_ok (by rw [c1.len]; exact hjl) h2
        dsimp only at c2
        have hbin : SameBins acc.1 st2 := c1.bins.trans c2.bins
        have hst : acc'.1.items = st2.items := by rw [← h']
        have hitem : ∀ l, acc'.1.item l = st2.item l := by
          intro l; unfold State.item; rw [hst]
        have hlen : acc'.1.items.length = acc.1.items.length := by
          rw [hst, c2.len, c1.len]
        have hded : acc'.1.dedicated = acc.1.dedicated + n := by
          rw [← h']
          change State.dedicated { st2 with pairs := st2.pairs ++ [⟨i, j, dx, dy, n, e1, e2⟩] } = _
          rw [dedicated_pairs, hbin.dedicated]
        have hii : acc'.1.item i = st1.item i := by
          rw [hitem, c2.kept i (Ne.symm p1)]
        have hij : st1.item j = acc.1.item j := c1.kept j p1
        have hjj : acc'.1.item j = st2.item j := hitem j
        have hkk : ∀ l, l ≠ i → l ≠ j → acc'.1.item l = acc.1.item l := by
          intro l hl1 hl2; rw [hitem, c2.kept l hl2, c1.kept l hl1]
        have hsz : ∀ l, (acc'.1.item l).x = (acc.1.item l).x
            ∧ (acc'.1.item l).y = (acc.1.item l).y := by
          intro l
          by_cases hl1 : l = i
          · subst hl1; rw [hii]; exact c1.sizes
          · by_cases hl2 : l = j
            · subst hl2; rw [hjj, ← hij]; exact c2.sizes
            · rw [hkk l hl1 hl2]; exact ⟨rfl, rfl⟩
        have hci : (acc'.1.item i).copies = (acc.1.item i).copies - n := by
          rw [hii]; exact c1.copies
        have hcj : (acc'.1.item j).copies = (acc.1.item j).copies - n := by
          rw [hjj, ← hij]; exact c2.copies
        have hzi : (acc'.1.item i).removed = true → (acc'.1.item i).copies = 0 := by
          rw [hii]; exact fun h => c1.zero h hr
        have hzj : (acc'.1.item j).removed = true → (acc'.1.item j).copies = 0 := by
          rw [hjj]; exact fun h => c2.zero h (by rw [hij]; exact hrj)
        -- the table afterwards
        have htab : ∀ l, l < (tab env acc.1).n →
            (tab env acc'.1).w l = ((tab env acc.1).less i j n.toNat).w l
            ∧ (tab env acc'.1).h l = ((tab env acc.1).less i j n.toNat).h l
            ∧ (tab env acc'.1).c l = ((tab env acc.1).less i j n.toNat).c l
            ∧ (tab env acc'.1).o l = ((tab env acc.1).less i j n.toNat).o l := by
          intro l _
          refine ⟨(hsz l).1, (hsz l).2, ?_, rfl⟩
          change (if (acc'.1.item l).removed then 0 else (acc'.1.item l).copies)
            = if l = i ∨ l = j then (if (acc.1.item l).removed then 0 else (acc.1.item l).copies)
              - ((n.toNat : Nat) : Int) else if (acc.1.item l).removed then 0
                else (acc.1.item l).copies
          have htn : ((n.toNat : Nat) : Int) = n := by omega
          rw [htn]
          by_cases hl1 : l = i
          · subst hl1
            have e0 : (if (acc.1.item l).removed then (0 : Int) else (acc.1.item l).copies)
                = (acc.1.item l).copies := by rw [hr]; rfl
            rw [if_pos (Or.inl rfl), e0]
            split_ifs with hh
            · have := hzi hh; omega
            · exact hci
          · by_cases hl2 : l = j
            · subst hl2
              have e0 : (if (acc.1.item l).removed then (0 : Int) else (acc.1.item l).copies)
                  = (acc.1.item l).copies := by rw [hrj]; rfl
              rw [if_pos (Or.inr rfl), e0]
              split_ifs with hh
              · have := hzj hh; omega
              · exact hcj
            · rw [if_neg (show ¬ (l = i ∨ l = j) from fun h => h.elim hl1 hl2), hkk l hl1 hl2]
        have hcti : ((n.toNat : Nat) : Int) ≤ (tab env acc.1).c i := by
          change _ ≤ if (acc.1.item i).removed then 0 else (acc.1.item i).copies
          rw [hr, if_neg (by simp)]; omega
        have hctj : ((n.toNat : Nat) : Int) ≤ (tab env acc.1).c j := by
          change _ ≤ if (acc.1.item j).removed then 0 else (acc.1.item j).copies
          rw [hrj, if_neg (by simp)]; omega
        obtain ⟨bins, hpk, hle⟩ := hI.packs
        have hpack : ∃ bins', (tab env acc'.1).Packs env.w env.h bins'
            ∧ bins'.length + n.toNat = bins.length := by
          unfold pairOffset at hp
          split_ifs at hp with q1 q2
          · obtain ⟨bins', b1, b2⟩ := hpk.pairs hI.tabPos (Ne.symm p1) hi hjl ho hoj q1.1 q1.2.1
              q1.2.2 n.toNat hcti hctj
            exact ⟨bins', b1.congr hlen htab, b2⟩
          · have hflip := hpk.flip
            obtain ⟨bins', b1, b2⟩ := hflip.pairs (T := (tab env acc.1).flip)
              (fun l hl => ⟨(hI.tabPos l hl).2, (hI.tabPos l hl).1⟩) (Ne.symm p1) hi hjl
              ho hoj q2.1 q2.2.1 q2.2.2 n.toNat hcti hctj
            have b3 : ((tab env acc.1).less i j n.toNat).Packs env.w env.h _ := b1.flip
            refine ⟨_, b3.congr hlen htab, ?_⟩
            rw [List.length_map, b2, List.length_map]
        obtain ⟨bins', b1, b2⟩ := hpack
        refine ⟨⟨hlen.trans hI.len, ?_, ?_, by rw [hded]; have := hI.ded; omega, bins', b1, ?_⟩, hlen, fun l => ?_⟩
        · intro l hl
          rw [hlen] at hl
          have := hI.pos l hl
          rw [(hsz l).1, (hsz l).2]
          refine ⟨this.1, this.2.1, ?_⟩
          by_cases hl1 : l = i
          · subst hl1; rw [hci]; omega
          · by_cases hl2 : l = j
            · subst hl2; rw [hcj]; omega
            · rw [hkk l hl1 hl2]; exact this.2.2
        · intro l hl hol
          rw [hlen] at hl
          rw [(hsz l).1, (hsz l).2]
          exact hI.same l hl hol
        · rw [hded]; omega
        · cases hrl : (acc'.1.item l).removed
          · right
            refine ⟨?_, by rw [(hsz l).1], by rw [(hsz l).2], fun _ => hsz l⟩
            by_cases hl1 : l = i
            · subst hl1; exact hr
            · by_cases hl2 : l = j
              · subst hl2; exact hrj
              · rw [← hkk l hl1 hl2]; exact hrl
          · left; rfl

theorem perfectPairs_inv {found : Bool} (hI : Inv env k st)
    (h : perfectPairs env st = .ok (found, st')) : Inv env k st' ∧ Grow env st st' := by
  unfold perfectPairs at h
  obtain ⟨⟨st1, any⟩, h1, h⟩ := bind_ok.mp h
  cases h
  exact foldlM_inv (l := List.range st.items.length)
    (fun acc : State × Bool => Inv env k acc.1 ∧ Grow env st acc.1)
    ⟨hI, Grow.refl _ _⟩ (fun a i a' hi ha hs => by
      have := pairOne_inv (by rw [ha.2.len]; exact List.mem_range.mp hi) ha.1 hs
      exact ⟨this.1, ha.2.trans this.2⟩) h1

/-! ## Attempts that fail change nothing -/

theorem applyGroup_false {a : Axis} {trivial : Bool} {checked : List Nat}
    {comps : List (List (List Companion))}
    (h : applyGroup env a trivial st checked comps = .ok (false, st')) : st' = st := by
  unfold applyGroup at h
  obtain ⟨⟨ap, any⟩, h1, h⟩ := bind_ok.mp h
  have h' := Except.ok.inj h
  obtain ⟨h2, h3⟩ := Prod.mk.inj h'
  rw [← h3]
  have key := foldlM_inv (l := checked.zip comps)
    (fun acc : Apply × Bool => acc.2 = true ∨ acc.1.st = st) (Or.inr rfl)
    (fun acc p acc' _ ha hs => by
      unfold applyOne at hs
      split_ifs at hs with hv
      · cases hs; exact ha
      · obtain ⟨⟨ap1, cs⟩, -, hs⟩ := bind_ok.mp hs
        obtain ⟨it, -, hs⟩ := bind_ok.mp hs
        cases hs; exact Or.inl rfl) h1
  rcases key with e | e
  · rw [show any = false from h2] at e; exact absurd e (by simp)
  · exact e

theorem tryGroup_false {a : Axis} {bigs : List Nat}
    (h : tryGroup env a st bigs = .ok (false, st')) : st'.items = st.items := by
  unfold tryGroup at h
  dsimp only at h
  split_ifs at h with h1 h2
  · cases h; rfl
  · rw [applyGroup_false h]
  · obtain ⟨check, hc, h⟩ := bind_ok.mp h
    split_ifs at h with h3
    · cases h; rfl
    · obtain ⟨comps, hr, h⟩ := bind_ok.mp h
      rw [applyGroup_false h]; rfl

theorem tryBoth_false {bigs : List Nat}
    (h : tryBoth env st bigs = .ok (false, st')) : st'.items = st.items := by
  unfold tryBoth at h
  dsimp only at h
  split_ifs at h with h1
  · obtain ⟨⟨st1, any⟩, h2, h⟩ := bind_ok.mp h
    have h' := Except.ok.inj h
    obtain ⟨e2, e3⟩ := Prod.mk.inj h'
    rw [← e3]
    have key := foldlM_inv (l := bigs)
      (fun acc : State × Bool => acc.2 = true ∨ acc.1 = st) (Or.inr rfl)
      (fun acc p acc' _ ha hs => by
        unfold captureOne at hs
        dsimp only at hs
        split at hs
        · cases hs; exact ha
        · split_ifs at hs with hv
          · cases hs; exact ha
          · obtain ⟨⟨ap1, cs⟩, -, hs⟩ := bind_ok.mp hs
            cases hs; exact Or.inl rfl) h2
    rcases key with e | e
    · rw [show any = false from e2] at e; exact absurd e (by simp)
    · rw [show st1 = st from e]
  · obtain ⟨check, hc, h⟩ := bind_ok.mp h
    split_ifs at h with h3
    · cases h; rfl
    · split at h
      · cases h; rfl
      · split_ifs at h with h4 h5
        · cases h; rfl
        · cases h; rfl
        · obtain ⟨⟨st1, prior⟩, h6, h⟩ := bind_ok.mp h
          obtain ⟨⟨st2, next⟩, h7, h⟩ := bind_ok.mp h
          cases h

/-! ## The loops over groups -/

/-- What the loops need of the attempts. -/
structure Attempts (env : Env) (J : State → Prop) (P : Nat → WorkItem → Bool)
    (gatherBigs : State → List Nat) (attempt : State → List Nat → Except Err (Bool × State)) :
    Prop where
  tick : ∀ st, J st → J st.tick
  inv : ∀ st bigs found st', J st → Bigs P st bigs →
    attempt st bigs = .ok (found, st') → J st' ∧ Grow env st st'
  unchanged : ∀ st bigs st', attempt st bigs = .ok (false, st') → st'.items = st.items
  gather : ∀ st, Bigs P st (gatherBigs st)
  mono : ∀ i it it', it.x ≤ it'.x → it.y ≤ it'.y → P i it = true → P i it' = true

variable {J : State → Prop} {P : Nat → WorkItem → Bool} {gatherBigs : State → List Nat}
  {attempt : State → List Nat → Except Err (Bool × State)}

theorem Bigs.of_items {bigs : List Nat} (hb : Bigs P st bigs) (h : st'.items = st.items) :
    Bigs P st' bigs := by
  refine ⟨hb.nodup, fun i hi => ?_⟩
  have : st'.item i = st.item i := by unfold State.item; rw [h]
  rw [this, h]; exact hb.big i hi

theorem singletons_inv (hA : Attempts env J P gatherBigs attempt) :
    ∀ {l : List Nat} {found : Bool} {st : State} {r : Bool × Bool × State},
    singletons env attempt l found st = .ok r → J st →
    (∀ i ∈ l, i < st.items.length ∧ ((st.item i).removed = false → P i (st.item i) = true)) →
    J r.2.2 ∧ Grow env st r.2.2 := by
  intro l
  induction l with
  | nil => intro found st r h hI _; cases h; exact ⟨hI, Grow.refl _ _⟩
  | cons i l ih =>
    intro found st r h hI hl
    unfold singletons at h
    split_ifs at h with h1 h2
    · exact ih h hI (fun j hj => hl j (List.mem_cons_of_mem _ hj))
    · cases h; exact ⟨(hA.tick _ hI), Grow.tick _ _⟩
    · obtain ⟨⟨ok, st1⟩, h3, h⟩ := bind_ok.mp h
      have h1 : (st.item i).removed = false := by simpa using h1
      have hb : Bigs P st.tick [i] := by
        refine ⟨List.nodup_singleton i, fun j hj => ?_⟩
        rw [List.mem_singleton.mp hj]
        exact ⟨(hl i List.mem_cons_self).1, h1, (hl i List.mem_cons_self).2 h1⟩
      obtain ⟨i1, i2⟩ := hA.inv _ _ _ _ (hA.tick _ hI) hb h3
      have i3 := (Grow.tick env st).trans i2
      obtain ⟨j1, j2⟩ := ih h i1 (fun j hj => by
        have := hl j (List.mem_cons_of_mem _ hj)
        refine ⟨by rw [i3.len]; exact this.1, fun hr => ?_⟩
        rcases i3.item j with e | ⟨e1, e2, e3, -⟩
        · rw [e] at hr; exact absurd hr (by simp)
        · exact hA.mono j _ _ e2 e3 (this.2 e1))
      exact ⟨j1, i3.trans j2⟩

theorem growing_inv (hA : Attempts env J P gatherBigs attempt) {cands : List Nat} :
    ∀ {ns : List Nat} {st : State} {r : Bool × Bool × State},
    growing env attempt cands ns st = .ok r → J st → Bigs P st cands →
    J r.2.2 ∧ Grow env st r.2.2 := by
  intro ns
  induction ns with
  | nil => intro st r h hI _; cases h; exact ⟨hI, Grow.refl _ _⟩
  | cons n ns ih =>
    intro st r h hI hb
    unfold growing at h
    split_ifs at h with h2
    · cases h; exact ⟨(hA.tick _ hI), Grow.tick _ _⟩
    · obtain ⟨⟨ok, st1⟩, h3, h⟩ := bind_ok.mp h
      have hb' : Bigs P st.tick (cands.take n) :=
        ⟨hb.nodup.sublist (List.take_sublist _ _), fun i hi => hb.big i (List.mem_of_mem_take hi)⟩
      obtain ⟨i1, i2⟩ := hA.inv _ _ _ _ (hA.tick _ hI) hb' h3
      have i3 := (Grow.tick env st).trans i2
      dsimp only at h
      split_ifs at h with h4
      · cases h; exact ⟨i1, i3⟩
      · have h4 : ok = false := by simpa using h4
        rw [h4] at h3
        obtain ⟨j1, j2⟩ := ih h i1 (hb.of_items ((hA.unchanged _ _ _ h3).trans rfl))
        exact ⟨j1, i3.trans j2⟩

theorem groupsLoop_inv (hA : Attempts env J P gatherBigs attempt) :
    ∀ {fuel : Nat} {found : Bool} {st : State} {r : Bool × State},
    groupsLoop env gatherBigs attempt fuel found st = .ok r → J st →
    J r.2 ∧ Grow env st r.2 := by
  intro fuel
  induction fuel with
  | zero => intro found st r h hI; cases h; exact ⟨hI, Grow.refl _ _⟩
  | succ fuel ih =>
    intro found st r h hI
    unfold groupsLoop at h
    dsimp only at h
    split_ifs at h with h1
    · cases h; exact ⟨hI, Grow.refl _ _⟩
    · obtain ⟨⟨stop, applied, st1⟩, h2, h⟩ := bind_ok.mp h
      obtain ⟨i1, i2⟩ := growing_inv hA h2 hI (hA.gather st)
      dsimp only at h i1 i2
      split_ifs at h with h3 h4
      · cases h; exact ⟨i1, i2⟩
      · obtain ⟨j1, j2⟩ := ih h i1
        exact ⟨j1, i2.trans j2⟩
      · cases h; exact ⟨i1, i2⟩

theorem passGroups_inv (hA : Attempts env J P gatherBigs attempt) {fuel : Nat} {r : Bool × State}
    (h : passGroups env fuel gatherBigs attempt st = .ok r) (hI : J st) :
    J r.2 ∧ Grow env st r.2 := by
  unfold passGroups at h
  obtain ⟨⟨stop, found, st1⟩, h1, h⟩ := bind_ok.mp h
  obtain ⟨i1, i2⟩ := singletons_inv hA h1 hI (fun i hi =>
    ⟨((hA.gather st).big i hi).1, fun _ => ((hA.gather st).big i hi).2.2⟩)
  dsimp only at h i1 i2
  split_ifs at h with h2
  · cases h; exact ⟨i1, i2⟩
  · obtain ⟨j1, j2⟩ := groupsLoop_inv hA h i1
    exact ⟨j1, i2.trans j2⟩

/-- What is assumed of the environment. -/
structure Safe (env : Env) : Prop where
  solve : ∀ t ops inst, InstanceBuilder.runOps ops = .ok inst →
    ValidPacking inst (env.solve t inst)
  sort : ∀ lt l, (env.sort lt l).Perm l
  turning : NoTurning env.inst env.w env.h

theorem bigs_of_sort (hS : Safe env) (lt : Nat → Nat → Bool) :
    Bigs P st (env.sort lt ((List.range st.items.length).filter fun i =>
      !(st.item i).removed && P i (st.item i))) := by
  have hp := hS.sort lt ((List.range st.items.length).filter fun i =>
      !(st.item i).removed && P i (st.item i))
  refine ⟨hp.nodup_iff.mpr (List.nodup_range.filter _), fun i hi => ?_⟩
  have := hp.subset hi
  rw [List.mem_filter, Bool.and_eq_true] at this
  exact ⟨List.mem_range.mp this.1, by simpa using this.2.1, this.2.2⟩

theorem attempts_group (hS : Safe env) (a : Axis) :
    Attempts env (Inv env k) (isBig env a) (gather env a) (tryGroup env a) where
  tick := fun _ h => h.tick
  inv := fun _ _ _ _ hI hb h => tryGroup_inv hI hb hS.solve h
  unchanged := fun _ _ _ h => tryGroup_false h
  gather := fun st => bigs_of_sort (P := isBig env a) hS _
  mono := by
    intro i it it' hx hy h
    unfold isBig at h ⊢
    cases ho : env.oriented i
    · rw [ho] at h; simp at h
    · rw [ho] at h
      cases a
      · simp at h ⊢; omega
      · simp at h ⊢; omega

theorem attempts_both (hS : Safe env) :
    Attempts env (Inv env k) (bothBig env) (gatherBoth env) (tryBoth env) where
  tick := fun _ h => h.tick
  inv := fun _ _ _ _ hI hb h => tryBoth_inv hS.turning hI hb hS.solve h
  unchanged := fun _ _ _ h => tryBoth_false h
  gather := fun st => bigs_of_sort (P := bothBig env) hS _
  mono := by
    intro i it it' hx hy h
    unfold bothBig at h ⊢
    rw [Bool.or_eq_true, Bool.and_eq_true, decide_eq_true_eq, decide_eq_true_eq] at h ⊢
    rcases h with h | ⟨h1, h2⟩
    · left; omega
    · right; exact ⟨h1, by omega⟩

/-! ## The rounds -/

theorem round_inv (hS : Safe env) {fuel : Nat} {r : Bool × Bool × State}
    (h : round env fuel st = .ok r) (hI : Inv env k st) : Inv env k r.2.2 := by
  unfold round at h
  obtain ⟨⟨f1, st1⟩, h1, h⟩ := bind_ok.mp h
  have i1 := (passGroups_inv (attempts_group hS .wide) h1 hI).1
  dsimp only at h i1
  split_ifs at h
  · cases h; exact i1.tick
  obtain ⟨⟨f2, st2⟩, h2, h⟩ := bind_ok.mp h
  have i2 := (passGroups_inv (attempts_group hS .tall) h2 i1.tick).1
  dsimp only at h i2
  split_ifs at h
  · cases h; exact i2.tick
  obtain ⟨⟨f3, st3⟩, h3, h⟩ := bind_ok.mp h
  have i3 := (passGroups_inv (attempts_both hS) h3 i2.tick).1
  dsimp only at h i3
  split_ifs at h
  · cases h; exact i3.tick
  obtain ⟨⟨f4, st4⟩, h4, h⟩ := bind_ok.mp h
  have i4 := (fullBins_inv i3.tick h4).1
  dsimp only at h i4
  split_ifs at h
  · cases h; exact i4.tick
  obtain ⟨⟨f5, st5⟩, h5, h⟩ := bind_ok.mp h
  cases h
  exact (perfectPairs_inv i4.tick h5).1

theorem rounds_inv (hS : Safe env) {fuel : Nat} : ∀ {n : Nat} {st st' : State},
    rounds env fuel n st = .ok st' → Inv env k st → Inv env k st' := by
  intro n
  induction n with
  | zero => intro st st' h hI; cases h; exact hI
  | succ n ih =>
    intro st st' h hI
    unfold rounds at h
    split_ifs at h
    · cases h; exact hI.tick
    · obtain ⟨⟨stop, found, st1⟩, h1, h⟩ := bind_ok.mp h
      have i1 := round_inv hS h1 hI.tick
      dsimp only at h i1
      split_ifs at h
      · cases h; exact i1
      · exact ih h i1
      · cases h; exact i1

/-! ## The start -/

theorem start_item {inst : Instance} {i : Nat} (hi : i < inst.numberOfItemTypes) :
    (start inst).item i = WorkItem.mk false (inst.itemType i).x (inst.itemType i).y
      (inst.itemType i).copies [] := by
  unfold State.item start Instance.itemType
  rw [List.getD_eq_getElem _ _ (by rw [List.length_map]; exact hi), List.getD_eq_getElem _ _ hi,
    List.getElem_map]
  rfl

theorem start_inv {env : Env}
    (hpos : ∀ t ∈ env.inst.itemTypes, 0 < t.x ∧ 0 < t.y ∧ 0 ≤ t.copies) (h1 : env.inst.numberOfBinTypes = 1)
    (hw : env.w = (shrunk env.inst).1) (hh : env.h = (shrunk env.inst).2)
    {bins : List (List PlacedItem)} (hf : FullPacking env.inst bins) :
    Inv env bins.length (start env.inst) := by
  have hlen : (start env.inst).items.length = env.inst.numberOfItemTypes := by
    unfold start; simp [Instance.numberOfItemTypes]
  have hmem : ∀ i, i < env.inst.numberOfItemTypes → env.inst.itemType i ∈ env.inst.itemTypes := by
    intro i hi
    unfold Instance.itemType
    rw [List.getD_eq_getElem _ _ hi]; exact List.getElem_mem hi
  have hsh : shrunk env.inst = (maxSum env.inst (env.inst.binType 0).x true,
      maxSum env.inst (env.inst.binType 0).y false) := by
    unfold shrunk
    rw [if_neg (by omega), if_neg]
    simp only [List.any_eq_true, decide_eq_true_eq, not_exists, not_and, not_lt]
    exact fun t ht => (hpos t ht).2.2
  have hsize : ∀ i, i < env.inst.numberOfItemTypes →
      (tab env (start env.inst)).w i = (env.inst.itemType i).x
      ∧ (tab env (start env.inst)).h i = (env.inst.itemType i).y
      ∧ (tab env (start env.inst)).c i = (env.inst.itemType i).copies := by
    intro i hi
    have e := start_item hi
    refine ⟨?_, ?_, ?_⟩
    · change ((start env.inst).item i).x = _; rw [e]
    · change ((start env.inst).item i).y = _; rw [e]
    · change (if ((start env.inst).item i).removed then 0 else ((start env.inst).item i).copies) = _
      rw [e]; rfl
  have hposT : (tab env (start env.inst)).Pos := by
    intro i hi
    change i < (start env.inst).items.length at hi
    rw [hlen] at hi
    rw [(hsize i hi).1, (hsize i hi).2.1]
    have := hpos _ (hmem i hi)
    exact ⟨this.1, this.2.1⟩
  have hocc : ∀ p : PlacedItem, p.itemTypeId < env.inst.numberOfItemTypes →
      (tab env (start env.inst)).occ p = occupies env.inst p := by
    intro p hp
    unfold Tab.occ occupies Tab.wd Tab.ht
    rw [width_eq, height_eq, (hsize _ hp).1, (hsize _ hp).2.1]
  have hpk : (tab env (start env.inst)).Packs (env.inst.binType 0).x (env.inst.binType 0).y bins := by
    refine ⟨fun b hb => ?_, fun i hi => ?_⟩
    · have hg := hf.each b hb
      refine ⟨fun p hp => ?_, fun p hp hr => hg.rotation p hp hr, fun p hp => ?_, ?_⟩
      · change _ < (start env.inst).items.length
        rw [hlen]; exact hg.exist p hp
      · rw [hocc p (hg.exist p hp)]; exact hg.inside p hp
      · refine List.Pairwise.imp_of_mem ?_ hg.separated
        intro p q hp hq hs
        rw [hocc p (hg.exist p hp), hocc q (hg.exist q hq)]; exact hs
    · change i < (start env.inst).items.length at hi
      rw [hlen] at hi
      rw [(hsize i hi).2.2]; exact hf.all i hi
  -- items of a part of a bin
  have part : ∀ {W H : Int} {bins' : List (List PlacedItem)},
      (tab env (start env.inst)).Packs W H bins' → ∀ b ∈ bins', ∀ S : List PlacedItem,
      S.Subperm b → (∀ p ∈ S, p.itemTypeId < env.inst.numberOfItemTypes)
        ∧ (∀ p ∈ S, p.rotate = true → (env.inst.itemType p.itemTypeId).oriented = false)
        ∧ ∀ i, i < env.inst.numberOfItemTypes → count S i ≤ (env.inst.itemType i).copies := by
    intro W H bins' hp b hb S hS
    have hg := hp.each b hb
    refine ⟨fun p hpS => ?_, fun p hpS hr => hg.rotation p (hS.subset hpS) hr, fun i hi => ?_⟩
    · have := hg.exist p (hS.subset hpS)
      change _ < (start env.inst).items.length at this
      rw [hlen] at this; exact this
    · have h1 := hp.all i (by change i < (start env.inst).items.length; rw [hlen]; exact hi)
      rw [(hsize i hi).2.2] at h1
      rw [← h1]
      have h2 : count S i ≤ count b i := by
        unfold count; exact_mod_cast hS.countP_le _
      have h3 : count b i ≤ count bins'.flatten i :=
        Tab.count_sublist (List.sublist_flatten_of_mem hb) i
      omega
  obtain ⟨bins1, hp1, hl1⟩ := hpk.shrink hposT (W' := env.w) (by
    intro b hb S hS hle
    obtain ⟨s1, s2, s3⟩ := part hpk b hb S hS
    have e : (S.map (tab env (start env.inst)).wd) = S.map fun p =>
        if true = p.rotate then (env.inst.itemType p.itemTypeId).y
          else (env.inst.itemType p.itemTypeId).x := by
      apply List.map_congr_left
      intro p hp
      unfold Tab.wd
      rw [(hsize _ (s1 p hp)).1, (hsize _ (s1 p hp)).2.1]
      cases p.rotate <;> rfl
    unfold Tab.widths at hle ⊢
    rw [e] at hle ⊢
    rw [hw, hsh]
    exact maxSum_ge env.inst _ true S s1 s2 (fun t ht => ⟨(hpos t ht).1,
      (hpos t ht).2.1⟩) s3 _ (fun _ => rfl) hle)
  have hflip := hp1.flip
  obtain ⟨bins2, hp2, hl2⟩ := hflip.shrink (T := (tab env (start env.inst)).flip)
    (fun i hi => ⟨(hposT i hi).2, (hposT i hi).1⟩) (W' := env.h) (by
    intro b hb S hS hle
    obtain ⟨b0, hb0, rfl⟩ := List.mem_map.mp hb
    have hS' : (S.map Tab.flipItem).Subperm b0 := by
      have := hS.map (f := Tab.flipItem) (Function.LeftInverse.injective (g := Tab.flipItem)
        fun p => rfl)
      have e : (b0.map Tab.flipItem).map Tab.flipItem = b0 := by
        rw [List.map_map]
        exact List.map_id'' (fun p => rfl) b0
      rw [e] at this; exact this
    obtain ⟨s1, s2, s3⟩ := part hp1 b0 hb0 _ hS'
    have e : (S.map (tab env (start env.inst)).flip.wd) = (S.map Tab.flipItem).map fun p =>
        if false = p.rotate then (env.inst.itemType p.itemTypeId).y
          else (env.inst.itemType p.itemTypeId).x := by
      rw [List.map_map]
      apply List.map_congr_left
      intro p hp
      have hlt := s1 (Tab.flipItem p) (List.mem_map_of_mem hp)
      change p.itemTypeId < _ at hlt
      unfold Tab.wd Tab.flip
      simp only [Function.comp]
      rw [(hsize _ hlt).1, (hsize _ hlt).2.1]
      change _ = if false = p.rotate then _ else _
      cases p.rotate <;> rfl
    unfold Tab.widths at hle ⊢
    rw [e] at hle ⊢
    rw [hh, hsh]
    exact maxSum_ge env.inst _ false _ s1 s2 (fun t ht => ⟨(hpos t ht).1,
      (hpos t ht).2.1⟩) s3 _ (fun _ => rfl) hle)
  have hp3 : (tab env (start env.inst)).Packs env.w env.h _ := hp2.flip
  refine ⟨hlen, fun i hi => ?_, fun i hi _ => ?_, le_refl _, _, hp3, ?_⟩
  · rw [hlen] at hi
    rw [start_item hi]
    have := hpos _ (hmem i hi)
    exact this
  · rw [hlen] at hi
    rw [start_item hi]; exact ⟨rfl, rfl⟩
  · rw [List.length_map, hl2, List.length_map, hl1]
    have : (start env.inst).dedicated = 0 := rfl
    rw [this]; omega

end PackingSolver.Rect.Reduction
