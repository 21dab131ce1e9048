import Verif.Lemmas.Rect.ReduceCheck
import Verif.Lemmas.Rect.ReduceCapture
import Verif.Lemmas.Rect.ReduceShrink

/-!
# States of the reduction: dropping companions, enlarging big items
-/

namespace PackingSolver.Rect.Reduction

open Rect.Spec

/-- The table of item types of a state. -/
def tab (env : Env) (st : State) : Tab :=
  { n := st.items.length, w := fun i => (st.item i).x, h := fun i => (st.item i).y,
    c := fun i => if (st.item i).removed then 0 else (st.item i).copies, o := env.oriented }

/-- The invariant: the remaining items can be packed in the bins that are left out of `k`. -/
structure Inv (env : Env) (k : Int) (st : State) : Prop where
  len : st.items.length = env.inst.numberOfItemTypes
  pos : ∀ i, i < st.items.length → 0 < (st.item i).x ∧ 0 < (st.item i).y ∧ 0 ≤ (st.item i).copies
  same : ∀ i, i < st.items.length → env.oriented i = false →
    (st.item i).x = (env.inst.itemType i).x ∧ (st.item i).y = (env.inst.itemType i).y
  ded : 0 ≤ st.dedicated
  packs : ∃ bins, (tab env st).Packs env.w env.h bins ∧ (bins.length : Int) + st.dedicated ≤ k

theorem Inv.tabPos {env : Env} {k : Int} {st : State} (h : Inv env k st) : (tab env st).Pos :=
  fun i hi => ⟨(h.pos i hi).1, (h.pos i hi).2.1⟩

theorem item_setItem (st : State) (i j : Nat) (it : WorkItem) :
    (st.setItem i it).item j = if i = j ∧ j < st.items.length then it else st.item j := by
  unfold State.setItem State.item
  simp only [List.getD_eq_getElem?_getD, List.getElem?_set]
  by_cases h : i = j
  · subst h
    by_cases h2 : i < st.items.length
    · simp [h2]
    · simp [h2]
  · simp [h]

theorem item_setItem_self (st : State) {i : Nat} (hi : i < st.items.length) (it : WorkItem) :
    (st.setItem i it).item i = it := by
  rw [item_setItem, if_pos ⟨rfl, hi⟩]

theorem item_setItem_ne (st : State) {i j : Nat} (h : i ≠ j) (it : WorkItem) :
    (st.setItem i it).item j = st.item j := by
  rw [item_setItem, if_neg (fun h' => h h'.1)]

theorem length_setItem (st : State) (i : Nat) (it : WorkItem) :
    (st.setItem i it).items.length = st.items.length := by
  unfold State.setItem; simp

/-- `extract` changes only the companions. -/
theorem extract_ok {it it' : WorkItem} {n : Nat} {e : List (List Companion)}
    (h : extract it n = .ok (e, it')) :
    e.length = n ∧ it'.removed = it.removed ∧ it'.x = it.x ∧ it'.y = it.y
      ∧ it'.copies = it.copies := by
  unfold extract at h
  split_ifs at h with h1 h2
  · cases h; simp
  · cases h; simp [h2]

/-- The reservations are the same. -/
def SameBins (st st' : State) : Prop :=
  st'.fullBins = st.fullBins ∧ st'.pairs = st.pairs ∧ st'.groups = st.groups

theorem SameBins.refl (st : State) : SameBins st st := ⟨rfl, rfl, rfl⟩

theorem SameBins.trans {a b c : State} (h : SameBins a b) (h' : SameBins b c) : SameBins a c :=
  ⟨h'.1.trans h.1, h'.2.1.trans h.2.1, h'.2.2.trans h.2.2⟩

theorem SameBins.dedicated {a b : State} (h : SameBins a b) : b.dedicated = a.dedicated := by
  unfold State.dedicated; rw [h.1, h.2.1, h.2.2]

/-- An item type without copies left. -/
def Dropped (it it' : WorkItem) : Prop :=
  it'.removed = true ∧ it'.x = it.x ∧ it'.y = it.y ∧ it'.copies = 0

/-- Some item types of `S` are dropped, nothing else changes. -/
structure Drops (S : Nat → Prop) (st st' : State) : Prop where
  len : st'.items.length = st.items.length
  bins : SameBins st st'
  item : ∀ k, st'.item k = st.item k ∨ (S k ∧ Dropped (st.item k) (st'.item k))

theorem Drops.refl (S : Nat → Prop) (st : State) : Drops S st st :=
  ⟨rfl, SameBins.refl st, fun _ => Or.inl rfl⟩

theorem Drops.trans {S : Nat → Prop} {a b c : State} (h : Drops S a b) (h' : Drops S b c) :
    Drops S a c := by
  refine ⟨h'.len.trans h.len, h.bins.trans h'.bins, fun k => ?_⟩
  rcases h'.item k with e | ⟨hs, hd⟩
  · rw [e]; exact h.item k
  · rcases h.item k with e2 | ⟨_, hd2⟩
    · right; rw [← e2]; exact ⟨hs, hd⟩
    · right; exact ⟨hs, hd.1, hd.2.1.trans hd2.2.1, hd.2.2.1.trans hd2.2.2.1, hd.2.2.2⟩

theorem Drops.mono {S S' : Nat → Prop} {a b : State} (h : Drops S a b) (hS : ∀ k, S k → S' k) :
    Drops S' a b :=
  ⟨h.len, h.bins, fun k => (h.item k).imp id fun ⟨h1, h2⟩ => ⟨hS k h1, h2⟩⟩

theorem Drops.removed {S : Nat → Prop} {a b : State} (h : Drops S a b) {k : Nat}
    (hk : (a.item k).removed = true) : (b.item k).removed = true := by
  rcases h.item k with e | ⟨_, hd⟩
  · rw [e]; exact hk
  · exact hd.1

/-- The item type of a companion. -/
def Companion.id : Companion → Nat
  | .mk i _ _ _ _ => i

theorem absorb_ok {ap ap' : Apply} {c c' : Companion} (h : absorb ap c = .ok (ap', c'))
    (hc : c.id < ap.st.items.length) :
    c'.id = c.id ∧ Drops (· = c.id) ap.st ap'.st ∧ (ap'.st.item c.id).removed = true := by
  obtain ⟨i, dx, dy, r, ns⟩ := c
  change i < _ at hc
  change _ ∧ Drops (· = i) _ _ ∧ (ap'.st.item i).removed = true
  unfold absorb at h
  obtain ⟨ap1, h1, h2⟩ := bind_ok.mp h
  have key : Drops (· = i) ap.st ap1.st ∧ (ap1.st.item i).removed = true := by
    split_ifs at h1 with hr
    · cases h1; exact ⟨Drops.refl _ _, hr⟩
    · obtain ⟨⟨e, it⟩, he, h1⟩ := bind_ok.mp h1
      cases h1
      obtain ⟨-, -, hx, hy, -⟩ := extract_ok he
      refine ⟨⟨length_setItem _ _ _, ⟨rfl, rfl, rfl⟩, fun k => ?_⟩, ?_⟩
      · by_cases hk : i = k
        · subst hk
          right
          refine ⟨rfl, ?_⟩
          change Dropped _ ((ap.st.setItem i _).item i)
          rw [item_setItem_self _ hc]
          exact ⟨rfl, hx, hy, rfl⟩
        · left
          change (ap.st.setItem i _).item k = _
          rw [item_setItem_ne _ hk]
      · change ((ap.st.setItem i _).item i).removed = true
        rw [item_setItem_self _ hc]
  dsimp only at h2
  split at h2
  · cases h2; exact ⟨rfl, key⟩
  · cases h2

theorem absorbAll_ok {cs cs' : List Companion} : ∀ {ap ap' : Apply},
    absorbAll ap cs = .ok (ap', cs') → (∀ c ∈ cs, c.id < ap.st.items.length) →
    Drops (fun k => ∃ c ∈ cs, c.id = k) ap.st ap'.st
      ∧ ∀ c ∈ cs, (ap'.st.item c.id).removed = true := by
  induction cs generalizing cs' with
  | nil => intro ap ap' h _; cases h; exact ⟨Drops.refl _ _, by simp⟩
  | cons c cs ih =>
    intro ap ap' h hc
    unfold absorbAll at h
    obtain ⟨⟨ap1, c1⟩, h1, h⟩ := bind_ok.mp h
    obtain ⟨⟨ap2, cs2⟩, h2, h⟩ := bind_ok.mp h
    cases h
    obtain ⟨-, d1, r1⟩ := absorb_ok h1 (hc c List.mem_cons_self)
    obtain ⟨d2, r2⟩ := ih h2 (fun c' hc' => by
      rw [d1.len]; exact hc c' (List.mem_cons_of_mem _ hc'))
    refine ⟨(d1.mono fun k hk => ⟨c, List.mem_cons_self, hk.symm⟩).trans
      (d2.mono fun k ⟨c', h3, h4⟩ => ⟨c', List.mem_cons_of_mem _ h3, h4⟩), fun c' hc' => ?_⟩
    rcases List.mem_cons.mp hc' with rfl | h3
    · exact d2.removed r1
    · exact r2 c' h3

theorem absorbCopies_ok {ls ls' : List (List Companion)} : ∀ {ap ap' : Apply},
    absorbCopies ap ls = .ok (ap', ls') →
    (∀ cs ∈ ls, ∀ c ∈ cs, c.id < ap.st.items.length) →
    Drops (fun k => ∃ cs ∈ ls, ∃ c ∈ cs, c.id = k) ap.st ap'.st
      ∧ ∀ cs ∈ ls, ∀ c ∈ cs, (ap'.st.item c.id).removed = true := by
  induction ls generalizing ls' with
  | nil => intro ap ap' h _; cases h; exact ⟨Drops.refl _ _, by simp⟩
  | cons l ls ih =>
    intro ap ap' h hc
    unfold absorbCopies at h
    obtain ⟨⟨ap1, l1⟩, h1, h⟩ := bind_ok.mp h
    obtain ⟨⟨ap2, ls2⟩, h2, h⟩ := bind_ok.mp h
    cases h
    obtain ⟨d1, r1⟩ := absorbAll_ok h1 (hc l List.mem_cons_self)
    obtain ⟨d2, r2⟩ := ih h2 (fun cs hcs c hc' => by
      rw [d1.len]; exact hc cs (List.mem_cons_of_mem _ hcs) c hc')
    refine ⟨(d1.mono fun k ⟨c, h3, h4⟩ => ⟨l, List.mem_cons_self, c, h3, h4⟩).trans
      (d2.mono fun k ⟨cs, h3, h4⟩ => ⟨cs, List.mem_cons_of_mem _ h3, h4⟩), fun cs hcs c hc' => ?_⟩
    rcases List.mem_cons.mp hcs with rfl | h3
    · exact d2.removed (r1 c hc')
    · exact r2 cs h3 c hc'

/-- A big item that takes the whole width (height). -/
def Enlarged (env : Env) (a : Axis) (it it' : WorkItem) : Prop :=
  it'.removed = it.removed ∧ it'.copies = it.copies
    ∧ it'.x = (match a with | .wide => env.w | .tall => it.x)
    ∧ it'.y = (match a with | .wide => it.y | .tall => env.h)

theorem enlarge_ok {env : Env} {a : Axis} {it it' : WorkItem} {cs : List (List Companion)}
    (h : enlarge env a it cs = .ok it') : Enlarged env a it it' := by
  unfold enlarge at h
  dsimp only at h
  split_ifs at h with h1 h2
  · cases h; cases a <;> exact ⟨rfl, rfl, rfl, rfl⟩
  · cases h; cases a <;> exact ⟨rfl, rfl, rfl, rfl⟩

/-- What applying the reduction of a group does: big items of `B` may be enlarged, item types of `S`
may be dropped. -/
structure Applied (env : Env) (a : Axis) (B S : Nat → Prop) (st st' : State) : Prop where
  len : st'.items.length = st.items.length
  bins : SameBins st st'
  item : ∀ k, st'.item k = st.item k ∨ (S k ∧ Dropped (st.item k) (st'.item k))
    ∨ (B k ∧ Enlarged env a (st.item k) (st'.item k))

/-- The loop over the checked big items. -/
theorem applyLoop_ok {env : Env} {a : Axis} {trivial : Bool} {B S : Nat → Prop}
    (hBS : ∀ k, B k → ¬ S k) (l : List (Nat × List (List Companion))) :
    ∀ {acc acc' : Apply × Bool}, l.foldlM (applyOne env a trivial) acc = .ok acc' →
    (l.map Prod.fst).Nodup →
    (∀ p ∈ l, B p.1) →
    (∀ p ∈ l, ∀ cs ∈ p.2, ∀ c ∈ cs, S c.id ∧ c.id < acc.1.st.items.length) →
    Applied env a (fun k => B k ∧ ∃ p ∈ l, p.1 = k) S acc.1.st acc'.1.st
      ∧ ∀ p ∈ l, ∀ cs ∈ p.2, ∀ c ∈ cs, (acc'.1.st.item c.id).removed = true := by
  induction l with
  | nil =>
    intro acc acc' h _ _ _
    cases h
    exact ⟨⟨rfl, SameBins.refl _, fun _ => Or.inl rfl⟩, by simp⟩
  | cons p l ih =>
    intro acc acc' h hnd hB hS
    obtain ⟨acc1, h1, h2⟩ := foldlM_cons_ok.mp h
    rw [List.map_cons, List.nodup_cons] at hnd
    -- the first iteration
    have first : Applied env a (fun k => B k ∧ p.1 = k) S acc.1.st acc1.1.st
        ∧ ∀ cs ∈ p.2, ∀ c ∈ cs, (acc1.1.st.item c.id).removed = true := by
      unfold applyOne at h1
      split_ifs at h1 with hv
      · cases h1
        refine ⟨⟨rfl, SameBins.refl _, fun _ => Or.inl rfl⟩, ?_⟩
        intro cs hcs c hc
        exfalso
        have : validated p.2 = false := by
          cases h3 : validated p.2
          · rfl
          · rw [h3] at hv; simp at hv
        unfold validated at this
        rw [List.any_eq_false] at this
        have := this cs hcs
        cases cs with
        | nil => simp at hc
        | cons _ _ => simp at this
      · obtain ⟨⟨ap, cs'⟩, h3, h1⟩ := bind_ok.mp h1
        obtain ⟨it, h4, h1⟩ := bind_ok.mp h1
        cases h1
        obtain ⟨d, r⟩ := absorbCopies_ok h3 (fun cs hcs c hc =>
          (hS p List.mem_cons_self cs hcs c hc).2)
        have d' : Drops S acc.1.st ap.st := d.mono fun k ⟨cs, hcs, c, hc, he⟩ =>
          he ▸ (hS p List.mem_cons_self cs hcs c hc).1
        have hpB := hB p List.mem_cons_self
        have hpS := hBS _ hpB
        have hit := enlarge_ok h4
        refine ⟨⟨?_, ?_, fun k => ?_⟩, ?_⟩
        · change (ap.st.setItem p.1 it).items.length = _
          rw [length_setItem, d.len]
        · exact ⟨d.bins.1, d.bins.2.1, d.bins.2.2⟩
        · change (ap.st.setItem p.1 it).item k = _ ∨ (_ ∧ Dropped _ ((ap.st.setItem p.1 it).item k))
            ∨ (_ ∧ Enlarged _ _ _ ((ap.st.setItem p.1 it).item k))
          rw [item_setItem]
          split_ifs with hk
          · right; right
            obtain ⟨rfl, -⟩ := hk
            refine ⟨⟨hpB, rfl⟩, ?_⟩
            rcases d'.item p.1 with e | ⟨hs, -⟩
            · rw [← e]; exact hit
            · exact absurd hs hpS
          · rcases d'.item k with e | hh
            · left; exact e
            · right; left; exact hh
        · intro cs hcs c hc
          change ((ap.st.setItem p.1 it).item c.id).removed = true
          have hne : p.1 ≠ c.id := by
            intro e
            exact hpS (e ▸ (hS p List.mem_cons_self cs hcs c hc).1)
          rw [item_setItem_ne _ hne]
          exact r cs hcs c hc
    obtain ⟨f1, f2⟩ := first
    obtain ⟨g1, g2⟩ := ih h2 hnd.2 (fun q hq => hB q (List.mem_cons_of_mem _ hq))
      (fun q hq cs hcs c hc => by
        have := hS q (List.mem_cons_of_mem _ hq) cs hcs c hc
        exact ⟨this.1, by rw [f1.len]; exact this.2⟩)
    refine ⟨⟨g1.len.trans f1.len, f1.bins.trans g1.bins, fun k => ?_⟩, ?_⟩
    · rcases g1.item k with e | ⟨hs, hd⟩ | ⟨⟨hb, q, hq, hqk⟩, he⟩
      · rw [e]
        rcases f1.item k with e2 | h3 | ⟨⟨hb, hpk⟩, he⟩
        · exact Or.inl e2
        · exact Or.inr (Or.inl h3)
        · exact Or.inr (Or.inr ⟨⟨hb, p, List.mem_cons_self, hpk⟩, he⟩)
      · right; left
        rcases f1.item k with e2 | ⟨_, hd2⟩ | ⟨⟨hb, _⟩, _⟩
        · rw [← e2]; exact ⟨hs, hd⟩
        · exact ⟨hs, hd.1, hd.2.1.trans hd2.2.1, hd.2.2.1.trans hd2.2.2.1, hd.2.2.2⟩
        · exact absurd hs (hBS _ hb)
      · right; right
        rcases f1.item k with e2 | ⟨hs, _⟩ | ⟨⟨_, hpk⟩, _⟩
        · rw [← e2]; exact ⟨⟨hb, q, List.mem_cons_of_mem _ hq, hqk⟩, he⟩
        · exact absurd hs (hBS _ hb)
        · exfalso
          apply hnd.1
          rw [hpk, ← hqk]
          exact List.mem_map_of_mem hq
    · intro q hq cs hcs c hc
      rcases List.mem_cons.mp hq with rfl | hq'
      · have hr := f2 cs hcs c hc
        rcases g1.item c.id with e | ⟨_, hd⟩ | ⟨⟨hb, _⟩, _⟩
        · rw [e]; exact hr
        · exact hd.1
        · exact absurd (hS q List.mem_cons_self cs hcs c hc).1 (hBS _ hb)
      · exact g2 q hq' cs hcs c hc

end PackingSolver.Rect.Reduction
