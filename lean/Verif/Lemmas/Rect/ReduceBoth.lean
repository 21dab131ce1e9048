import Verif.Lemmas.Rect.ReduceGroup

/-!
# The reduction of items that are big on both axes keeps the invariant
-/

namespace PackingSolver.Rect.Reduction

open Rect.Spec

variable {env : Env} {k : Int} {st st' : State}

/-- The item types that must not be turned, of a state. -/
theorem bothBig_placed (hN : NoTurning env.inst env.w env.h) (hI : Inv env k st) {i : Nat}
    (hi : i < st.items.length) (hb : bothBig env i (st.item i) = true) {p : PlacedItem}
    (hp : p.itemTypeId = i) (hr : p.rotate = true → env.oriented i = false)
    (hin : Inside env.w env.h ((tab env st).occ p)) :
    env.w < 2 * (tab env st).wd p ∧ env.h < 2 * (tab env st).ht p := by
  have hpos := hI.pos i hi
  unfold bothBig at hb
  rw [Bool.or_eq_true, Bool.and_eq_true, decide_eq_true_eq, decide_eq_true_eq] at hb
  unfold Inside Tab.occ at hin
  simp only at hin
  unfold Tab.wd Tab.ht at hin ⊢
  rw [hp] at hin ⊢
  change _ ∧ _ ∧ _ ∧ _ at hin
  simp only [show (tab env st).w i = (st.item i).x from rfl,
    show (tab env st).h i = (st.item i).y from rfl] at hin ⊢
  cases ho : env.oriented i
  · have hs := hI.same i hi ho
    have hmem : env.inst.itemType i ∈ env.inst.itemTypes := by
      unfold Instance.itemType
      rw [hI.len] at hi
      rw [List.getD_eq_getElem _ _ hi]; exact List.getElem_mem hi
    have hn := hN _ hmem ho
    rw [← hs.1, ← hs.2] at hn
    have hn := hn (by
      rcases hb with h | h
      · left; exact ⟨by omega, by omega⟩
      · right; exact ⟨by omega, by omega⟩)
    cases hpr : p.rotate
    · rw [hpr] at hin
      simp only [Bool.false_eq_true, if_false] at hin ⊢
      exact hn.1 (by omega) (by omega)
    · rw [hpr] at hin
      simp only [if_true] at hin ⊢
      exact hn.2 (by omega) (by omega)
  · have hpr : p.rotate = false := by
      by_contra h
      have := hr (by simpa using h)
      rw [ho] at this; exact absurd this (by simp)
    rw [hpr]
    simp only [Bool.false_eq_true, if_false]
    rcases hb with h | ⟨h, -⟩
    · omega
    · rw [ho] at h; simp at h

/-- Which item types may share a bin with a big one. -/
theorem not_together (hN : NoTurning env.inst env.w env.h) (hI : Inv env k st) {bigs : List Nat}
    (hb : ∀ i ∈ bigs, i < st.items.length ∧ bothBig env i (st.item i) = true)
    {b : List PlacedItem} (hg : (tab env st).Good env.w env.h b) {p q : PlacedItem} (hpb : p ∈ b)
    (hqb : q ∈ b) (hne : p ≠ q) (hp : p.itemTypeId ∈ bigs) :
    q.itemTypeId ∉ bigs
      ∧ couldFitBoth env p.itemTypeId (st.item p.itemTypeId) q.itemTypeId (st.item q.itemTypeId)
        = true := by
  have hs := hg.sep hpb hqb hne
  have hip := hg.inside p hpb
  have hiq := hg.inside q hqb
  have hq1 := hI.tabPos.wd_pos (hg.exist q hqb)
  have hq2 := hI.tabPos.ht_pos (hg.exist q hqb)
  have hbp := bothBig_placed hN hI (hb _ hp).1 (hb _ hp).2 rfl (hg.rotation p hpb) hip
  constructor
  · intro hqm
    have hbq := bothBig_placed hN hI (hb _ hqm).1 (hb _ hqm).2 rfl (hg.rotation q hqb) hiq
    unfold Inside Tab.occ at hip hiq
    unfold Separated Tab.occ at hs
    simp only at hip hiq hs
    omega
  · have hrp := hg.rotation p hpb
    have hrq := hg.rotation q hqb
    change p.rotate = true → env.oriented p.itemTypeId = false at hrp
    change q.rotate = true → env.oriented q.itemTypeId = false at hrq
    unfold Inside Tab.occ at hip hiq
    unfold Separated Tab.occ at hs
    simp only at hip hiq hs
    unfold Tab.wd Tab.ht at hip hiq hs
    simp only [show ∀ i, (tab env st).w i = (st.item i).x from fun _ => rfl,
      show ∀ i, (tab env st).h i = (st.item i).y from fun _ => rfl] at hip hiq hs
    unfold couldFitBoth
    dsimp only
    cases hpr : p.rotate <;> cases hqr : q.rotate <;>
      rw [hpr] at hip hs hrp <;> rw [hqr] at hiq hs hrq <;>
      simp only [Bool.false_eq_true, if_false, if_true] at hip hiq hs
    · rw [if_neg (by simp; omega), List.any_eq_true]
      refine ⟨false, by split_ifs <;> simp, ?_⟩
      simp only [Bool.false_eq_true, if_false]
      rw [if_neg (by omega), Bool.or_eq_true, Bool.and_eq_true]
      left; simp only [decide_eq_true_eq]; omega
    · have ho := hrq rfl
      rw [if_neg (by rw [ho]; simp; omega), List.any_eq_true]
      refine ⟨false, by split_ifs <;> simp, ?_⟩
      simp only [Bool.false_eq_true, if_false]
      rw [if_neg (by omega), Bool.or_eq_true, Bool.and_eq_true, Bool.and_eq_true]
      right; rw [ho]; simp only [decide_eq_true_eq, Bool.and_eq_true]
      exact ⟨⟨rfl, by omega⟩, by omega⟩
    · have ho := hrp rfl
      rw [if_neg (by simp; omega), List.any_eq_true]
      refine ⟨true, by rw [ho]; simp, ?_⟩
      simp only [if_true]
      rw [if_neg (by omega), Bool.or_eq_true, Bool.and_eq_true]
      left; simp only [decide_eq_true_eq]; omega
    · have ho := hrp rfl
      have ho2 := hrq rfl
      rw [if_neg (by rw [ho2]; simp; omega), List.any_eq_true]
      refine ⟨true, by rw [ho]; simp, ?_⟩
      simp only [if_true]
      rw [if_neg (by omega), Bool.or_eq_true, Bool.and_eq_true, Bool.and_eq_true]
      right; rw [ho2]; simp only [decide_eq_true_eq, Bool.and_eq_true]
      exact ⟨⟨rfl, by omega⟩, by omega⟩

/-- Item types of `B` are packed in reserved bins, item types of `S` are dropped; `m` bins are
reserved. -/
structure Captured (B S : Nat → Prop) (m : Int) (st st' : State) : Prop where
  len : st'.items.length = st.items.length
  dedicated : st'.dedicated = st.dedicated + m
  sizes : ∀ i, (st'.item i).x = (st.item i).x ∧ (st'.item i).y = (st.item i).y
  copies : ∀ i, 0 ≤ (st.item i).copies → 0 ≤ (st'.item i).copies
  removed : ∀ i, (st.item i).removed = true → (st'.item i).removed = true
  gone : ∀ i, B i ∨ S i → (st'.item i).removed = true ∨ (st'.item i).copies = 0
  kept : ∀ i, ¬ B i → ¬ S i → (st'.item i).removed = (st.item i).removed
    ∧ ((st.item i).removed = false → (st'.item i).copies = (st.item i).copies)

theorem Captured.grow {B S : Nat → Prop} {m : Int} (h : Captured B S m st st') :
    Grow env st st' := by
  refine ⟨h.len, fun i => ?_⟩
  cases hr : (st'.item i).removed
  · right
    refine ⟨?_, by rw [(h.sizes i).1], by rw [(h.sizes i).2], fun _ => h.sizes i⟩
    by_contra hc
    have := h.removed i (by simpa using hc)
    rw [this] at hr; exact absurd hr (by simp)
  · left; rfl

/-- **The geometric step**: reserving bins for items that share their bins only with dropped items
keeps the invariant. -/
theorem captured_inv {ids : List Nat} {S : Nat → Prop} [DecidablePred S] {m : Int}
    (hI : Inv env k st) (hC : Captured (· ∈ ids) S m st st') (hnd : ids.Nodup)
    (hids : ∀ i ∈ ids, i < st.items.length)
    (hm : m = (ids.map (tab env st).c).sum)
    (hX : ∀ b, (tab env st).Good env.w env.h b → ∀ p ∈ b, ∀ q ∈ b, p ≠ q → p.itemTypeId ∈ ids →
      q.itemTypeId ∉ ids ∧ ((tab env st).c q.itemTypeId ≠ 0 → S q.itemTypeId)) :
    Inv env k st' := by
  classical
  refine ⟨hC.len.trans hI.len, ?_, ?_, ?_, ?_⟩
  · intro i hi
    rw [hC.len] at hi
    have := hI.pos i hi
    rw [(hC.sizes i).1, (hC.sizes i).2]
    exact ⟨this.1, this.2.1, hC.copies i this.2.2⟩
  · intro i hi ho
    rw [hC.len] at hi
    rw [(hC.sizes i).1, (hC.sizes i).2]
    exact hI.same i hi ho
  · obtain ⟨bins, hp, hle⟩ := hI.packs
    have hnum := hp.number_eq ids hnd hids
    have h0 := hI.ded
    rw [hC.dedicated, hm, ← hnum]
    omega
  · obtain ⟨bins, hp, hle⟩ := hI.packs
    obtain ⟨bins', hp', hl'⟩ := hp.capture (T' := tab env st') hI.tabPos (· ∈ ids)
      (fun i => i ∉ ids ∧ (S i ∨ (tab env st).c i = 0)) (fun i h1 h2 => h2.1 h1)
      (by
        intro b hg p hpb q hqb hne hpi
        obtain ⟨h1, h2⟩ := hX b hg p hpb q hqb hne hpi
        refine ⟨h1, ?_⟩
        by_cases h0 : (tab env st).c q.itemTypeId = 0
        · exact Or.inr h0
        · exact Or.inl (h2 h0))
      hC.len (fun i _ _ _ => ⟨(hC.sizes i).1, (hC.sizes i).2, rfl⟩)
      (by
        intro i hi
        change (if (st'.item i).removed then 0 else (st'.item i).copies) = _
        split_ifs with h1 h2 h2
        · rfl
        · have h3 : ¬ S i := fun h => h2 (by
            by_cases hb : i ∈ ids
            · exact Or.inl hb
            · exact Or.inr ⟨hb, Or.inl h⟩)
          have h4 := hC.kept i (fun h => h2 (Or.inl h)) h3
          rw [h4.1] at h1
          change (0 : Int) = if (st.item i).removed then 0 else (st.item i).copies
          rw [if_pos h1]
        · by_cases h3 : i ∈ ids ∨ S i
          · rcases hC.gone i h3 with h | h
            · exact absurd h h1
            · exact h
          · have h4 := hC.kept i (fun h => h3 (Or.inl h)) (fun h => h3 (Or.inr h))
            rw [h4.1] at h1
            have h5 : (st.item i).removed = false := by simpa using h1
            rw [h4.2 h5]
            rcases h2 with h2 | ⟨-, h2 | h2⟩
            · exact absurd (Or.inl h2) h3
            · exact absurd (Or.inr h2) h3
            · change (if (st.item i).removed then 0 else (st.item i).copies) = 0 at h2
              rw [if_neg h1] at h2; exact h2
        · have h3 : ¬ S i := fun h => h2 (by
            by_cases hb : i ∈ ids
            · exact Or.inl hb
            · exact Or.inr ⟨hb, Or.inl h⟩)
          have h4 := hC.kept i (fun h => h2 (Or.inl h)) h3
          rw [h4.1] at h1
          change _ = if (st.item i).removed then 0 else (st.item i).copies
          rw [if_neg h1, h4.2 (by simpa using h1)])
    have hnum := hp.number_eq ids hnd hids
    refine ⟨bins', hp', ?_⟩
    rw [hC.dedicated, hm, ← hnum]
    have : (bins'.length : Int) + (Tab.number (· ∈ ids) bins.flatten : Int) = bins.length := by
      exact_mod_cast hl'
    omega

/-! ## Big items that share a bin with nothing -/

theorem dedicated_groups (st : State) (gs : List (List GroupItem)) :
    ({ st with groups := st.groups ++ gs } : State).dedicated = st.dedicated + gs.length := by
  unfold State.dedicated
  simp only [List.length_append]; push_cast; omega

theorem dedicated_setItem (st : State) (i : Nat) (it : WorkItem) :
    (st.setItem i it).dedicated = st.dedicated := rfl

theorem dedicated_fullBins (st : State) (f : FullBinItem) :
    ({ st with fullBins := st.fullBins ++ [f] } : State).dedicated = st.dedicated + f.copies := by
  unfold State.dedicated
  simp only [List.foldl_append, List.foldl_cons, List.foldl_nil]; omega

theorem dedicated_pairs (st : State) (p : PerfectPair) :
    ({ st with pairs := st.pairs ++ [p] } : State).dedicated = st.dedicated + p.copies := by
  unfold State.dedicated
  simp only [List.foldl_append, List.foldl_cons, List.foldl_nil]; omega

/-- One item type is removed. -/
theorem captured_one {i : Nat} (hi : i < st.items.length) {it' : WorkItem} {m : Int}
    {st1 : State} (h1 : it'.removed = true) (hx : it'.x = (st.item i).x)
    (hy : it'.y = (st.item i).y) (hc : 0 ≤ it'.copies)
    (hitems : st1.items = (st.setItem i it').items) (hd : st1.dedicated = st.dedicated + m) :
    Captured (· ∈ [i]) (fun _ => False) m st st1 := by
  have hitem : ∀ j, st1.item j = (st.setItem i it').item j := by
    intro j; unfold State.item; rw [hitems]
  refine ⟨by rw [hitems]; exact length_setItem _ _ _, hd, fun j => ?_, fun j hj => ?_,
    fun j hj => ?_, fun j hj => ?_, fun j hj _ => ?_⟩ <;> rw [hitem j, item_setItem]
  · split_ifs with h
    · obtain ⟨rfl, -⟩ := h; exact ⟨hx, hy⟩
    · exact ⟨rfl, rfl⟩
  · split_ifs
    · exact hc
    · exact hj
  · split_ifs
    · exact h1
    · exact hj
  · have e : j = i := by simpa using hj
    subst e
    rw [if_pos ⟨rfl, hi⟩]; exact Or.inl h1
  · have e : j ≠ i := by simpa using hj
    rw [if_neg (fun h => e h.1.symm)]; exact ⟨rfl, fun _ => rfl⟩

theorem captureOne_inv (hN : NoTurning env.inst env.w env.h) {bigs : List Nat} {i : Nat}
    {acc acc' : State × Bool} (hi : i ∈ bigs) (hI : Inv env k acc.1)
    (hb : ∀ j ∈ bigs, j < acc.1.items.length ∧ bothBig env j (acc.1.item j) = true)
    (hrem : (acc.1.item i).removed = false)
    (hno : ∀ j, j < acc.1.items.length → (acc.1.item j).removed = false → j ∉ bigs →
      ∀ b ∈ bigs, couldFitBoth env b (acc.1.item b) j (acc.1.item j) = false)
    (h : captureOne env acc i = .ok acc') :
    Inv env k acc'.1 ∧ Grow env acc.1 acc'.1
      ∧ (∀ j, (acc'.1.item j).x = (acc.1.item j).x ∧ (acc'.1.item j).y = (acc.1.item j).y)
      ∧ ∀ j, j ≠ i → (acc'.1.item j).removed = (acc.1.item j).removed := by
  unfold captureOne at h
  dsimp only at h
  split at h
  · cases h; exact ⟨hI, Grow.refl _ _, fun _ => ⟨rfl, rfl⟩, fun _ _ => rfl⟩
  · rename_i r _
    split_ifs at h with hc
    · cases h; exact ⟨hI, Grow.refl _ _, fun _ => ⟨rfl, rfl⟩, fun _ _ => rfl⟩
    · obtain ⟨⟨prior, it'⟩, he, h⟩ := bind_ok.mp h
      cases h
      obtain ⟨hl, -, hx, hy, -⟩ := extract_ok he
      have hpos := hI.pos i (hb i hi).1
      have hC := captured_one (st := acc.1) (m := (acc.1.item i).copies) (hb i hi).1
        (it' := { it' with copies := 0, removed := true })
        (st1 := { acc.1.setItem i { it' with copies := 0, removed := true } with
          groups := (acc.1.setItem i { it' with copies := 0, removed := true }).groups
            ++ prior.map fun cs => [⟨i, 0, 0, r, cs⟩] })
        rfl hx hy (le_refl _) rfl (by
          rw [dedicated_groups, List.length_map, hl, dedicated_setItem]; omega)
      refine ⟨captured_inv hI hC (List.nodup_singleton i)
        (by intro j hj; rw [List.mem_singleton.mp hj]; exact (hb i hi).1)
        (by
          simp only [List.map_cons, List.map_nil, List.sum_cons, List.sum_nil, Int.add_zero]
          change _ = if (acc.1.item i).removed then 0 else (acc.1.item i).copies
          rw [hrem]; rfl)
        ?_, hC.grow, hC.sizes, ?_⟩
      · intro b hg p hpb q hqb hne hpi
        have hpi : p.itemTypeId = i := by simpa using hpi
        have hpm : p.itemTypeId ∈ bigs := hpi ▸ hi
        obtain ⟨h1, h2⟩ := not_together hN hI hb hg hpb hqb hne hpm
        refine ⟨fun hm => h1 (by rw [List.mem_singleton.mp hm]; exact hi), fun hc0 => ?_⟩
        have hqr : (acc.1.item q.itemTypeId).removed = false := by
          by_contra hh
          apply hc0
          change (if (acc.1.item q.itemTypeId).removed then 0 else _) = 0
          rw [if_pos (by simpa using hh)]
        have := hno q.itemTypeId (hg.exist q hqb) hqr h1 p.itemTypeId hpm
        rw [this] at h2; exact absurd h2 (by simp)
      · intro j hj
        exact (hC.kept j (by simpa using hj) (fun h => h)).1

theorem couldFitBoth_congr {b j : Nat} {big big' it it' : WorkItem} (h1 : big'.x = big.x)
    (h2 : big'.y = big.y) (h3 : it'.x = it.x) (h4 : it'.y = it.y) :
    couldFitBoth env b big' j it' = couldFitBoth env b big j it := by
  unfold couldFitBoth; rw [h1, h2, h3, h4]

theorem bothBig_congr {j : Nat} {it it' : WorkItem} (h3 : it'.x = it.x) (h4 : it'.y = it.y) :
    bothBig env j it' = bothBig env j it := by
  unfold bothBig; rw [h3, h4]

theorem captureAll_inv (hN : NoTurning env.inst env.w env.h) {bigs : List Nat} (l : List Nat) :
    ∀ {acc acc' : State × Bool}, l.foldlM (captureOne env) acc = .ok acc' → l.Nodup →
    (∀ i ∈ l, i ∈ bigs ∧ (acc.1.item i).removed = false) → Inv env k acc.1 →
    (∀ j ∈ bigs, j < acc.1.items.length ∧ bothBig env j (acc.1.item j) = true) →
    (∀ j, j < acc.1.items.length → (acc.1.item j).removed = false → j ∉ bigs →
      ∀ b ∈ bigs, couldFitBoth env b (acc.1.item b) j (acc.1.item j) = false) →
    Inv env k acc'.1 ∧ Grow env acc.1 acc'.1 := by
  induction l with
  | nil => intro acc acc' h _ _ hI _ _; cases h; exact ⟨hI, Grow.refl _ _⟩
  | cons i l ih =>
    intro acc acc' h hnd hl hI hb hno
    obtain ⟨acc1, h1, h2⟩ := foldlM_cons_ok.mp h
    rw [List.nodup_cons] at hnd
    obtain ⟨i1, i2, i3, i4⟩ := captureOne_inv hN (hl i List.mem_cons_self).1 hI hb
      (hl i List.mem_cons_self).2 hno h1
    obtain ⟨j1, j2⟩ := ih h2 hnd.2
      (fun j hj => ⟨(hl j (List.mem_cons_of_mem _ hj)).1, by
        rw [i4 j (fun e => hnd.1 (e ▸ hj))]; exact (hl j (List.mem_cons_of_mem _ hj)).2⟩)
      i1
      (fun j hj => ⟨by rw [i2.len]; exact (hb j hj).1, by
        rw [bothBig_congr (i3 j).1 (i3 j).2]; exact (hb j hj).2⟩)
      (by
        intro j hj hr hjb b hbb
        rw [couldFitBoth_congr (i3 b).1 (i3 b).2 (i3 j).1 (i3 j).2]
        exact hno j (by rw [← i2.len]; exact hj) (i2.removed hr) hjb b hbb)
    exact ⟨j1, i2.trans j2⟩

end PackingSolver.Rect.Reduction
