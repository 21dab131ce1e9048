import Verif.Lemmas.Rect.ReduceCount

/-!
# How often the reduction uses an item: groups, full bins and pairs
-/

namespace PackingSolver.Rect.Reduction

open Rect.Spec

variable {env : Env} {st st' : State} {inst : Instance} {j : Nat} {k : Int}

theorem total_groups (gs : List (List GroupItem)) : total j { st with groups := gs } = total j st := rfl
theorem total_full (fs : List FullBinItem) : total j { st with fullBins := fs } = total j st := rfl
theorem total_pairs (ps : List PerfectPair) : total j { st with pairs := ps } = total j st := rfl

theorem load_live {i : Nat} {it : WorkItem} (h : it.removed = false) :
    load j i it = (if i = j then it.copies else 0) + cws j it.companions := by
  unfold load; rw [h]; rfl

theorem load_removed {i : Nat} {it : WorkItem} (h : it.removed = true) :
    load j i it = cws j it.companions := by
  unfold load; rw [h]; simp

/-! ## Capturing big items -/

theorem captureOne_count {acc acc' : State × Bool} {i : Nat} (h : captureOne env acc i = .ok acc')
    (hi : i < acc.1.items.length) (hr : (acc.1.item i).removed = false) (hN : NonNeg acc.1) :
    NonNeg acc'.1 ∧ acc'.1.items.length = acc.1.items.length
      ∧ (∀ l, l ≠ i → acc'.1.item l = acc.1.item l) ∧ ∀ j, allUses j acc'.1 ≤ allUses j acc.1 := by
  unfold captureOne at h
  dsimp only at h
  split at h
  · cases h; exact ⟨hN, rfl, fun _ _ => rfl, fun _ => le_refl _⟩
  · rename_i r hro
    split_ifs at h with h1
    · cases h; exact ⟨hN, rfl, fun _ _ => rfl, fun _ => le_refl _⟩
    · obtain ⟨⟨e, it'⟩, h2, h⟩ := bind_ok.mp h
      cases h
      refine ⟨hN.set (by simp), length_setItem _ _ _,
        fun l hl => item_setItem_ne _ (Ne.symm hl) _, fun j => ?_⟩
      have p2 := extract_count (i := i) h2 j
      have p3 := hN i
      rw [Int.toNat_of_nonneg p3] at p2
      unfold allUses
      rw [total_groups, total_set hi, load_live hr, load_removed (it := { it' with copies := 0, removed := true }) rfl]
      have e1 : dedicatedUses j { (acc.1.setItem i { it' with copies := 0, removed := true }) with
          groups := acc.1.groups ++ e.map fun cs => [⟨i, 0, 0, r, cs⟩] }
          = dedicatedUses j acc.1 + ews j i e := by
        unfold dedicatedUses
        dsimp only [State.setItem]
        rw [List.map_append, List.sum_append, List.map_map]
        have : ((fun g => count (groupContents g) j) ∘ fun cs => [(⟨i, 0, 0, r, cs⟩ : GroupItem)])
            = ew j i := by
          funext cs
          simp only [Function.comp_apply, groupContents, List.flatMap_cons, List.flatMap_nil,
            List.append_nil]
          exact count_place _ _ _ _ _ _
        rw [this]
        unfold ews
        omega
      change _ + dedicatedUses j { (acc.1.setItem i { it' with copies := 0, removed := true }) with
          groups := acc.1.groups ++ e.map fun cs => [⟨i, 0, 0, r, cs⟩] } ≤ _
      rw [e1]
      dsimp only
      omega

theorem captureAll_count (l : List Nat) : ∀ {acc acc' : State × Bool},
    l.foldlM (captureOne env) acc = .ok acc' → l.Nodup →
    (∀ i ∈ l, i < acc.1.items.length ∧ (acc.1.item i).removed = false) → NonNeg acc.1 →
    ∀ j, allUses j acc'.1 ≤ allUses j acc.1 := by
  induction l with
  | nil => intro acc acc' h _ _ _ j; cases h; exact le_refl _
  | cons i l ih =>
    intro acc acc' h hnd hl hN j
    obtain ⟨acc1, h1, h2⟩ := foldlM_cons_ok.mp h
    rw [List.nodup_cons] at hnd
    obtain ⟨a1, a2, a3, a4⟩ := captureOne_count h1 (hl i List.mem_cons_self).1
      (hl i List.mem_cons_self).2 hN
    refine (ih h2 hnd.2 (fun x hx => ?_) a1 j).trans (a4 j)
    have := hl x (List.mem_cons_of_mem _ hx)
    rw [a2, a3 x (fun e => hnd.1 (e ▸ hx))]
    exact this

/-! ## Groups read off a check -/

theorem readGroup_once {bigs rs : List Nat} (hdis : ∀ i ∈ rs, i ∉ bigs) {big : Nat}
    (hbig : big < bigs.length) :
    ∀ {items : List PlacedItem} {g : List GroupItem}, readGroup bigs rs big items = some g →
    g.countP (fun p => decide (p.itemTypeId = bigs[big]))
      ≤ items.countP (fun p => decide (p.itemTypeId < bigs.length)) := by
  intro items
  induction items with
  | nil =>
    intro g h
    unfold readGroup at h
    rw [List.mapM_nil] at h
    cases h; exact le_refl _
  | cons p items ih =>
    intro g h
    unfold readGroup at h
    rw [List.mapM_cons] at h
    obtain ⟨c, h1, h⟩ := Option.bind_eq_some_iff.mp h
    obtain ⟨g1, h2, h⟩ := Option.bind_eq_some_iff.mp h
    cases h
    have := ih h2
    rw [List.countP_cons, List.countP_cons]
    split_ifs at h1 with c1 c2 c3
    · cases h1
      have e : decide (p.itemTypeId < bigs.length) = true := by rw [c1]; simpa using hbig
      rw [e]
      refine Nat.add_le_add this ?_
      rw [if_pos rfl]
      exact le_trans (ite_le_sup _ _ _) (by simp)
    · cases h1
      have : ¬ rs.getD (p.itemTypeId - bigs.length) 0 = bigs[big] := by
        intro e
        rw [List.getD_eq_getElem _ _ c3] at e
        exact hdis _ (List.getElem_mem c3) (e ▸ List.getElem_mem hbig)
      simp only [this, decide_false, Bool.false_eq_true, if_false]
      exact le_trans (ih h2) (Nat.le_add_right _ _)

theorem readCheckBoth_once {bigs rs : List Nat} (hdis : ∀ i ∈ rs, i ∉ bigs) (sol : List PackedBin)
    (hb : ∀ b ∈ sol, b.items.countP (fun p => decide (p.itemTypeId < bigs.length)) ≤ 1) :
    ∀ {acc groups : List (List (List GroupItem))},
    sol.foldlM (fun acc b =>
      match (b.items.find? fun p => decide (p.itemTypeId < bigs.length)) with
      | none => some acc
      | some p => do
        let g ← readGroup bigs rs p.itemTypeId b.items
        some (acc.modify p.itemTypeId (· ++ List.replicate b.copies.toNat g))) acc = some groups →
    (∀ (i : Nat) (hi : i < bigs.length), ∀ g ∈ acc.getD i [],
      g.countP (fun p => decide (p.itemTypeId = bigs[i])) ≤ 1) →
    ∀ (i : Nat) (hi : i < bigs.length), ∀ g ∈ groups.getD i [],
      g.countP (fun p => decide (p.itemTypeId = bigs[i])) ≤ 1 := by
  induction sol with
  | nil => intro acc groups h ha; cases h; exact ha
  | cons b sol ih =>
    intro acc groups h ha
    rw [List.foldlM_cons] at h
    cases hf : b.items.find? (fun p => decide (p.itemTypeId < bigs.length)) with
    | none =>
      rw [hf] at h
      exact ih (fun c hc => hb c (List.mem_cons_of_mem _ hc)) h ha
    | some p =>
      rw [hf] at h
      dsimp only at h
      cases hg : readGroup bigs rs p.itemTypeId b.items with
      | none => rw [hg] at h; cases h
      | some g =>
        rw [hg] at h
        have h : sol.foldlM _ (acc.modify p.itemTypeId (· ++ List.replicate b.copies.toNat g))
          = some groups := h
        refine ih (fun c hc => hb c (List.mem_cons_of_mem _ hc)) h (fun i hi x hx => ?_)
        rw [List.getD_eq_getElem?_getD, List.getElem?_modify] at hx
        by_cases e : p.itemTypeId = i
        · subst e
          cases hq : acc[p.itemTypeId]? with
          | none => rw [hq] at hx; simp at hx
          | some l =>
            rw [hq] at hx
            simp only [Option.map_eq_map, Option.map_some, Option.getD_some, if_true] at hx
            rcases List.mem_append.mp hx with h4 | h4
            · refine ha _ hi x ?_
              rw [List.getD_eq_getElem?_getD, hq]; exact h4
            · rw [List.eq_of_mem_replicate h4]
              exact (readGroup_once hdis hi hg).trans (hb b List.mem_cons_self)
        · simp only [if_neg e] at hx
          refine ha i hi x ?_
          rw [List.getD_eq_getElem?_getD]
          simpa using hx

theorem removeAll_count (l : List Nat) :
    ∀ {acc acc' : State × List (List (List Companion))}, l.foldlM removeAll acc = .ok acc' →
    l.Nodup → (∀ i ∈ l, i < acc.1.items.length ∧ (acc.1.item i).removed = false) →
    NonNeg acc.1 → ∀ next j, total j acc'.1 + pending j acc'.1.items.length acc'.2 next
      ≤ total j acc.1 + pending j acc.1.items.length acc.2 next := by
  induction l with
  | nil => intro acc acc' h _ _ _ next j; cases h; exact le_refl _
  | cons i l ih =>
    intro acc acc' h hnd hl hN next j
    obtain ⟨acc1, h1, h2⟩ := foldlM_cons_ok.mp h
    rw [List.nodup_cons] at hnd
    unfold removeAll at h1
    obtain ⟨⟨e, it'⟩, he, h1⟩ := bind_ok.mp h1
    cases h1
    obtain ⟨hi, hr⟩ := hl i List.mem_cons_self
    have step := ih h2 hnd.2 (fun x hx => by
      have := hl x (List.mem_cons_of_mem _ hx)
      dsimp only
      rw [length_setItem, item_setItem_ne _ (fun e : i = x => hnd.1 (e ▸ hx))]
      exact this) (hN.set (by simp)) next j
    refine step.trans ?_
    dsimp only
    rw [length_setItem, total_set hi, load_live hr,
      load_removed (it := { it' with copies := 0, removed := true }) rfl]
    have p1 := pending_set_prior (j := j) (prior := acc.2) (next := next) (e := e) hi
    have p2 := extract_count (i := i) he j
    rw [Int.toNat_of_nonneg (hN i)] at p2
    dsimp only
    omega

theorem dressGroup_count {big n : Nat} {cs : List Companion} {prior : List (List (List Companion))} :
    ∀ {g g' : List GroupItem} {next next' : List Nat},
    dressGroup big cs prior next g = .ok (next', g') → next.length = n →
    (∀ p ∈ g, p.itemTypeId < n) →
    next'.length = n ∧ ∀ j, count (groupContents g') j + pending j n prior next'
      ≤ pending j n prior next
        + (g.countP (fun p => decide (p.itemTypeId = big)) : Int) * ew j big cs := by
  intro g
  induction g with
  | nil =>
    intro g' next next' h hn _; cases h
    exact ⟨hn, fun j => by simp [groupContents, count]⟩
  | cons p g ih =>
    intro g' next next' h hn hg
    unfold dressGroup at h
    obtain ⟨⟨next1, p1⟩, h1, h⟩ := bind_ok.mp h
    obtain ⟨⟨next2, g2⟩, h2, h⟩ := bind_ok.mp h
    cases h
    have first : next1.length = n ∧ ∀ j,
        count (place p1.itemTypeId p1.x p1.y p1.rotate p1.companions) j + pending j n prior next1
          ≤ pending j n prior next + (if p.itemTypeId = big then 1 else 0) * ew j big cs := by
      split_ifs at h1 with c1
      · cases h1
        refine ⟨hn, fun j => ?_⟩
        dsimp only; rw [count_place, if_pos c1, c1, Int.one_mul]; omega
      · dsimp only at h1
        split at h1
        · rename_i x hx
          cases h1
          refine ⟨by rw [List.length_set]; exact hn, fun j => ?_⟩
          have hp := hg p List.mem_cons_self
          rw [pending_take hp (by rw [hn]; exact hp) hx, count_place, if_neg c1]
          dsimp only
          omega
        · cases h1
    obtain ⟨i1, i2⟩ := ih h2 first.1 (fun q hq => hg q (List.mem_cons_of_mem _ hq))
    refine ⟨i1, fun j => ?_⟩
    have a := first.2 j
    have b := i2 j
    have e : count (groupContents (p1 :: g2)) j
        = count (place p1.itemTypeId p1.x p1.y p1.rotate p1.companions) j
          + count (groupContents g2) j := by
      unfold groupContents
      rw [List.flatMap_cons, count_append]
    rw [e, List.countP_cons]
    by_cases c : p.itemTypeId = big
    · rw [if_pos c] at a
      simp only [c, decide_true, if_true]
      push_cast
      rw [Int.add_mul]
      omega
    · rw [if_neg c] at a
      simp only [c, decide_false, Bool.false_eq_true, if_false, Nat.add_zero]
      omega

theorem dressGroups_count {big n : Nat} {prior : List (List (List Companion))} :
    ∀ {l : List (List GroupItem × List Companion)} {next next' : List Nat}
      {gs : List (List GroupItem)}, dressGroups big prior next l = .ok (next', gs) →
    next.length = n →
    (∀ q ∈ l, (∀ p ∈ q.1, p.itemTypeId < n)
      ∧ q.1.countP (fun p => decide (p.itemTypeId = big)) ≤ 1) →
    next'.length = n ∧ ∀ j, (gs.map fun g => count (groupContents g) j).sum
        + pending j n prior next'
      ≤ pending j n prior next + ews j big (l.map Prod.snd) := by
  intro l
  induction l with
  | nil =>
    intro next next' gs h hn _; cases h
    exact ⟨hn, fun j => by simp [ews]⟩
  | cons q l ih =>
    intro next next' gs h hn hl
    obtain ⟨g, cs⟩ := q
    unfold dressGroups at h
    obtain ⟨⟨next1, g1⟩, h1, h⟩ := bind_ok.mp h
    obtain ⟨⟨next2, gs2⟩, h2, h⟩ := bind_ok.mp h
    cases h
    obtain ⟨l1, l2⟩ := hl _ List.mem_cons_self
    obtain ⟨a1, a2⟩ := dressGroup_count h1 hn l1
    obtain ⟨b1, b2⟩ := ih h2 a1 (fun q hq => hl q (List.mem_cons_of_mem _ hq))
    refine ⟨b1, fun j => ?_⟩
    have a := a2 j
    have b := b2 j
    have c : (g.countP (fun p => decide (p.itemTypeId = big)) : Int) * ew j big cs
        ≤ 1 * ew j big cs :=
      mul_le_mul_of_nonneg_right (by exact_mod_cast l2) (ew_nonneg j big cs)
    unfold ews at b ⊢
    rw [List.map_cons, List.sum_cons, List.map_cons, List.map_cons, List.sum_cons]
    dsimp only
    omega

theorem commitAll_count {prior : List (List (List Companion))} {n : Nat}
    (l : List (Nat × List (List GroupItem))) :
    ∀ {acc acc' : State × List Nat}, l.foldlM (commitOne prior) acc = .ok acc' →
    (l.map Prod.fst).Nodup → acc.1.items.length = n → acc.2.length = n →
    (∀ p ∈ l, p.1 < n ∧ (acc.1.item p.1).removed = false ∧ ∀ g ∈ p.2,
      (∀ q ∈ g, q.itemTypeId < n)
        ∧ g.countP (fun q => decide (q.itemTypeId = p.1)) ≤ 1) →
    ∀ j, allUses j acc'.1 ≤ allUses j acc.1 + pending j n prior acc.2 := by
  induction l with
  | nil =>
    intro acc acc' h _ _ _ _ j; cases h
    have := pending_nonneg (j := j) (n := n) (prior := prior) (next := acc.2)
    omega
  | cons p l ih =>
    intro acc acc' h hnd hn hn2 hl j
    obtain ⟨acc1, h1, h2⟩ := foldlM_cons_ok.mp h
    obtain ⟨l1, l2, l3⟩ := hl p List.mem_cons_self
    rw [List.map_cons, List.nodup_cons] at hnd
    have first : acc1.1.items.length = n ∧ acc1.2.length = n
        ∧ (∀ x, x ≠ p.1 → acc1.1.item x = acc.1.item x)
        ∧ allUses j acc1.1 + pending j n prior acc1.2
          ≤ allUses j acc.1 + pending j n prior acc.2 := by
      unfold commitOne at h1
      split_ifs at h1 with he
      · cases h1; exact ⟨hn, hn2, fun _ _ => rfl, le_refl _⟩
      · obtain ⟨⟨e, it'⟩, h3, h1⟩ := bind_ok.mp h1
        obtain ⟨⟨next, gs⟩, h4, h1⟩ := bind_ok.mp h1
        cases h1
        obtain ⟨a1, a2⟩ := dressGroups_count h4 hn2 (fun q hq =>
          l3 q.1 (List.of_mem_zip (a := q.1) (b := q.2) hq).1)
        have hel : e.length = p.2.length := (extract_ok h3).1
        rw [List.map_snd_zip (by omega)] at a2
        refine ⟨by dsimp only; rw [length_setItem]; exact hn, a1,
          fun x hx => item_setItem_ne _ (Ne.symm hx) _, ?_⟩
        have b := a2 j
        have p2 := extract_count (i := p.1) h3 j
        set w : WorkItem := if (acc.1.item p.1).copies - p.2.length = 0 then
              { it' with copies := (acc.1.item p.1).copies - p.2.length, removed := true }
            else { it' with copies := (acc.1.item p.1).copies - p.2.length } with hw
        have hrm : it'.removed = (acc.1.item p.1).removed := (extract_ok h3).2.1
        have hload : load j p.1 w = (if p.1 = j then (acc.1.item p.1).copies - p.2.length else 0)
            + cws j it'.companions := by
          rw [hw]
          by_cases c : (acc.1.item p.1).copies - p.2.length = 0
          · rw [if_pos c, load_removed rfl, c]; simp
          · rw [if_neg c, load_live (by dsimp only; rw [hrm]; exact l2)]
        have e1 : allUses j { (acc.1.setItem p.1 w) with
            groups := (acc.1.setItem p.1 w).groups ++ gs }
            = total j (acc.1.setItem p.1 w) + (dedicatedUses j acc.1
              + (gs.map fun g => count (groupContents g) j).sum) := by
          unfold allUses dedicatedUses
          rw [total_groups]
          dsimp only [State.setItem]
          rw [List.map_append, List.sum_append]
          omega
        dsimp only
        rw [e1, total_set (by rw [hn]; exact l1), hload, load_live l2]
        unfold allUses
        split_ifs at p2 ⊢ <;> omega
    obtain ⟨f1, f2, f3, f4⟩ := first
    refine (ih h2 hnd.2 f1 f2 (fun q hq => ?_) j).trans f4
    obtain ⟨m1, m2, m3⟩ := hl q (List.mem_cons_of_mem _ hq)
    refine ⟨m1, ?_, m3⟩
    rw [f3 q.1 (fun e => hnd.1 (e ▸ List.mem_map_of_mem hq))]
    exact m2

theorem tryBoth_count (hT : NoTurning env.inst env.w env.h) {bigs : List Nat} {found : Bool}
    (hI : Inv env k st) (hb : Bigs (bothBig env) st bigs)
    (hsolve : ∀ t ops inst, InstanceBuilder.runOps ops = .ok inst →
      ValidPacking inst (env.solve t inst))
    (h : tryBoth env st bigs = .ok (found, st')) (j : Nat) : allUses j st' ≤ allUses j st := by
  unfold tryBoth at h
  dsimp only at h
  set rs := candidatesBoth env st bigs with hrs
  have hrl : ∀ i ∈ rs, i < st.items.length ∧ (st.item i).removed = false ∧ i ∉ bigs := by
    intro i hi
    rw [hrs] at hi
    unfold candidatesBoth at hi
    rw [List.mem_filter, Bool.and_eq_true, Bool.and_eq_true] at hi
    exact ⟨List.mem_range.mp hi.1, by simpa using hi.2.1.1, by simpa using hi.2.1.2⟩
  have hrn : rs.Nodup := by
    rw [hrs]; unfold candidatesBoth; exact List.nodup_range.filter _
  split_ifs at h with h1
  · obtain ⟨⟨st1, any⟩, h2, h⟩ := bind_ok.mp h
    cases h
    exact captureAll_count bigs h2 hb.nodup
      (fun i hi => ⟨(hb.big i hi).1, (hb.big i hi).2.1⟩) hI.nonNeg j
  · obtain ⟨check, h3, h⟩ := bind_ok.mp h
    have hC := checkBothOps_built h3
    have hv := hsolve st.ticks _ _ h3
    split_ifs at h with h4
    · cases h; exact le_refl _
    · split at h
      · cases h; exact le_refl _
      · rename_i groups hg
        split_ifs at h with h5 h6
        · cases h; exact le_refl _
        · cases h; exact le_refl _
        · obtain ⟨⟨st1, prior⟩, h7, h⟩ := bind_ok.mp h
          obtain ⟨⟨st2, next⟩, h8, h⟩ := bind_ok.mp h
          cases h
          have hz : ∀ b ∈ env.solve st.ticks check, BinPacking check 0 b.items := by
            intro b hbm
            have hbv := hv.bins b hbm
            have hz : b.binTypeId = 0 := by have := hbv.1; rw [hC.bins] at this; omega
            rw [← hz]; exact hbv.2.2
          have hg' := hg
          unfold readCheckBoth at hg
          have hone := readCheckBoth_once (fun i hi => (hrl i hi).2.2) _
            (fun b hbm => check_bin_big hT hI hb hC (hz b hbm)) hg (by
              intro i hi g hgm
              rw [List.getD_eq_getElem _ _ (by simpa using hi), List.getElem_replicate] at hgm
              simp at hgm)
          have hids := (readCheckBoth_laid (inst := env.inst) (size := st.item) (R := env.bin)
            (rs := rs) _ (fun b hbm => by
              have := Laid.of_bin (inst := env.inst) (size := st.item) hC.items
                (fun k hk => ⟨(hC.item k hk).x, (hC.item k hk).y, (hC.item k hk).oriented⟩)
                (hz b hbm) 0 0
              rw [hC.x, hC.y] at this
              exact this) hg (by
              intro l hl g hg'
              rw [List.eq_of_mem_replicate hl] at hg'
              simp at hg'))
          have a := removeAll_count rs h7 hrn (fun i hi => ⟨(hrl i hi).1, (hrl i hi).2.1⟩)
            (show NonNeg st.tick from hI.nonNeg) (List.replicate st.items.length 0) j
          obtain ⟨d, -⟩ := removeAll_ok rs h7 (fun i hi => (hrl i hi).1)
          dsimp only at a
          have hlen1 : st1.items.length = st.items.length := d.len
          have hfst : ((bigs.zip groups).map Prod.fst).Nodup := by
            obtain ⟨g1, -⟩ := readCheckBoth_ok _ hg (by
              intro b hbs
              exact ⟨(hv.bins b hbs).2.1, check_bin_big hT hI hb hC (hz b hbs)⟩) (by simp)
            rw [List.map_fst_zip (by omega)]
            exact hb.nodup
          have b := commitAll_count (n := st.items.length) (bigs.zip groups) h8 hfst hlen1
            (by simpa using hlen1) (fun p hp => by
              obtain ⟨i, hi, rfl⟩ := List.mem_iff_getElem.mp hp
              rw [List.length_zip] at hi
              rw [List.getElem_zip]
              have hib : i < bigs.length := by omega
              have hig : i < groups.length := by omega
              obtain ⟨b1, b2, -⟩ := hb.big _ (List.getElem_mem hib)
              dsimp only
              refine ⟨b1, ?_, fun g hgm => ⟨fun q hq => ?_, ?_⟩⟩
              · rcases d.item bigs[i] with e | ⟨hs, -⟩
                · rw [e]; exact b2
                · exact absurd (List.getElem_mem hib) (hrl _ hs).2.2
              · rcases List.mem_append.mp ((hids _ (List.getElem_mem hig) g hgm).2 q hq) with e | e
                · exact (hb.big _ e).1
                · exact (hrl _ e).1
              · refine hone i hib g ?_
                rw [List.getD_eq_getElem _ _ hig]; exact hgm) j
          dsimp only at b
          have e0 : pending j st.tick.items.length
              (List.replicate st.tick.items.length []) (List.replicate st.items.length 0) = 0 :=
            pending_start _ _ _
          rw [e0] at a
          have e1 : dedicatedUses j st1 = dedicatedUses j st := dedicatedUses_same d.bins
          have e2 : total j st.tick = total j st := rfl
          rw [hlen1, e2] at a
          unfold allUses at b ⊢
          rw [hlen1] at b
          change total j st2 + dedicatedUses j st2 ≤ _
          omega

/-! ## Bins filled by an item or a pair -/

theorem fullBinOne_count {acc acc' : State × Bool} {i : Nat} (h : fullBinOne env acc i = .ok acc')
    (hN : NonNeg acc.1) (hi : i < acc.1.items.length) :
    NonNeg acc'.1 ∧ acc'.1.items.length = acc.1.items.length
      ∧ ∀ j, allUses j acc'.1 ≤ allUses j acc.1 := by
  unfold fullBinOne at h
  dsimp only at h
  by_cases h0 : (acc.1.item i).removed = true
  · rw [if_pos h0] at h; cases h; exact ⟨hN, rfl, fun _ => le_refl _⟩
  rw [if_neg h0] at h
  have h0 : (acc.1.item i).removed = false := by simpa using h0
  split at h
  · cases h; exact ⟨hN, rfl, fun _ => le_refl _⟩
  · rename_i r hr
    split_ifs at h with h1
    · cases h; exact ⟨hN, rfl, fun _ => le_refl _⟩
    · obtain ⟨⟨e, it'⟩, h2, h⟩ := bind_ok.mp h
      cases h
      have hc : it'.copies = (acc.1.item i).copies := (extract_ok h2).2.2.2.2
      refine ⟨hN.set (by dsimp only; rw [hc]; exact hN i), length_setItem _ _ _, fun j => ?_⟩
      have p2 := extract_count (i := i) h2 j
      rw [Int.toNat_of_nonneg (hN i)] at p2
      have e1 : allUses j { (acc.1.setItem i { it' with removed := true }) with
          fullBins := (acc.1.setItem i { it' with removed := true }).fullBins
            ++ [⟨i, r, (acc.1.item i).copies, e⟩] }
          = total j (acc.1.setItem i { it' with removed := true })
            + (dedicatedUses j acc.1 + ews j i e) := by
        unfold allUses dedicatedUses
        rw [total_full]
        dsimp only [State.setItem]
        rw [List.map_append, List.sum_append]
        simp only [List.map_cons, List.map_nil, List.sum_cons, List.sum_nil]
        omega
      dsimp only
      rw [e1, total_set hi, load_live h0, load_removed rfl]
      unfold allUses
      dsimp only
      omega

theorem consume_count {i : Nat} {n : Int} {e : List (List Companion)} (hn : 0 ≤ n)
    (hi : i < st.items.length) (hr : (st.item i).removed = false)
    (h : consume st i n = .ok (e, st')) :
    (∀ j, total j st' + ews j i e = total j st) ∧ SameBins st st'
      ∧ st'.items.length = st.items.length ∧ (∀ x, x ≠ i → st'.item x = st.item x)
      ∧ (st'.item i).copies = (st.item i).copies - n := by
  unfold consume at h
  obtain ⟨⟨e1, it'⟩, he, h⟩ := bind_ok.mp h
  cases h
  have hrm : it'.removed = (st.item i).removed := (extract_ok he).2.1
  refine ⟨fun j => ?_, ⟨rfl, rfl, rfl⟩, length_setItem _ _ _,
    fun x hx => item_setItem_ne _ (Ne.symm hx) _, ?_⟩
  · have p2 := extract_count (i := i) he j
    rw [Int.toNat_of_nonneg hn] at p2
    rw [total_set hi, load_live hr]
    dsimp only
    by_cases c : (st.item i).copies - n = 0
    · rw [if_pos c, load_removed rfl]
      dsimp only
      split_ifs at p2 ⊢ <;> omega
    · rw [if_neg c, load_live (by dsimp only; rw [hrm]; exact hr)]
      dsimp only
      split_ifs at p2 ⊢ <;> omega
  · rw [item_setItem_self _ hi]
    dsimp only
    split_ifs <;> rfl

theorem pairOne_count {acc acc' : State × Bool} {i : Nat} (h : pairOne env acc i = .ok acc')
    (hN : NonNeg acc.1) (hi : i < acc.1.items.length) :
    NonNeg acc'.1 ∧ acc'.1.items.length = acc.1.items.length
      ∧ ∀ j, allUses j acc'.1 ≤ allUses j acc.1 := by
  have same : NonNeg acc.1 ∧ acc.1.items.length = acc.1.items.length
      ∧ ∀ j, allUses j acc.1 ≤ allUses j acc.1 := ⟨hN, rfl, fun _ => le_refl _⟩
  unfold pairOne at h
  dsimp only at h
  split_ifs at h with h0 h00
  · cases h; exact same
  · cases h; exact same
  have h0 : (acc.1.item i).removed = false := by simpa using h0
  split at h
  · cases h; exact same
  · rename_i x hx
    have hxl : x < acc.1.items.length := List.mem_range.mp (List.mem_of_find?_eq_some hx)
    split at h
    · cases h; exact same
    · rename_i dx dy hp
      obtain ⟨⟨e1, st1⟩, h1, h⟩ := bind_ok.mp h
      obtain ⟨⟨e2, st2⟩, h2, h⟩ := bind_ok.mp h
      cases h
      unfold pairWith at hp
      split_ifs at hp with q1 q2 q3 q4
      have q2 : (acc.1.item x).removed = false := by simpa using q2
      have n1 := hN i
      have n2 := hN x
      have hn : 0 ≤ min (acc.1.item i).copies (acc.1.item x).copies := le_min n1 n2
      obtain ⟨c1, c2, c3, c4, c5⟩ := consume_count hn hi h0 h1
      obtain ⟨d1, d2, d3, d4, d5⟩ := consume_count hn (by rw [c3]; exact hxl)
        (by rw [c4 x q1]; exact q2) h2
      refine ⟨fun y => ?_, by dsimp only; rw [d3, c3], fun j => ?_⟩
      · change 0 ≤ (st2.item y).copies
        by_cases y1 : y = x
        · rw [y1, d5, c4 x q1]; omega
        · rw [d4 y y1]
          by_cases y2 : y = i
          · rw [y2, c5]; omega
          · rw [c4 y y2]; exact hN y
      · have a := c1 j
        have b := d1 j
        have e0 : allUses j { st2 with pairs := st2.pairs ++ [⟨i, x, dx, dy,
            min (acc.1.item i).copies (acc.1.item x).copies, e1, e2⟩] }
            = total j st2 + (dedicatedUses j acc.1 + (ews j i e1 + ews j x e2)) := by
          unfold allUses
          rw [total_pairs, ← dedicatedUses_same (c2.trans d2)]
          unfold dedicatedUses
          dsimp only
          rw [List.map_append, List.sum_append]
          simp only [List.map_cons, List.map_nil, List.sum_cons, List.sum_nil]
          omega
        refine e0.le.trans ?_
        unfold allUses
        dsimp only at b
        omega

theorem foldl_count {f : State × Bool → Nat → Except Err (State × Bool)}
    (hf : ∀ acc acc' i, f acc i = .ok acc' → NonNeg acc.1 → i < acc.1.items.length →
      NonNeg acc'.1 ∧ acc'.1.items.length = acc.1.items.length
        ∧ ∀ j, allUses j acc'.1 ≤ allUses j acc.1) (l : List Nat) :
    ∀ {acc acc' : State × Bool},
    l.foldlM f acc = .ok acc' → NonNeg acc.1 → (∀ i ∈ l, i < acc.1.items.length) →
    ∀ j, allUses j acc'.1 ≤ allUses j acc.1 := by
  induction l with
  | nil => intro acc acc' h _ _ j; cases h; exact le_refl _
  | cons i l ih =>
    intro acc acc' h hN hl j
    obtain ⟨acc1, h1, h2⟩ := foldlM_cons_ok.mp h
    obtain ⟨a1, a2, a3⟩ := hf _ _ _ h1 hN (hl i List.mem_cons_self)
    exact (ih h2 a1 (fun x hx => by rw [a2]; exact hl x (List.mem_cons_of_mem _ hx)) j).trans (a3 j)

theorem fullBins_count {found : Bool} (h : fullBins env st = .ok (found, st')) (hN : NonNeg st)
    (j : Nat) : allUses j st' ≤ allUses j st := by
  unfold fullBins at h
  obtain ⟨⟨s, any⟩, h1, h⟩ := bind_ok.mp h
  cases h
  exact foldl_count (fun _ _ _ h1 h2 h3 => fullBinOne_count h1 h2 h3) _ h1 hN
    (fun i hi => List.mem_range.mp hi) j

theorem perfectPairs_count {found : Bool} (h : perfectPairs env st = .ok (found, st'))
    (hN : NonNeg st) (j : Nat) : allUses j st' ≤ allUses j st := by
  unfold perfectPairs at h
  obtain ⟨⟨s, any⟩, h1, h⟩ := bind_ok.mp h
  cases h
  exact foldl_count (fun _ _ _ h1 h2 h3 => pairOne_count h1 h2 h3) _ h1 hN
    (fun i hi => List.mem_range.mp hi) j

end PackingSolver.Rect.Reduction
