import Verif.Lemmas.Rect.ReduceSoundRun
import Mathlib.Algebra.BigOperators.Group.Finset.Basic
import Mathlib.Algebra.Order.BigOperators.Group.Finset

/-!
# How often the reduction uses an item
-/

namespace PackingSolver.Rect.Reduction

open Rect.Spec

variable {env : Env} {st st' : State} {inst : Instance} {j : Nat}

/-! ## Counting companions -/

theorem count_map_shift (l : List PlacedItem) (dx dy : Int) (j : Nat) :
    count (l.map (shiftItem dx dy)) j = count l j := by
  unfold count
  rw [List.countP_map]
  rfl

theorem count_append (a b : List PlacedItem) (j : Nat) : count (a ++ b) j = count a j + count b j := by
  unfold count; rw [List.countP_append]; push_cast; rfl

theorem count_nonneg (a : List PlacedItem) (j : Nat) : 0 ≤ count a j := by
  unfold count; exact Int.natCast_nonneg _

/-- How often item type `j` occurs in companions. -/
def cw (j : Nat) (cs : List Companion) : Int := count (placeAll cs 0 0) j

/-- How often item type `j` occurs in an item of type `i` and its companions. -/
def ew (j i : Nat) (cs : List Companion) : Int := (if i = j then 1 else 0) + cw j cs

theorem count_placeAll (cs : List Companion) (x y : Int) (j : Nat) :
    count (placeAll cs x y) j = cw j cs := by
  have := placeAll_shift cs 0 0 x y
  rw [Int.zero_add, Int.zero_add] at this
  rw [this, count_map_shift]; rfl

theorem count_place (i : Nat) (x y : Int) (r : Bool) (cs : List Companion) (j : Nat) :
    count (place i x y r cs) j = ew j i cs := by
  unfold place ew
  rw [← count_placeAll cs x y j]
  unfold count
  rw [List.countP_cons]
  dsimp only
  by_cases h : i = j
  · simp [h]; omega
  · simp [h]

theorem cw_nonneg (j : Nat) (cs : List Companion) : 0 ≤ cw j cs := count_nonneg _ _

theorem ew_nonneg (j i : Nat) (cs : List Companion) : 0 ≤ ew j i cs := by
  have := cw_nonneg j cs
  unfold ew; split_ifs <;> omega

theorem cw_append (j : Nat) (a b : List Companion) : cw j (a ++ b) = cw j a + cw j b := by
  unfold cw; rw [placeAll_append, count_append]

/-- Sums over lists of companions. -/
def cws (j : Nat) (ls : List (List Companion)) : Int := (ls.map (cw j)).sum
def ews (j i : Nat) (ls : List (List Companion)) : Int := (ls.map (ew j i)).sum

theorem cws_nonneg (j : Nat) (ls : List (List Companion)) : 0 ≤ cws j ls :=
  List.sum_nonneg fun x hx => by
    obtain ⟨a, -, rfl⟩ := List.mem_map.mp hx; exact cw_nonneg j a

theorem ews_nonneg (j i : Nat) (ls : List (List Companion)) : 0 ≤ ews j i ls :=
  List.sum_nonneg fun x hx => by
    obtain ⟨a, -, rfl⟩ := List.mem_map.mp hx; exact ew_nonneg j i a

theorem ews_eq (j i : Nat) (ls : List (List Companion)) :
    ews j i ls = (if i = j then (ls.length : Int) else 0) + cws j ls := by
  induction ls with
  | nil => simp [ews, cws]
  | cons a ls ih =>
    unfold ews cws at *
    rw [List.map_cons, List.sum_cons, List.map_cons, List.sum_cons, ih]
    unfold ew
    split_ifs
    · push_cast [List.length_cons]; omega
    · omega

theorem cws_zip (j : Nat) (as bs : List (List Companion)) :
    cws j (List.zipWith (· ++ ·) as bs) ≤ cws j as + cws j bs := by
  induction as generalizing bs with
  | nil => simp only [List.zipWith_nil_left]; have := cws_nonneg j bs; unfold cws at *; simpa using this
  | cons a as ih =>
    cases bs with
    | nil =>
      simp only [List.zipWith_nil_right]
      have := cws_nonneg j (a :: as); unfold cws at *; simpa using this
    | cons b bs =>
      have := ih bs
      unfold cws at *
      simp only [List.zipWith_cons_cons, List.map_cons, List.sum_cons]
      rw [cw_append]
      omega

theorem extract_count {i n : Nat} {it it' : WorkItem} {e : List (List Companion)}
    (h : extract it n = .ok (e, it')) (j : Nat) :
    ews j i e + cws j it'.companions
      = (if i = j then (n : Int) else 0) + cws j it.companions := by
  rw [ews_eq, (extract_ok h).1]
  unfold extract at h
  split_ifs at h with h1 h2
  · cases h
    have : cws j (List.replicate n []) = 0 := by
      unfold cws
      rw [List.map_replicate, List.sum_replicate]
      simp [cw, placeAll, count]
    rw [this]; omega
  · cases h
    dsimp only
    have : cws j (it.companions.take n) + cws j (it.companions.drop n) = cws j it.companions := by
      unfold cws
      rw [← List.sum_append, ← List.map_append, List.take_append_drop]
    omega

/-! ## Counting in a state -/

/-- Uses of item type `j` by the working item type `i`. -/
def load (j i : Nat) (it : WorkItem) : Int :=
  (if it.removed then 0 else if i = j then it.copies else 0) + cws j it.companions

/-- Uses of item type `j` by the working item types. -/
def total (j : Nat) (st : State) : Int :=
  ∑ i ∈ Finset.range st.items.length, load j i (st.item i)

theorem sum_change {n i : Nat} (f g : Nat → Int) (hi : i < n) (h : ∀ k, k ≠ i → g k = f k) :
    ∑ k ∈ Finset.range n, g k = ∑ k ∈ Finset.range n, f k - f i + g i := by
  have hm := Finset.mem_range.mpr hi
  have h1 := Finset.add_sum_erase _ g hm
  have h2 := Finset.add_sum_erase _ f hm
  have h3 : ∑ k ∈ (Finset.range n).erase i, g k = ∑ k ∈ (Finset.range n).erase i, f k :=
    Finset.sum_congr rfl (fun k hk => h k (Finset.ne_of_mem_erase hk))
  omega

theorem total_set {i : Nat} {it : WorkItem} (hi : i < st.items.length) :
    total j (st.setItem i it) = total j st - load j i (st.item i) + load j i it := by
  unfold total
  rw [length_setItem]
  have := sum_change (fun k => load j k (st.item k)) (fun k => load j k ((st.setItem i it).item k))
    hi (fun k hk => by rw [item_setItem_ne _ (Ne.symm hk)])
  rw [this, item_setItem_self _ hi]

/-- Uses of item type `j` by the dedicated bins. -/
def dedicatedUses (j : Nat) (st : State) : Int :=
  (st.fullBins.map fun f => ews j f.itemTypeId f.companions).sum
    + (st.pairs.map fun p => ews j p.itemTypeId1 p.companions1 + ews j p.itemTypeId2 p.companions2).sum
    + (st.groups.map fun g => count (groupContents g) j).sum

theorem dedicatedUses_same (h : SameBins st st') : dedicatedUses j st' = dedicatedUses j st := by
  unfold dedicatedUses; rw [h.1, h.2.1, h.2.2]

/-- No copies are negative. -/
def NonNeg (st : State) : Prop := ∀ i, 0 ≤ (st.item i).copies

theorem NonNeg.set (h : NonNeg st) {i : Nat} {it : WorkItem} (hi : 0 ≤ it.copies) :
    NonNeg (st.setItem i it) := by
  intro k
  rw [item_setItem]
  split_ifs
  · exact hi
  · exact h k

/-! ## Absorbing companions -/

/-- Uses of item type `j` by the companions that are not handed out yet. -/
def pending (j n : Nat) (prior : List (List (List Companion))) (next : List Nat) : Int :=
  ∑ i ∈ Finset.range n, ews j i ((prior.getD i []).drop (next.getD i 0))

theorem pending_nonneg {n : Nat} {prior : List (List (List Companion))} {next : List Nat} :
    0 ≤ pending j n prior next :=
  Finset.sum_nonneg fun i _ => ews_nonneg j i _

theorem ews_drop_le (j i k : Nat) (ls : List (List Companion)) : ews j i (ls.drop k) ≤ ews j i ls := by
  have : ews j i (ls.take k) + ews j i (ls.drop k) = ews j i ls := by
    unfold ews
    rw [← List.sum_append, ← List.map_append, List.take_append_drop]
  have := ews_nonneg j i (ls.take k)
  omega

theorem pending_set_prior {n i : Nat} {prior : List (List (List Companion))} {next : List Nat}
    {e : List (List Companion)} (hi : i < n) :
    pending j n (prior.set i e) next ≤ pending j n prior next + ews j i e := by
  unfold pending
  rw [sum_change (i := i) (fun k => ews j k ((prior.getD k []).drop (next.getD k 0)))
    (fun k => ews j k (((prior.set i e).getD k []).drop (next.getD k 0))) hi (fun k hk => by
      congr 2
      rw [List.getD_eq_getElem?_getD, List.getElem?_set_ne (Ne.symm hk),
        ← List.getD_eq_getElem?_getD])]
  have h1 := ews_nonneg j i ((prior.getD i []).drop (next.getD i 0))
  have h2 : ews j i (((prior.set i e).getD i []).drop (next.getD i 0)) ≤ ews j i e := by
    refine (ews_drop_le _ _ _ _).trans ?_
    rw [List.getD_eq_getElem?_getD, List.getElem?_set_self']
    cases prior[i]? with
    | none => simp [ews]; exact ews_nonneg j i e
    | some _ => simp
  omega

/-- Handing out the companions of one copy. -/
theorem pending_take {n i : Nat} {prior : List (List (List Companion))} {next : List Nat}
    {cs : List Companion} (hi : i < n) (hl : i < next.length)
    (h : (prior.getD i [])[next.getD i 0]? = some cs) :
    pending j n prior (next.set i (next.getD i 0 + 1)) = pending j n prior next - ew j i cs := by
  unfold pending
  rw [sum_change (i := i) (fun k => ews j k ((prior.getD k []).drop (next.getD k 0)))
    (fun k => ews j k ((prior.getD k []).drop ((next.set i (next.getD i 0 + 1)).getD k 0))) hi
    (fun k hk => by
      congr 2
      rw [List.getD_eq_getElem?_getD, List.getElem?_set_ne (Ne.symm hk),
        ← List.getD_eq_getElem?_getD])]
  have e1 : (next.set i (next.getD i 0 + 1)).getD i 0 = next.getD i 0 + 1 := by
    rw [List.getD_eq_getElem?_getD, List.getElem?_set_self hl]; rfl
  rw [e1]
  obtain ⟨hk, hc⟩ := List.getElem?_eq_some_iff.mp h
  have e2 : (prior.getD i []).drop (next.getD i 0)
      = cs :: (prior.getD i []).drop (next.getD i 0 + 1) := by
    rw [List.drop_eq_getElem_cons hk, hc]
  rw [e2]
  unfold ews
  rw [List.map_cons, List.sum_cons]
  omega

/-- The arrays of the loop have the right sizes and no copies are negative. -/
structure Lens (ap : Apply) : Prop where
  next : ap.next.length = ap.st.items.length
  nonneg : NonNeg ap.st

/-- Uses of item type `j` during the loop. -/
def uses (j : Nat) (ap : Apply) : Int :=
  total j ap.st + pending j ap.st.items.length ap.prior ap.next

theorem absorb_count {ap ap' : Apply} {c c' : Companion} (h : absorb ap c = .ok (ap', c'))
    (hL : Lens ap) (hc : c.id < ap.st.items.length) :
    Lens ap' ∧ ∀ j, uses j ap' + count (placeOne c' 0 0) j ≤ uses j ap := by
  obtain ⟨i, dx, dy, r, ns⟩ := c
  change i < _ at hc
  unfold absorb at h
  obtain ⟨ap1, h1, h2⟩ := bind_ok.mp h
  have key : Lens ap1 ∧ ap1.st.items.length = ap.st.items.length
      ∧ ∀ j, uses j ap1 ≤ uses j ap := by
    split_ifs at h1 with hr
    · cases h1; exact ⟨hL, rfl, fun _ => le_refl _⟩
    · obtain ⟨⟨e, it⟩, he, h1⟩ := bind_ok.mp h1
      cases h1
      have hr : (ap.st.item i).removed = false := by simpa using hr
      refine ⟨⟨by dsimp only; rw [length_setItem]; exact hL.next, hL.nonneg.set (by simp)⟩,
        length_setItem _ _ _, fun j => ?_⟩
      unfold uses
      dsimp only
      rw [total_set hc, length_setItem]
      have p1 := pending_set_prior (j := j) (prior := ap.prior) (next := ap.next) (e := e) hc
      have p2 := extract_count (i := i) he j
      have p3 := hL.nonneg i
      have p4 : load j i (ap.st.item i) = (if i = j then ((ap.st.item i).copies.toNat : Int) else 0)
          + cws j (ap.st.item i).companions := by
        unfold load
        rw [hr, Int.toNat_of_nonneg p3]; rfl
      have p5 : load j i { it with copies := 0, removed := true } = cws j it.companions := by
        unfold load; simp
      rw [p4, p5]
      omega
  dsimp only at h2
  split at h2
  · rename_i nested hn
    cases h2
    refine ⟨⟨by dsimp only; rw [List.length_set]; exact key.1.next, key.1.nonneg⟩, fun j => ?_⟩
    have k := key.2.2 j
    unfold uses at k ⊢
    dsimp only at k ⊢
    rw [pending_take (by rw [key.2.1]; exact hc) (by rw [key.1.next, key.2.1]; exact hc) hn]
    have e : count (placeOne (.mk i dx dy r nested) 0 0) j = ew j i nested := by
      rw [placeOne_spot]; exact count_place _ _ _ _ _ _
    rw [e]
    omega
  · cases h2

theorem absorbAll_count {cs cs' : List Companion} : ∀ {ap ap' : Apply},
    absorbAll ap cs = .ok (ap', cs') → Lens ap → (∀ c ∈ cs, c.id < ap.st.items.length) →
    Lens ap' ∧ ∀ j, uses j ap' + cw j cs' ≤ uses j ap := by
  induction cs generalizing cs' with
  | nil =>
    intro ap ap' h hL _; cases h
    exact ⟨hL, fun j => by simp [cw, placeAll, count]⟩
  | cons c cs ih =>
    intro ap ap' h hL hc
    unfold absorbAll at h
    obtain ⟨⟨ap1, c1⟩, h1, h⟩ := bind_ok.mp h
    obtain ⟨⟨ap2, cs2⟩, h2, h⟩ := bind_ok.mp h
    cases h
    obtain ⟨a1, a2⟩ := absorb_count h1 hL (hc c List.mem_cons_self)
    obtain ⟨-, d1, -⟩ := absorb_ok h1 (hc c List.mem_cons_self)
    obtain ⟨b1, b2⟩ := ih h2 a1 (fun c' hc' => by
      rw [d1.len]; exact hc c' (List.mem_cons_of_mem _ hc'))
    refine ⟨b1, fun j => ?_⟩
    have := a2 j
    have := b2 j
    have e : cw j (c1 :: cs2) = count (placeOne c1 0 0) j + cw j cs2 := by
      unfold cw; rw [placeAll, count_append]
    rw [e]; omega

theorem absorbCopies_count {ls ls' : List (List Companion)} : ∀ {ap ap' : Apply},
    absorbCopies ap ls = .ok (ap', ls') → Lens ap →
    (∀ cs ∈ ls, ∀ c ∈ cs, c.id < ap.st.items.length) →
    Lens ap' ∧ ∀ j, uses j ap' + cws j ls' ≤ uses j ap := by
  induction ls generalizing ls' with
  | nil => intro ap ap' h hL _; cases h; exact ⟨hL, fun j => by simp [cws]⟩
  | cons l ls ih =>
    intro ap ap' h hL hc
    unfold absorbCopies at h
    obtain ⟨⟨ap1, l1⟩, h1, h⟩ := bind_ok.mp h
    obtain ⟨⟨ap2, ls2⟩, h2, h⟩ := bind_ok.mp h
    cases h
    obtain ⟨a1, a2⟩ := absorbAll_count h1 hL (hc l List.mem_cons_self)
    obtain ⟨d1, -⟩ := absorbAll_ok h1 (hc l List.mem_cons_self)
    obtain ⟨b1, b2⟩ := ih h2 a1 (fun cs hcs c hc' => by
      rw [d1.len]; exact hc cs (List.mem_cons_of_mem _ hcs) c hc')
    refine ⟨b1, fun j => ?_⟩
    have := a2 j
    have := b2 j
    have e : cws j (l1 :: ls2) = cw j l1 + cws j ls2 := by
      unfold cws; rw [List.map_cons, List.sum_cons]
    rw [e]; omega

theorem enlarge_count {a : Axis} {i : Nat} {it it' : WorkItem} {ls : List (List Companion)}
    (h : enlarge env a it ls = .ok it') (j : Nat) : load j i it' ≤ load j i it + cws j ls := by
  obtain ⟨hr, hc, -, -⟩ := enlarge_ok h
  have key : cws j it'.companions ≤ cws j it.companions + cws j ls := by
    have h0 := cws_nonneg j it.companions
    unfold enlarge at h
    cases a with
    | wide =>
      dsimp only at h
      split_ifs at h with h1 h2
      · cases h; dsimp only; omega
      · cases h; exact cws_zip j _ _
    | tall =>
      dsimp only at h
      split_ifs at h with h1 h2
      · cases h; dsimp only; omega
      · cases h; exact cws_zip j _ _
  unfold load
  rw [hr, hc]
  omega

theorem applyLoop_count {a : Axis} {trivial : Bool} (l : List (Nat × List (List Companion))) :
    ∀ {acc acc' : Apply × Bool}, l.foldlM (applyOne env a trivial) acc = .ok acc' → Lens acc.1 →
    (∀ p ∈ l, p.1 < acc.1.st.items.length
      ∧ ∀ cs ∈ p.2, ∀ c ∈ cs, c.id < acc.1.st.items.length) →
    Lens acc'.1 ∧ ∀ j, uses j acc'.1 ≤ uses j acc.1 := by
  induction l with
  | nil => intro acc acc' h hL _; cases h; exact ⟨hL, fun _ => le_refl _⟩
  | cons p l ih =>
    intro acc acc' h hL hp
    obtain ⟨acc1, h1, h2⟩ := foldlM_cons_ok.mp h
    have first : Lens acc1.1 ∧ acc1.1.st.items.length = acc.1.st.items.length
        ∧ ∀ j, uses j acc1.1 ≤ uses j acc.1 := by
      unfold applyOne at h1
      split_ifs at h1 with hv
      · cases h1; exact ⟨hL, rfl, fun _ => le_refl _⟩
      · obtain ⟨⟨ap, cs'⟩, h3, h1⟩ := bind_ok.mp h1
        obtain ⟨it, h4, h1⟩ := bind_ok.mp h1
        cases h1
        obtain ⟨p1, p2⟩ := hp p List.mem_cons_self
        obtain ⟨d, -⟩ := absorbCopies_ok h3 p2
        obtain ⟨a1, a2⟩ := absorbCopies_count h3 hL p2
        have hlt : p.1 < ap.st.items.length := by rw [d.len]; exact p1
        refine ⟨⟨?_, a1.nonneg.set ?_⟩, ?_, fun j => ?_⟩
        · dsimp only; rw [length_setItem]; exact a1.next
        · rw [(enlarge_ok h4).2.1]; exact a1.nonneg p.1
        · dsimp only; rw [length_setItem]; exact d.len
        · have q1 := a2 j
          have q2 := enlarge_count (i := p.1) h4 j
          unfold uses at q1 ⊢
          dsimp only at q1 ⊢
          rw [total_set hlt, length_setItem]
          omega
    obtain ⟨g1, g2⟩ := ih h2 first.1 (fun q hq => by
      rw [first.2.1]; exact hp q (List.mem_cons_of_mem _ hq))
    exact ⟨g1, fun j => (g2 j).trans (first.2.2 j)⟩

theorem pending_start (j n : Nat) (next : List Nat) : pending j n (List.replicate n []) next = 0 := by
  unfold pending
  refine Finset.sum_eq_zero fun i _ => ?_
  have : (List.replicate n ([] : List (List Companion))).getD i [] = [] := by
    rw [List.getD_eq_getElem?_getD, List.getElem?_replicate]
    split_ifs <;> rfl
  rw [this]
  simp [ews]

/-- Uses of item type `j`. -/
def allUses (j : Nat) (st : State) : Int := total j st + dedicatedUses j st

theorem Inv.nonNeg {k : Int} (h : Inv env k st) : NonNeg st := by
  intro i
  by_cases hi : i < st.items.length
  · exact (h.pos i hi).2.2
  · have : st.item i = default := by
      unfold State.item; rw [List.getD_eq_default _ _ (by omega)]
    rw [this]; exact le_refl _

theorem tryGroup_count {a : Axis} {bigs : List Nat} {found : Bool} (hN : NonNeg st)
    (hb : ∀ i ∈ bigs, i < st.items.length)
    (h : tryGroup env a st bigs = .ok (found, st')) (j : Nat) :
    allUses j st' ≤ allUses j st := by
  unfold tryGroup at h
  dsimp only at h
  set checked := checkedBigs env a st bigs with hch
  set rs := candidates env a st bigs checked with hrs
  have hcb : ∀ i ∈ checked, i < st.items.length := by
    intro i hi
    rw [hch] at hi
    unfold checkedBigs at hi
    exact hb i (List.mem_filter.mp hi).1
  have hrl : ∀ i ∈ rs, i < st.items.length := by
    intro i hi
    rw [hrs] at hi
    unfold candidates at hi
    exact List.mem_range.mp (List.mem_filter.mp hi).1
  have hcheckedRs : ∀ i ∈ checked, i ∉ rs := by
    intro i hi hir
    rw [hrs] at hir
    unfold candidates at hir
    rw [List.mem_filter, Bool.and_eq_true, Bool.and_eq_true] at hir
    rw [hch] at hi
    unfold checkedBigs at hi
    have h1 := hir.2.1.2
    rw [Bool.not_eq_true'] at h1
    have h2 := (List.mem_filter.mp hi).1
    rw [← List.contains_iff_mem] at h2
    rw [h2] at h1; cases h1
  have apply : ∀ (trivial any : Bool) (s s' : State) (comps : List (List (List Companion))),
      s.items = st.items → SameBins st s → NonNeg s →
      (∀ l ∈ comps, ∀ cs ∈ l, ∀ c ∈ cs, c.id ∈ rs) →
      applyGroup env a trivial s checked comps = .ok (any, s') → allUses j s' ≤ allUses j st := by
    intro trivial any s s' comps hs hsb hNs hids happ
    unfold applyGroup at happ
    obtain ⟨⟨ap, any'⟩, h1, happ⟩ := bind_ok.mp happ
    cases happ
    have hpl : ∀ p ∈ checked.zip comps, p.1 < s.items.length
        ∧ ∀ cs ∈ p.2, ∀ c ∈ cs, c.id < s.items.length := by
      intro p hp
      rw [hs]
      obtain ⟨p1, p2⟩ := List.of_mem_zip (a := p.1) (b := p.2) hp
      exact ⟨hcb _ p1, fun cs hcs c hc => hrl _ (hids _ p2 cs hcs c hc)⟩
    obtain ⟨-, r2⟩ := applyLoop_count (env := env) (checked.zip comps) h1
      ⟨by simp, hNs⟩ hpl
    have hbins : SameBins s ap.st := by
      have : ∀ (l : List (Nat × List (List Companion))) {acc acc' : Apply × Bool},
          l.foldlM (applyOne env a trivial) acc = .ok acc' →
          (∀ p ∈ l, p.1 < acc.1.st.items.length
            ∧ ∀ cs ∈ p.2, ∀ c ∈ cs, c.id < acc.1.st.items.length) →
          SameBins acc.1.st acc'.1.st := by
        intro l
        induction l with
        | nil => intro acc acc' h _; cases h; exact SameBins.refl _
        | cons p l ih =>
          intro acc acc' h hp
          obtain ⟨acc1, h1, h2⟩ := foldlM_cons_ok.mp h
          have first : SameBins acc.1.st acc1.1.st
              ∧ acc1.1.st.items.length = acc.1.st.items.length := by
            unfold applyOne at h1
            split_ifs at h1 with hv
            · cases h1; exact ⟨SameBins.refl _, rfl⟩
            · obtain ⟨⟨ap, cs'⟩, h3, h1⟩ := bind_ok.mp h1
              obtain ⟨it, h4, h1⟩ := bind_ok.mp h1
              cases h1
              obtain ⟨d, -⟩ := absorbCopies_ok h3 (hp p List.mem_cons_self).2
              refine ⟨⟨d.bins.1, d.bins.2.1, d.bins.2.2⟩, ?_⟩
              dsimp only; rw [length_setItem]; exact d.len
          exact first.1.trans (ih h2 (fun q hq => by
            rw [first.2]; exact hp q (List.mem_cons_of_mem _ hq)))
      exact this _ h1 hpl
    have e1 := r2 j
    unfold uses at e1
    dsimp only at e1
    rw [pending_start] at e1
    have e2 := pending_nonneg (j := j) (n := ap.st.items.length) (prior := ap.prior)
      (next := ap.next)
    have e3 : total j s = total j st := by
      unfold total State.item; rw [hs]
    unfold allUses
    rw [dedicatedUses_same (hsb.trans hbins), ← e3]
    omega
  split_ifs at h with h1 h2
  · cases h; exact le_refl _
  · refine apply true found st st' _ rfl (SameBins.refl _) hN ?_ h
    intro l hl cs hcs c hc
    obtain ⟨i, -, rfl⟩ := List.mem_map.mp hl
    rw [List.eq_of_mem_replicate hcs] at hc
    simp at hc
  · obtain ⟨check, h3, h⟩ := bind_ok.mp h
    split_ifs at h with h4
    · cases h; exact le_refl _
    · obtain ⟨comps, h5, h⟩ := bind_ok.mp h
      unfold readCheck at h5
      obtain ⟨-, k2, -⟩ := readCheck_ok _ h5 (by simp) (by
        intro l hl cs hcs
        rw [List.eq_of_mem_replicate hl] at hcs
        simp at hcs)
      exact apply false found st.tick st' comps rfl ⟨rfl, rfl, rfl⟩ hN k2 h

end PackingSolver.Rect.Reduction
