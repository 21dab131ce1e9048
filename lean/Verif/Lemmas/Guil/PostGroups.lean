import Mathlib.Data.List.Perm.Subperm
import Verif.Lemmas.Guil.PostSound
import Verif.Lemmas.Guil.Cuts
import Verif.Spec.Sort

/-!
# Lemmas: groups of items that no cut separates
-/

namespace PackingSolver.Guil.PostProcess

open Guil.Spec
open PackingSolver.Spec (IsSortOf)

theorem itemStart_eq (v : Bool) (p : ItemPlacement) : itemStart v p = (reg p).low v := by
  cases v <;> rfl

theorem itemEnd_eq (v : Bool) (p : ItemPlacement) : itemEnd v p = (reg p).high v := by
  cases v <;> rfl

/-- No cut of thickness `ct` separates the items. -/
def Inseparable (v : Bool) (ct : Int) (items : List ItemPlacement) : Prop :=
  ∀ x, (∀ q ∈ items, itemEnd v q ≤ x ∨ x + ct ≤ itemStart v q) →
    (∀ q ∈ items, itemEnd v q ≤ x) ∨ (∀ q ∈ items, x + ct ≤ itemStart v q)

/-- A group as `find_groups` makes it. -/
structure GroupOk (v : Bool) (ct : Int) (g : CutGroup) : Prop where
  nonempty : g.items ≠ []
  ends : ∀ q ∈ g.items, itemEnd v q ≤ g.cutPosition
  reached : ∃ q ∈ g.items, itemEnd v q = g.cutPosition
  starts : ∀ q ∈ g.items, groupStart v g ≤ itemStart v q
  begun : ∃ q ∈ g.items, itemStart v q = groupStart v g
  whole : Inseparable v ct g.items

section
variable {v : Bool} {ct : Int}

theorem groupOk_single (item : ItemPlacement) : GroupOk v ct ⟨itemEnd v item, [item]⟩ := by
  refine ⟨by simp, ?_, ⟨item, by simp⟩, ?_, ⟨item, by simp, rfl⟩, ?_⟩
  · intro q hq
    rw [List.mem_singleton] at hq
    rw [hq]
  · intro q hq
    rw [List.mem_singleton] at hq
    rw [hq]
    exact le_refl _
  · intro x hx
    rcases hx item (by simp) with h | h
    · left
      intro q hq
      rw [List.mem_singleton] at hq
      rwa [hq]
    · right
      intro q hq
      rw [List.mem_singleton] at hq
      rwa [hq]

theorem groupStart_append {g : CutGroup} (h : g.items ≠ []) (c : Int) (item : ItemPlacement) :
    groupStart v ⟨c, g.items ++ [item]⟩ = groupStart v g := by
  unfold groupStart
  dsimp only
  cases hg : g.items with
  | nil => exact absurd hg h
  | cons a l => rfl

theorem groupOk_add {g : CutGroup} (h : GroupOk v ct g) {item : ItemPlacement}
    (hs : ∀ q ∈ g.items, itemStart v q ≤ itemStart v item)
    (hlt : itemStart v item < g.cutPosition + ct) :
    GroupOk v ct ⟨if itemEnd v item > g.cutPosition then itemEnd v item else g.cutPosition,
      g.items ++ [item]⟩ := by
  refine ⟨by simp, ?_, ?_, ?_, ?_, ?_⟩
  · intro q hq
    dsimp only at hq ⊢
    rcases List.mem_append.mp hq with hq | hq
    · have := h.ends q hq
      split_ifs <;> omega
    · rw [List.mem_singleton] at hq
      subst hq
      split_ifs <;> omega
  · dsimp only
    split_ifs
    · exact ⟨item, by simp, rfl⟩
    · obtain ⟨q, hq, he⟩ := h.reached
      exact ⟨q, by simp [hq], he⟩
  · rw [groupStart_append h.nonempty]
    intro q hq
    rcases List.mem_append.mp hq with hq | hq
    · exact h.starts q hq
    · rw [List.mem_singleton] at hq
      subst hq
      obtain ⟨q', hq', he⟩ := h.begun
      rw [← he]
      exact hs q' hq'
  · rw [groupStart_append h.nonempty]
    obtain ⟨q, hq, he⟩ := h.begun
    exact ⟨q, by simp [hq], he⟩
  · intro x hx
    dsimp only at hx ⊢
    rcases h.whole x fun q hq => hx q (List.mem_append_left _ hq) with ha | ha
    · left
      intro q hq
      rcases List.mem_append.mp hq with hq | hq
      · exact ha q hq
      · rw [List.mem_singleton] at hq
        subst hq
        obtain ⟨q', hq', he⟩ := h.reached
        have h1 := ha q' hq'
        rcases hx q (by simp) with h2 | h2
        · exact h2
        · omega
    · right
      intro q hq
      rcases List.mem_append.mp hq with hq | hq
      · exact ha q hq
      · rw [List.mem_singleton] at hq
        subst hq
        obtain ⟨q', hq', he⟩ := h.begun
        have h1 := ha q' hq'
        have h2 := hs q' hq'
        omega

/-- Groups in order. -/
def Ordered (v : Bool) (ct : Int) (gs : List CutGroup) : Prop :=
  gs.Pairwise fun g g' => g.cutPosition + ct ≤ groupStart v g'

theorem foldl_groupStep_ok : ∀ (l : List ItemPlacement) (gs : List CutGroup) (cur : CutGroup),
    l.Pairwise (fun p q => itemStart v p ≤ itemStart v q) →
    (∀ p ∈ l, 0 ≤ itemEnd v p) → 0 ≤ cur.cutPosition →
    (∀ q ∈ cur.items, ∀ p ∈ l, itemStart v q ≤ itemStart v p) →
    (∀ g ∈ gs ++ [cur], GroupOk v ct g) → Ordered v ct (gs ++ [cur]) →
    ∃ gs' cur', l.foldl (groupStep v ct) (gs, cur) = (gs', cur') ∧ cur'.items ≠ []
      ∧ (∀ g ∈ gs' ++ [cur'], GroupOk v ct g) ∧ Ordered v ct (gs' ++ [cur']) := by
  intro l
  induction l with
  | nil =>
    intro gs cur _ _ _ _ hok hord
    exact ⟨gs, cur, rfl, (hok cur (by simp)).nonempty, hok, hord⟩
  | cons item l ih =>
    intro gs cur hsort hend hcut hbef hok hord
    obtain ⟨hs1, hs2⟩ := List.pairwise_cons.mp hsort
    have hcur := hok cur (by simp)
    rw [List.foldl_cons]
    unfold groupStep
    dsimp only
    rw [if_neg (by omega)]
    have hitem : ∀ q ∈ cur.items, itemStart v q ≤ itemStart v item :=
      fun q hq => hbef q hq item (by simp)
    obtain ⟨hp1, hp2, hp3⟩ := List.pairwise_append.mp hord
    by_cases hge : itemStart v item ≥ cur.cutPosition + ct
    · rw [if_pos hge]
      refine ih (gs ++ [cur]) ⟨itemEnd v item, [item]⟩ hs2 (fun p hp => hend p (by simp [hp]))
        (hend item (by simp)) ?_ ?_ ?_
      · intro q hq p hp
        rw [List.mem_singleton] at hq
        rw [hq]
        exact hs1 p hp
      · intro g hg
        rcases List.mem_append.mp hg with hg | hg
        · exact hok g hg
        · rw [List.mem_singleton] at hg
          rw [hg]
          exact groupOk_single item
      · unfold Ordered
        rw [List.pairwise_append]
        refine ⟨hord, by simp, ?_⟩
        intro g hg g' hg'
        rw [List.mem_singleton] at hg'
        subst hg'
        show g.cutPosition + ct ≤ itemStart v item
        rcases List.mem_append.mp hg with hg | hg
        · have h1 := hp3 g hg cur (by simp)
          obtain ⟨q, hq, he⟩ := hcur.begun
          have h2 := hitem q hq
          omega
        · rw [List.mem_singleton] at hg
          rw [hg]
          exact hge
    · rw [if_neg hge]
      refine ih gs _ hs2 (fun p hp => hend p (by simp [hp])) ?_ ?_ ?_ ?_
      · dsimp only
        split_ifs <;> omega
      · intro q hq p hp
        dsimp only at hq
        rcases List.mem_append.mp hq with hq | hq
        · exact hbef q hq p (by simp [hp])
        · rw [List.mem_singleton] at hq
          rw [hq]
          exact hs1 p hp
      · intro g hg
        rcases List.mem_append.mp hg with hg | hg
        · exact hok g (by simp [hg])
        · rw [List.mem_singleton] at hg
          rw [hg]
          exact groupOk_add hcur hitem (by omega)
      · unfold Ordered
        rw [List.pairwise_append]
        refine ⟨hp1, by simp, ?_⟩
        intro g hg g' hg'
        rw [List.mem_singleton] at hg'
        rw [hg', groupStart_append hcur.nonempty]
        exact hp3 g hg cur (by simp)

/-- The groups: none can be separated by a cut, and each ends before the next. -/
theorem findGroups_ok {σ : Bool → List ItemPlacement → List ItemPlacement}
    (hσ : ∀ v l, IsSortOf (startsBefore v) l (σ v l)) {items : List ItemPlacement}
    (hend : ∀ p ∈ items, 0 ≤ itemEnd v p) :
    (∀ g ∈ findGroups σ items v ct, GroupOk v ct g) ∧ Ordered v ct (findGroups σ items v ct) := by
  have hp := (hσ v items).perm
  have hs := (hσ v items).sorted
  unfold findGroups
  dsimp only
  have hend' : ∀ p ∈ σ v items, 0 ≤ itemEnd v p := fun p h => hend p (hp.mem_iff.mp h)
  generalize σ v items = l at hs hend'
  cases l with
  | nil => exact ⟨by simp, by simp [Ordered]⟩
  | cons item l =>
    have hs' : (item :: l).Pairwise (fun p q => itemStart v p ≤ itemStart v q) := by
      refine hs.imp ?_
      intro a b hab
      unfold startsBefore at hab
      have := of_decide_eq_false hab
      omega
    obtain ⟨hs1, hs2⟩ := List.pairwise_cons.mp hs'
    rw [List.foldl_cons]
    have hfirst : groupStep v ct ([], ⟨-1, []⟩) item = ([], ⟨itemEnd v item, [item]⟩) := by
      unfold groupStep
      rw [if_pos (by decide)]
      rfl
    rw [hfirst]
    obtain ⟨gs', cur', e, hne, hok, hord⟩ := foldl_groupStep_ok (v := v) (ct := ct) l []
      ⟨itemEnd v item, [item]⟩ hs2 (fun p hp => hend' p (by simp [hp])) (hend' item (by simp))
      (by
        intro q hq p hp
        rw [List.mem_singleton] at hq
        rw [hq]
        exact hs1 p hp)
      (by
        intro g hg
        rw [List.nil_append, List.mem_singleton] at hg
        rw [hg]
        exact groupOk_single item)
      (by simp [Ordered])
    rw [e]
    dsimp only
    rw [if_neg (by rw [List.isEmpty_iff]; exact hne)]
    exact ⟨hok, hord⟩

/-! ### Groups and patterns -/

/-- Items that no cut separates come from one strip. -/
theorem group_strip {k : Nat} {S : Region} {L : List Region} (h : Cuts 0 k v S L) :
    ∀ {k' : Nat} {items : List ItemPlacement}, k = k' + 1 → items ≠ [] → Inseparable v 0 items →
    (items.map reg).Subperm L →
    ∃ S' L', Cuts 0 k' (!v) S' L' ∧ (items.map reg).Subperm L' ∧ S'.low (!v) = S.low (!v)
      ∧ S'.high (!v) = S.high (!v) := by
  induction h with
  | @piece k v R hR =>
    intro k' items hk hne hw hsub
    exact ⟨R, [R], .piece hR, hsub, rfl, rfl⟩
  | @cut k v R p L L' h1 h2 c1 c2 ih1 ih2 =>
    intro k' items hk hne hw hsub
    have hin1 := cuts_inside (le_refl _) c1
    have hin2 := cuts_inside (le_refl _) c2
    have hb : ∀ P ∈ L, P.high v ≤ p ∧ P.low v < p := by
      intro P hP
      obtain ⟨⟨a, b, c, d⟩, n1, n2⟩ := hin1 P hP
      cases v
      · simp only [Region.before, Region.high, Region.low, Bool.false_eq_true, if_false] at *
        omega
      · simp only [Region.before, Region.high, Region.low, if_true] at *
        omega
    have ha : ∀ P ∈ L', p ≤ P.low v ∧ p < P.high v := by
      intro P hP
      obtain ⟨⟨a, b, c, d⟩, n1, n2⟩ := hin2 P hP
      cases v
      · simp only [Region.after, Region.high, Region.low, Bool.false_eq_true, if_false] at *
        omega
      · simp only [Region.after, Region.high, Region.low, if_true] at *
        omega
    rcases hw p (by
      intro q hq
      rw [itemStart_eq, itemEnd_eq]
      rcases List.mem_append.mp (hsub.subset (List.mem_map_of_mem hq)) with hm | hm
      · exact .inl (hb _ hm).1
      · right; have := (ha _ hm).1; omega) with hall | hall
    · have hsub1 : (items.map reg).Subperm L := by
        have hf := hsub.filter (fun P => decide (P.high v ≤ p))
        rw [List.filter_eq_self.mpr, List.filter_append, List.filter_eq_self.mpr,
          List.filter_eq_nil_iff.mpr, List.append_nil] at hf
        · exact hf
        · intro P hP hd
          have := (ha P hP).2
          have := of_decide_eq_true hd
          omega
        · intro P hP
          exact decide_eq_true (hb P hP).1
        · intro P hP
          obtain ⟨q, hq, rfl⟩ := List.mem_map.mp hP
          have := hall q hq
          rw [itemEnd_eq] at this
          exact decide_eq_true this
      have hk' : k = k' := by omega
      subst hk'
      refine ⟨_, L, c1, hsub1, ?_, ?_⟩ <;> cases v <;> rfl
    · have hsub2 : (items.map reg).Subperm L' := by
        have hf := hsub.filter (fun P => decide (p ≤ P.low v))
        rw [List.filter_eq_self.mpr, List.filter_append, List.filter_eq_nil_iff.mpr,
          List.filter_eq_self.mpr, List.nil_append] at hf
        · exact hf
        · intro P hP
          exact decide_eq_true (ha P hP).1
        · intro P hP hd
          have := (hb P hP).2
          have := of_decide_eq_true hd
          omega
        · intro P hP
          obtain ⟨q, hq, rfl⟩ := List.mem_map.mp hP
          have := hall q hq
          rw [itemStart_eq] at this
          exact decide_eq_true (by omega)
      obtain ⟨S', L1, e1, e2, e3, e4⟩ := ih2 hk hne hw hsub2
      refine ⟨S', L1, e1, e2, ?_, ?_⟩
      · rw [e3]; cases v <;> rfl
      · rw [e4]; cases v <;> rfl
  | @last k v R p L h1 h2 h3 c ih =>
    intro k' items hk hne hw hsub
    have hk' : k = k' := by omega
    subst hk'
    refine ⟨_, L, c, hsub, ?_, ?_⟩ <;> cases v <;> rfl

end

end PackingSolver.Guil.PostProcess
