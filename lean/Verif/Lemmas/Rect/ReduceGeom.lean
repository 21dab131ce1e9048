import Verif.Spec.RectGeometry
import Mathlib.Data.List.Sort
import Mathlib.Data.List.Induction
import Mathlib.Data.List.Dedup
import Mathlib.Data.List.Pairwise
import Mathlib.Algebra.Order.BigOperators.Group.List

/-!
# Geometry of the reduction

Tables of item types (sizes, copies, orientation) and how packings of a table give packings of the
reduced table.
-/

namespace PackingSolver.Rect.Reduction

open PackingSolver.Rect.Spec

/-- A table of `n` item types. -/
structure Tab where
  n : Nat
  w : Nat → Int
  h : Nat → Int
  c : Nat → Int
  o : Nat → Bool

namespace Tab

/-- The width of an item as it is placed. -/
def wd (T : Tab) (p : PlacedItem) : Int := if p.rotate then T.h p.itemTypeId else T.w p.itemTypeId

/-- The height of an item as it is placed. -/
def ht (T : Tab) (p : PlacedItem) : Int := if p.rotate then T.w p.itemTypeId else T.h p.itemTypeId

/-- The rectangle of a placed item. -/
def occ (T : Tab) (p : PlacedItem) : Placed := ⟨p.x, p.y, T.wd p, T.ht p⟩

/-- A valid bin of size `W × H`. -/
structure Good (T : Tab) (W H : Int) (b : List PlacedItem) : Prop where
  exist : ∀ p ∈ b, p.itemTypeId < T.n
  rotation : ∀ p ∈ b, p.rotate = true → T.o p.itemTypeId = false
  inside : ∀ p ∈ b, Inside W H (T.occ p)
  separated : b.Pairwise fun p q => Separated (T.occ p) (T.occ q)

/-- A packing of all copies. -/
structure Packs (T : Tab) (W H : Int) (bins : List (List PlacedItem)) : Prop where
  each : ∀ b ∈ bins, T.Good W H b
  all : ∀ i, i < T.n → count bins.flatten i = T.c i

/-- The sides are positive. -/
def Pos (T : Tab) : Prop := ∀ i, i < T.n → 0 < T.w i ∧ 0 < T.h i

variable {T T' : Tab} {W H : Int} {b : List PlacedItem} {bins : List (List PlacedItem)}

theorem separated_symm {r s : Placed} (h : Separated r s) : Separated s r := by
  unfold Separated at *; tauto

theorem Good.sep (hg : T.Good W H b) {p q : PlacedItem} (hp : p ∈ b) (hq : q ∈ b) (hne : p ≠ q) :
    Separated (T.occ p) (T.occ q) := by
  have : Std.Symm fun p q : PlacedItem => Separated (T.occ p) (T.occ q) :=
    ⟨fun _ _ h => separated_symm h⟩
  exact hg.separated.forall hp hq hne

theorem Pos.wd_pos (hP : T.Pos) {p : PlacedItem} (h : p.itemTypeId < T.n) : 0 < T.wd p := by
  unfold wd; have := hP _ h; split_ifs <;> omega

theorem Pos.ht_pos (hP : T.Pos) {p : PlacedItem} (h : p.itemTypeId < T.n) : 0 < T.ht p := by
  unfold ht; have := hP _ h; split_ifs <;> omega

/-- Items with the same place overlap: a good bin has no repeated entry. -/
theorem Good.nodup (hg : T.Good W H b) (hP : T.Pos) : b.Nodup := by
  unfold List.Nodup
  have h1 : b.Pairwise fun p q => Separated (T.occ p) (T.occ q) ∧ p ∈ b := by
    apply List.Pairwise.imp_of_mem _ hg.separated
    intro p q hp _ h; exact ⟨h, hp⟩
  refine h1.imp ?_
  rintro p q ⟨hs, hp⟩ rfl
  have h1 := hP.wd_pos (hg.exist p hp)
  have h2 := hP.ht_pos (hg.exist p hp)
  unfold Separated occ at hs
  simp only at hs
  omega

theorem Good.sublist (hg : T.Good W H b) {b' : List PlacedItem} (h : b'.Sublist b) :
    T.Good W H b' :=
  ⟨fun p hp => hg.exist p (h.subset hp), fun p hp => hg.rotation p (h.subset hp),
    fun p hp => hg.inside p (h.subset hp), hg.separated.sublist h⟩

theorem Good.perm (hg : T.Good W H b) {b' : List PlacedItem} (h : b'.Perm b) : T.Good W H b' :=
  ⟨fun p hp => hg.exist p (h.subset hp), fun p hp => hg.rotation p (h.subset hp),
    fun p hp => hg.inside p (h.subset hp),
    (h.pairwise_iff (fun h => separated_symm h)).mpr hg.separated⟩

theorem count_append (a b : List PlacedItem) (i : Nat) : count (a ++ b) i = count a i + count b i := by
  unfold count; rw [List.countP_append]; push_cast; rfl

theorem count_perm {a b : List PlacedItem} (h : a.Perm b) (i : Nat) : count a i = count b i := by
  unfold count; rw [h.countP_eq]

theorem count_cons (p : PlacedItem) (a : List PlacedItem) (i : Nat) :
    count (p :: a) i = count a i + if p.itemTypeId = i then 1 else 0 := by
  unfold count; rw [List.countP_cons]; by_cases h : p.itemTypeId = i <;> simp [h]

theorem count_nil (i : Nat) : count ([] : List PlacedItem) i = 0 := rfl

theorem count_nonneg (a : List PlacedItem) (i : Nat) : 0 ≤ count a i := by unfold count; omega

theorem count_zero_iff (a : List PlacedItem) (i : Nat) :
    count a i = 0 ↔ ∀ p ∈ a, p.itemTypeId ≠ i := by
  unfold count
  rw [Int.natCast_eq_zero, List.countP_eq_zero]
  simp

theorem count_sublist {a b : List PlacedItem} (h : a.Sublist b) (i : Nat) : count a i ≤ count b i := by
  unfold count; exact_mod_cast h.countP_le

theorem Packs.perm (hp : T.Packs W H bins) {bins' : List (List PlacedItem)} (h : bins'.Perm bins) :
    T.Packs W H bins' :=
  ⟨fun b hb => hp.each b (h.subset hb), fun i hi => by
    rw [count_perm h.flatten i]; exact hp.all i hi⟩

theorem Packs.grow (hp : T.Packs W H bins) {W' H' : Int} (hW : W ≤ W') (hH : H ≤ H') :
    T.Packs W' H' bins :=
  ⟨fun b hb => by
    have hg := hp.each b hb
    refine ⟨hg.exist, hg.rotation, fun p hpb => ?_, hg.separated⟩
    have := hg.inside p hpb
    unfold Inside at *; omega, hp.all⟩

/-- The table only matters on its item types. -/
theorem Packs.congr (hp : T.Packs W H bins) (hn : T'.n = T.n)
    (he : ∀ i, i < T.n → T'.w i = T.w i ∧ T'.h i = T.h i ∧ T'.c i = T.c i ∧ T'.o i = T.o i) :
    T'.Packs W H bins := by
  have ho : ∀ p : PlacedItem, p.itemTypeId < T.n → T'.occ p = T.occ p := by
    intro p hp
    unfold occ wd ht
    rw [(he _ hp).1, (he _ hp).2.1]
  refine ⟨fun b hb => ?_, fun i hi => ?_⟩
  · have hg := hp.each b hb
    refine ⟨fun p hpb => hn ▸ hg.exist p hpb, fun p hpb hr => ?_, fun p hpb => ?_, ?_⟩
    · rw [(he _ (hg.exist p hpb)).2.2.2]; exact hg.rotation p hpb hr
    · rw [ho p (hg.exist p hpb)]; exact hg.inside p hpb
    · refine List.Pairwise.imp_of_mem ?_ hg.separated
      intro p q hpb hqb h
      rw [ho p (hg.exist p hpb), ho q (hg.exist q hqb)]; exact h
  · rw [hn] at hi; rw [(he i hi).2.2.1]; exact hp.all i hi

/-! ## Exchanging the axes -/

/-- The table with the axes exchanged. -/
def flip (T : Tab) : Tab := { T with w := T.h, h := T.w }

/-- A placed item with the axes exchanged. -/
def flipItem (p : PlacedItem) : PlacedItem := { p with x := p.y, y := p.x }

theorem flip_wd (T : Tab) (p : PlacedItem) : T.flip.wd (flipItem p) = T.ht p := by
  unfold wd ht flip flipItem; rfl

theorem flip_ht (T : Tab) (p : PlacedItem) : T.flip.ht (flipItem p) = T.wd p := by
  unfold wd ht flip flipItem; rfl

theorem separated_flip (T : Tab) {p q : PlacedItem} (h : Separated (T.occ p) (T.occ q)) :
    Separated (T.flip.occ (flipItem p)) (T.flip.occ (flipItem q)) := by
  unfold Separated occ at *
  simp only [flip_wd, flip_ht] at *
  change p.y + _ ≤ q.y ∨ q.y + _ ≤ p.y ∨ p.x + _ ≤ q.x ∨ q.x + _ ≤ p.x
  tauto

theorem Good.flip (hg : T.Good W H b) : T.flip.Good H W (b.map flipItem) := by
  refine ⟨?_, ?_, ?_, ?_⟩
  · intro p hp
    obtain ⟨q, hq, rfl⟩ := List.mem_map.mp hp
    exact hg.exist q hq
  · intro p hp
    obtain ⟨q, hq, rfl⟩ := List.mem_map.mp hp
    exact hg.rotation q hq
  · intro p hp
    obtain ⟨q, hq, rfl⟩ := List.mem_map.mp hp
    have := hg.inside q hq
    unfold Inside occ at *
    simp only [flip_wd, flip_ht] at *
    change 0 ≤ q.y ∧ q.y + _ ≤ H ∧ 0 ≤ q.x ∧ q.x + _ ≤ W
    tauto
  · rw [List.pairwise_map]
    exact hg.separated.imp (fun h => separated_flip T h)

theorem count_map_flip (a : List PlacedItem) (i : Nat) : count (a.map flipItem) i = count a i := by
  unfold count; rw [List.countP_map]; rfl

theorem Packs.flip (hp : T.Packs W H bins) : T.flip.Packs H W (bins.map (·.map flipItem)) := by
  refine ⟨fun b hb => ?_, fun i hi => ?_⟩
  · obtain ⟨c, hc, rfl⟩ := List.mem_map.mp hb
    exact (hp.each c hc).flip
  · rw [← List.map_flatten, count_map_flip]; exact hp.all i hi

/-! ## Items that are wide -/

/-- **Widening.**  Item types of `E` are wider than half of the bin; every other item type that
could be beside one of them is in `R`.  Without the items of `R`, the items of `E` may take the
whole width. -/
theorem Packs.widen (hp : T.Packs W H bins) (E R : Nat → Prop) [DecidablePred E] [DecidablePred R]
    (hER : ∀ i, E i → ¬ R i)
    (hE : ∀ i, E i → T.o i = true ∧ W < 2 * T.w i ∧ T.w i ≤ W)
    (hR : ∀ i j, i < T.n → j < T.n → E i → ¬ R j →
      (W < 2 * T.w j ∧ T.o j = true)
        ∨ (W - T.w i < T.w j ∧ (T.o j = true ∨ W - T.w i < T.h j)))
    (hn : T'.n = T.n) (ho : ∀ i, i < T.n → T'.o i = T.o i)
    (hw : ∀ i, i < T.n → ¬ R i → T'.w i = if E i then W else T.w i)
    (hh : ∀ i, i < T.n → ¬ R i → T'.h i = T.h i)
    (hc : ∀ i, i < T.n → T'.c i = if R i then 0 else T.c i) :
    ∃ bins', T'.Packs W H bins' ∧ bins'.length = bins.length := by
  set mv : PlacedItem → PlacedItem := fun p => if E p.itemTypeId then { p with x := 0 } else p
    with hmv
  have hid : ∀ p, (mv p).itemTypeId = p.itemTypeId := by
    intro p; simp only [hmv]; split_ifs <;> rfl
  have hrot : ∀ p, (mv p).rotate = p.rotate := by intro p; simp only [hmv]; split_ifs <;> rfl
  have hy : ∀ p, (mv p).y = p.y := by intro p; simp only [hmv]; split_ifs <;> rfl
  -- the new size of an item that stays
  have hht : ∀ p : PlacedItem, p.itemTypeId < T.n → ¬ R p.itemTypeId →
      (p.rotate = true → T.o p.itemTypeId = false) → T'.ht (mv p) = T.ht p := by
    intro p hp hr hrt
    unfold ht
    rw [hid, hrot]
    split_ifs with h
    · rw [hw _ hp hr, if_neg]
      intro he
      have := (hE _ he).1
      rw [hrt h] at this
      exact absurd this (by simp)
    · exact hh _ hp hr
  have hwdE : ∀ p : PlacedItem, p.itemTypeId < T.n → E p.itemTypeId →
      (p.rotate = true → T.o p.itemTypeId = false) →
      T'.wd (mv p) = W ∧ (mv p).x = 0 ∧ T.wd p = T.w p.itemTypeId := by
    intro p hp he hrt
    have hr0 : p.rotate = false := by
      by_contra h
      have h' : p.rotate = true := by simpa using h
      have h1 := hrt h'
      have h2 := (hE _ he).1
      rw [h1] at h2; exact absurd h2 (by simp)
    refine ⟨?_, ?_, ?_⟩
    · unfold wd
      rw [hid, hrot, hr0, if_neg (by simp), hw _ hp (hER _ he), if_pos he]
    · simp only [hmv, if_pos he]
    · unfold wd; rw [hr0, if_neg (by simp)]
  have hwdN : ∀ p : PlacedItem, p.itemTypeId < T.n → ¬ R p.itemTypeId → ¬ E p.itemTypeId →
      T'.wd (mv p) = T.wd p ∧ (mv p).x = p.x := by
    intro p hp hr he
    refine ⟨?_, ?_⟩
    · unfold wd
      rw [hid, hrot, hw _ hp hr, if_neg he, hh _ hp hr]
    · simp only [hmv, if_neg he]
  -- an item of `E` is never beside an item that stays
  have key : ∀ b ∈ bins, ∀ p ∈ b, ∀ q ∈ b, E p.itemTypeId → ¬ R q.itemTypeId →
      Separated (T.occ p) (T.occ q) →
      p.y + T.ht p ≤ q.y ∨ q.y + T.ht q ≤ p.y := by
    intro b hb p hpb q hqb he hr hs
    have hg := hp.each b hb
    have hpn := hg.exist p hpb
    have hqn := hg.exist q hqb
    obtain ⟨-, -, hwp⟩ := hwdE p hpn he (hg.rotation p hpb)
    have h1 := hg.inside p hpb
    have h2 := hg.inside q hqb
    have hE' := hE _ he
    have hR' := hR _ _ hpn hqn he hr
    unfold Inside occ at h1 h2
    unfold Separated occ at hs
    simp only at h1 h2 hs
    rw [hwp] at h1 hs
    -- the width of q
    have hq : W - T.w p.itemTypeId < T.wd q ∨ W < 2 * T.wd q := by
      unfold wd
      by_cases hqr : q.rotate = true
      · rw [if_pos hqr]
        have hoq := hg.rotation q hqb hqr
        rcases hR' with h | h
        · rw [hoq] at h; exact absurd h.2 (by simp)
        · rcases h.2 with h3 | h3
          · rw [hoq] at h3; exact absurd h3 (by simp)
          · left; exact h3
      · rw [if_neg hqr]
        rcases hR' with h | h
        · right; exact h.1
        · left; exact h.1
    rcases hs with h | h | h | h
    · exfalso; omega
    · exfalso; omega
    · left; exact h
    · right; exact h
  refine ⟨bins.map fun b => (b.filter fun p => decide (¬ R p.itemTypeId)).map mv, ⟨?_, ?_⟩, by simp⟩
  · intro b' hb'
    obtain ⟨b, hb, rfl⟩ := List.mem_map.mp hb'
    have hg := hp.each b hb
    refine ⟨?_, ?_, ?_, ?_⟩
    · intro p' hp'
      obtain ⟨p, hpf, rfl⟩ := List.mem_map.mp hp'
      rw [hid, hn]; exact hg.exist p (List.mem_of_mem_filter hpf)
    · intro p' hp' hr
      obtain ⟨p, hpf, rfl⟩ := List.mem_map.mp hp'
      have hpb := List.mem_of_mem_filter hpf
      rw [hid, ho _ (hg.exist p hpb)]
      rw [hrot] at hr
      exact hg.rotation p hpb hr
    · intro p' hp'
      obtain ⟨p, hpf, rfl⟩ := List.mem_map.mp hp'
      have hpb := List.mem_of_mem_filter hpf
      have hnr : ¬ R p.itemTypeId := by simpa using List.of_mem_filter hpf
      have hi := hg.inside p hpb
      unfold Inside occ at *
      simp only at *
      rw [hht p (hg.exist p hpb) hnr (hg.rotation p hpb), hy]
      by_cases he : E p.itemTypeId
      · obtain ⟨h1, h2, -⟩ := hwdE p (hg.exist p hpb) he (hg.rotation p hpb)
        rw [h1, h2]; omega
      · obtain ⟨h1, h2⟩ := hwdN p (hg.exist p hpb) hnr he
        rw [h1, h2]; exact hi
    · rw [List.pairwise_map]
      refine List.Pairwise.imp_of_mem ?_ (hg.separated.sublist List.filter_sublist)
      intro p q hpf hqf hs
      have hpb := List.mem_of_mem_filter hpf
      have hqb := List.mem_of_mem_filter hqf
      have hnp : ¬ R p.itemTypeId := by simpa using List.of_mem_filter hpf
      have hnq : ¬ R q.itemTypeId := by simpa using List.of_mem_filter hqf
      have e1 := hht p (hg.exist p hpb) hnp (hg.rotation p hpb)
      have e2 := hht q (hg.exist q hqb) hnq (hg.rotation q hqb)
      by_cases hep : E p.itemTypeId
      · have := key b hb p hpb q hqb hep hnq hs
        unfold Separated occ
        simp only
        rw [e1, e2, hy, hy]
        tauto
      by_cases heq : E q.itemTypeId
      · have := key b hb q hqb p hpb heq hnp (separated_symm hs)
        unfold Separated occ
        simp only
        rw [e1, e2, hy, hy]
        tauto
      obtain ⟨h1, h2⟩ := hwdN p (hg.exist p hpb) hnp hep
      obtain ⟨h3, h4⟩ := hwdN q (hg.exist q hqb) hnq heq
      unfold Separated occ at *
      simp only at *
      rw [e1, e2, hy, hy, h1, h2, h3, h4]
      exact hs
  · intro i hi
    rw [hn] at hi
    rw [hc i hi]
    have hcount : count (bins.map fun b =>
        (b.filter fun p => decide (¬ R p.itemTypeId)).map mv).flatten i
        = if R i then 0 else count bins.flatten i := by
      have e : (bins.map fun b => (b.filter fun p => decide (¬ R p.itemTypeId)).map mv).flatten
          = (bins.flatten.filter fun p => decide (¬ R p.itemTypeId)).map mv := by
        rw [List.filter_flatten, List.map_flatten, List.map_map]; rfl
      rw [e]
      unfold count
      rw [List.countP_map, List.countP_filter]
      split_ifs with hr
      · rw [Int.natCast_eq_zero, List.countP_eq_zero]
        intro p _
        simp only [Function.comp, hid, Bool.and_eq_true, decide_eq_true_eq, not_and]
        intro h; rw [h]; exact fun h' => h' hr
      · congr 1
        apply List.countP_congr
        intro p _
        simp only [Function.comp, hid, Bool.and_eq_true, decide_eq_true_eq, and_iff_left_iff_imp]
        intro h; rw [h]; exact hr
    rw [hcount]
    split_ifs
    · rfl
    · exact hp.all i hi

end Tab

end PackingSolver.Rect.Reduction
