import Verif.Model.Dff
import Verif.Spec.Dff
import Verif.Lemmas.Except
import Mathlib.Tactic.Linarith
import Mathlib.Tactic.Ring
import Mathlib.Algebra.Order.BigOperators.Group.List
import Mathlib.Data.List.Count
import Mathlib.Algebra.BigOperators.Ring.List
import Mathlib.Algebra.BigOperators.Group.List.Lemmas

/-!
# Lemmas about dual feasible functions
-/

namespace PackingSolver.Dff

open PackingSolver.Spec
open scoped List

/-! ## Maximum cardinality -/

theorem pieces_cons (length copies : Int) (rest : List (Int × Int)) :
    pieces ((length, copies) :: rest) = List.replicate copies.toNat length ++ pieces rest := by
  simp [pieces]

theorem mem_pieces {pool : List (Int × Int)} {x : Int} (h : x ∈ pieces pool) :
    ∃ p ∈ pool, p.1 = x := by
  obtain ⟨p, hp, hx⟩ := List.mem_flatMap.mp h
  exact ⟨p, hp, (List.mem_replicate.mp hx).2.symm⟩

/-- The pieces of a sorted pool are sorted. -/
theorem pieces_sorted {pool : List (Int × Int)} (h : pool.Pairwise fun a b => a.1 ≤ b.1) :
    (pieces pool).Pairwise (· ≤ ·) := by
  induction pool with
  | nil => simp [pieces]
  | cons p pool ih =>
    obtain ⟨a, c⟩ := p
    obtain ⟨h1, h2⟩ := List.pairwise_cons.mp h
    rw [pieces_cons, List.pairwise_append]
    refine ⟨List.pairwise_replicate.mpr (.inr le_rfl), ih h2, fun x hx y hy => ?_⟩
    obtain ⟨p, hp, rfl⟩ := mem_pieces hy
    rw [(List.mem_replicate.mp hx).2]
    exact h1 p hp

/-- Any `n` elements of a sorted list sum to at least its first `n` elements. -/
theorem take_sum_le {L s : List Int} (hL : L.Pairwise (· ≤ ·)) (h : s <+ L) :
    (L.take s.length).sum ≤ s.sum := by
  induction h with
  | slnil => simp
  | @cons s L a h ih =>
    obtain ⟨h1, h2⟩ := List.pairwise_cons.mp hL
    have IH := ih h2
    have hlen := h.length_le
    cases hn : s.length with
    | zero =>
      rw [List.length_eq_zero_iff.mp hn]; simp
    | succ m =>
      rw [hn] at IH hlen
      rw [List.take_succ_cons, List.sum_cons]
      rw [List.take_succ_eq_append_getElem (by omega), List.sum_append] at IH
      have := h1 L[m] (List.getElem_mem _)
      simp only [List.sum_cons, List.sum_nil] at IH
      omega
  | @cons_cons s L a h ih =>
    have := ih (List.pairwise_cons.mp hL).2
    simp only [List.length_cons, List.take_succ_cons, List.sum_cons]
    omega

theorem sum_nonneg_of_pos {l : List Int} (h : ∀ x ∈ l, 0 < x) : 0 ≤ l.sum :=
  List.sum_nonneg fun x hx => (h x hx).le

theorem take_sum_mono {L : List Int} (h : ∀ x ∈ L, 0 < x) {m n : Nat} (hmn : m ≤ n) :
    (L.take m).sum ≤ (L.take n).sum := by
  have : L.take n = L.take m ++ (L.drop m).take (n - m) := by
    have h1 : n = m + (n - m) := by omega
    conv_lhs => rw [h1, List.take_add]
  rw [this, List.sum_append]
  have := sum_nonneg_of_pos (l := (L.drop m).take (n - m))
    fun x hx => h x (List.mem_of_mem_drop (List.mem_of_mem_take hx))
  omega

/-- What the greedy loop computes. -/
theorem greedyLoop_spec (capacity : Int) (pool : List (Int × Int))
    (hpos : ∀ p ∈ pool, 0 < p.1 ∧ 0 ≤ p.2) (used count : Int) (hu : used ≤ capacity) :
    ∃ g : Nat, greedyLoop capacity pool used count = .ok (count + g)
      ∧ g ≤ (pieces pool).length
      ∧ ((pieces pool).take g).sum ≤ capacity - used
      ∧ (g < (pieces pool).length → capacity - used < ((pieces pool).take (g + 1)).sum) := by
  induction pool generalizing used count with
  | nil => exact ⟨0, by simp [greedyLoop], by simp, by simp [pieces]; omega, by simp [pieces]⟩
  | cons p pool ih =>
    obtain ⟨a, c⟩ := p
    obtain ⟨ha, hc⟩ : 0 < a ∧ 0 ≤ c := hpos (a, c) (by simp)
    have hposr : ∀ x ∈ pieces pool, 0 < x := by
      intro x hx
      obtain ⟨p, hp, rfl⟩ := mem_pieces hx
      exact (hpos p (by simp [hp])).1
    have hcn : ((c.toNat : Nat) : Int) = c := Int.toNat_of_nonneg hc
    unfold greedyLoop
    rw [pieces_cons]
    by_cases h : used + c * a < capacity
    · rw [if_pos h]
      obtain ⟨g, h1, h2, h3, h4⟩ := ih (fun p hp => hpos p (by simp [hp])) (used + c * a)
        (count + c) h.le
      have htake : ∀ n, (List.replicate c.toNat a ++ pieces pool).take (c.toNat + n)
          = List.replicate c.toNat a ++ (pieces pool).take n := by
        intro n
        rw [List.take_append]
        simp
      refine ⟨c.toNat + g, ?_, ?_, ?_, ?_⟩
      · rw [h1]; congr 1; push_cast; rw [hcn]; ring
      · simp; exact h2
      · rw [htake, List.sum_append, List.sum_replicate, nsmul_eq_mul, hcn]; linarith
      · intro hlt
        rw [add_assoc, htake, List.sum_append, List.sum_replicate, nsmul_eq_mul, hcn]
        have := h4 (by simpa using hlt)
        linarith
    · rw [if_neg h, if_neg (by omega)]
      have hq0 : 0 ≤ capacity - used := by omega
      rw [Int.tdiv_eq_ediv_of_nonneg hq0]
      set q := (capacity - used) / a with hq
      have hq1 : 0 ≤ q := Int.ediv_nonneg hq0 ha.le
      have hqa : q * a ≤ capacity - used := Int.ediv_mul_le _ ha.ne'
      have hqa' : capacity - used < (q + 1) * a := Int.lt_ediv_add_one_mul_self _ ha
      have hqc : q ≤ c := by
        have : q < c + 1 := Int.ediv_lt_of_lt_mul ha (by nlinarith)
        omega
      have hqn : ((q.toNat : Nat) : Int) = q := Int.toNat_of_nonneg hq1
      have hle : q.toNat ≤ c.toNat := by omega
      refine ⟨q.toNat, by rw [hqn], ?_, ?_, ?_⟩
      · simp; omega
      · rw [List.take_append_of_le_length (by simpa using hle), List.take_replicate,
          Nat.min_eq_left hle, List.sum_replicate, nsmul_eq_mul, hqn]
        exact hqa
      · intro hlt
        by_cases hlt' : q.toNat + 1 ≤ c.toNat
        · rw [List.take_append_of_le_length (by simpa using hlt'), List.take_replicate,
            Nat.min_eq_left hlt', List.sum_replicate, nsmul_eq_mul]
          push_cast
          rw [hqn]
          exact hqa'
        · have hqc' : q.toNat = c.toNat := by omega
          rw [hqc']
          have htake : (List.replicate c.toNat a ++ pieces pool).take (c.toNat + 1)
              = List.replicate c.toNat a ++ (pieces pool).take 1 := by
            rw [List.take_append]; simp
          rw [htake, List.sum_append, List.sum_replicate, nsmul_eq_mul, hcn]
          have hlt2 : 0 < (pieces pool).length := by
            rw [List.length_append, List.length_replicate] at hlt; omega
          cases hp : pieces pool with
          | nil => rw [hp] at hlt2; simp at hlt2
          | cons y ys =>
            have hy : 0 < y := hposr y (by rw [hp]; simp)
            simp only [List.take_succ_cons, List.take_zero, List.sum_cons, List.sum_nil]
            have : q = c := by omega
            nlinarith

/-- `v` is the maximum cardinality of a selection (at most zero for a negative capacity). -/
structure IsMaxCardinality (pool : List (Int × Int)) (capacity v : Int) : Prop where
  upper : ∀ s, Selection pool capacity s → (s.length : Int) ≤ v
  attained : 0 ≤ capacity → ∃ s, Selection pool capacity s ∧ (s.length : Int) = v
  negative : capacity < 0 → v ≤ 0

theorem greedy_spec {capacity : Int} {pool : List (Int × Int)}
    (hpos : ∀ p ∈ pool, 0 < p.1 ∧ 0 ≤ p.2) (hs : pool.Pairwise fun a b => a.1 ≤ b.1) :
    ∃ v, greedyMaximumCardinality capacity pool = .ok v ∧ IsMaxCardinality pool capacity v := by
  have hposr : ∀ x ∈ pieces pool, 0 < x := by
    intro x hx
    obtain ⟨p, hp, rfl⟩ := mem_pieces hx
    exact (hpos p hp).1
  by_cases hc : 0 ≤ capacity
  · obtain ⟨g, h1, h2, h3, h4⟩ := greedyLoop_spec capacity pool hpos 0 0 hc
    refine ⟨g, by unfold greedyMaximumCardinality; rw [h1]; simp, ⟨fun s hsel => ?_, fun _ => ?_,
      fun h => by omega⟩⟩
    · obtain ⟨s', hperm, hsub⟩ := hsel.available
      have h5 := take_sum_le (pieces_sorted hs) hsub
      rw [hperm.sum_eq, hperm.length_eq] at h5
      have hlen : s.length ≤ (pieces pool).length := hsel.available.length_le
      by_contra hlt
      have hlt : g + 1 ≤ s.length := by omega
      have h6 := h4 (by omega)
      have h7 := take_sum_mono hposr hlt
      have := hsel.fits
      omega
    · refine ⟨(pieces pool).take g, ⟨(List.take_sublist _ _).subperm, by omega⟩, ?_⟩
      rw [List.length_take, Nat.min_eq_left h2]
  · have hneg : ∃ v, greedyMaximumCardinality capacity pool = .ok v ∧ v ≤ 0 := by
      unfold greedyMaximumCardinality
      cases pool with
      | nil => exact ⟨0, rfl, le_rfl⟩
      | cons p pool =>
        obtain ⟨a, c⟩ := p
        obtain ⟨ha, hc'⟩ : 0 < a ∧ 0 ≤ c := hpos (a, c) (by simp)
        have : 0 ≤ c * a := mul_nonneg hc' ha.le
        unfold greedyLoop
        rw [if_neg (by omega), if_neg (by omega)]
        refine ⟨_, rfl, ?_⟩
        rw [zero_add, sub_zero]
        have h1 : 0 ≤ (-capacity).tdiv a := Int.tdiv_nonneg (by omega) ha.le
        rw [Int.neg_tdiv] at h1
        omega
    obtain ⟨v, h1, h2⟩ := hneg
    refine ⟨v, h1, ⟨fun s hsel => ?_, fun h => absurd h hc, fun _ => h2⟩⟩
    have h3 : 0 ≤ s.sum := sum_nonneg_of_pos fun x hx => hposr x (hsel.available.subset hx)
    have := hsel.fits
    omega

theorem IsMaxCardinality.mono {pool : List (Int × Int)} {c c' v v' : Int}
    (h : IsMaxCardinality pool c v) (h' : IsMaxCardinality pool c' v') (hc : c ≤ c')
    (hc0 : 0 ≤ c') : v ≤ v' := by
  by_cases h0 : 0 ≤ c
  · obtain ⟨s, hs, hl⟩ := h.attained h0
    rw [← hl]
    exact h'.upper s ⟨hs.available, hs.fits.trans hc⟩
  · obtain ⟨s, hs, hl⟩ := h'.attained hc0
    have := h.negative (by omega)
    omega

theorem IsMaxCardinality.nonneg {pool : List (Int × Int)} {c v : Int}
    (h : IsMaxCardinality pool c v) (hc : 0 ≤ c) : 0 ≤ v := by
  obtain ⟨s, -, hl⟩ := h.attained hc
  omega

theorem perm_pieces {p p' : List (Int × Int)} (h : p.Perm p') : (pieces p).Perm (pieces p') :=
  h.flatMap_right _

instance : Std.Total pairLe := ⟨fun a b => by unfold pairLe; omega⟩
instance : IsTrans (Int × Int) pairLe := ⟨fun a b c => by unfold pairLe; omega⟩

/-- Maximum cardinality of the sorted pool. -/
theorem greedy_sorted {capacity : Int} {pool : List (Int × Int)}
    (hpos : ∀ p ∈ pool, 0 < p.1 ∧ 0 ≤ p.2) :
    ∃ v, greedyMaximumCardinality capacity (sortPool pool) = .ok v
      ∧ IsMaxCardinality pool capacity v := by
  have hperm : (sortPool pool).Perm pool := List.perm_insertionSort _ _
  obtain ⟨v, h1, h2⟩ := greedy_spec (capacity := capacity) (pool := sortPool pool)
    (fun p hp => hpos p (hperm.mem_iff.mp hp))
    ((List.pairwise_insertionSort pairLe pool).imp (by
      intro a b h; unfold pairLe at h; omega))
  have hpp := perm_pieces hperm
  have hsel : ∀ c s, Selection (sortPool pool) c s ↔ Selection pool c s := fun c s =>
    ⟨fun h => ⟨(hpp.subperm_left).mp h.available, h.fits⟩,
      fun h => ⟨(hpp.subperm_left).mpr h.available, h.fits⟩⟩
  refine ⟨v, h1, ⟨fun s hs => h2.upper s ((hsel _ _).mpr hs), fun hc => ?_, h2.negative⟩⟩
  obtain ⟨s, hs, hl⟩ := h2.attained hc
  exact ⟨s, (hsel _ _).mp hs, hl⟩

/-! ## Breakpoints -/

theorem mem_dropRepeats {l : List Int} {x : Int} : x ∈ dropRepeats l ↔ x ∈ l := by
  induction l with
  | nil => simp [dropRepeats]
  | cons a l ih =>
    cases l with
    | nil => simp [dropRepeats]
    | cons b l =>
      unfold dropRepeats
      by_cases h : a = b
      · rw [if_pos h, ih, h]; simp
      · rw [if_neg h, List.mem_cons, ih, List.mem_cons (a := x) (b := a)]

theorem mem_sortUnique {l : List Int} {x : Int} : x ∈ sortUnique l ↔ x ∈ l := by
  unfold sortUnique
  rw [mem_dropRepeats, List.mem_insertionSort]

theorem breakpoints_range {capacity : Int} {lengths : List Int} (hc : 0 < capacity)
    (hpos : ∀ x ∈ lengths, 0 < x) {k : Int} (hk : k ∈ breakpoints capacity lengths) :
    1 ≤ k ∧ k ≤ capacity / 2 := by
  unfold breakpoints at hk
  rw [mem_sortUnique, List.mem_append] at hk
  rw [Int.tdiv_eq_ediv_of_nonneg hc.le] at hk
  rcases hk with h | h
  · obtain ⟨x, hx, h⟩ := List.mem_filterMap.mp h
    have hx0 := hpos x hx
    unfold foldLength at h
    rw [Int.tdiv_eq_ediv_of_nonneg hc.le] at h
    split_ifs at h with h1 h2 h3
    · cases h; omega
    · cases h; omega
  · split_ifs at h with h1
    · simp at h; omega
    · simp at h

theorem mem_bigValues {capacity : Int} {lengths : List Int} {x : Int} :
    x ∈ bigValues capacity lengths ↔ x ∈ lengths ∧ capacity.tdiv 2 < x := by
  unfold bigValues
  rw [mem_sortUnique, List.mem_filter]
  simp

/-! ## Tables -/

theorem mapM_ok {α β ε : Type} {f : α → Except ε β} {l : List α} {R : α → β → Prop}
    (h : ∀ a ∈ l, ∃ b, f a = .ok b ∧ R a b) : ∃ l', l.mapM f = .ok l' ∧ List.Forall₂ R l l' := by
  induction l with
  | nil => exact ⟨[], rfl, .nil⟩
  | cons a l ih =>
    obtain ⟨b, hb, hr⟩ := h a (by simp)
    obtain ⟨l', hl', hr'⟩ := ih fun x hx => h x (by simp [hx])
    exact ⟨b :: l', by rw [List.mapM_cons, hb, hl']; rfl, .cons hr hr'⟩

/-- The maximum cardinality of a pool, as the code computes it. -/
def cardOf (pool : List (Int × Int)) (c : Int) : Int :=
  match greedyMaximumCardinality c (sortPool pool) with
  | .ok v => v
  | .error _ => 0

theorem cardOf_spec {pool : List (Int × Int)} (hpos : ∀ p ∈ pool, 0 < p.1 ∧ 0 ≤ p.2) (c : Int) :
    greedyMaximumCardinality c (sortPool pool) = .ok (cardOf pool c)
      ∧ IsMaxCardinality pool c (cardOf pool c) := by
  obtain ⟨v, h1, h2⟩ := greedy_sorted (capacity := c) hpos
  have : cardOf pool c = v := by unfold cardOf; rw [h1]
  rw [this]
  exact ⟨h1, h2⟩

theorem cardOf_mono {pool : List (Int × Int)} (hpos : ∀ p ∈ pool, 0 < p.1 ∧ 0 ≤ p.2) (c c' : Int)
    (h : c ≤ c') (h0 : 0 ≤ c') : cardOf pool c ≤ cardOf pool c' :=
  (cardOf_spec hpos c).2.mono (cardOf_spec hpos c').2 h h0

/-- The tables of a breakpoint are right: maximum cardinalities of the pool, and an entry for
every big length. -/
structure TablesOk (capacity : Int) (bigs : List Int) (pool : List (Int × Int))
    (t : BreakpointTables) : Prop where
  full : t.fullCardinality = cardOf pool capacity
  excluded : ∀ x ∈ bigs, excludedAt t.excludedCardinality x = .ok (cardOf pool (capacity - x))

theorem excludedAt_ok {bigs : List Int} {m : List (Int × Int)} {P : Int → Int → Prop}
    (h : List.Forall₂ (fun x (y : Int × Int) => y.1 = x ∧ P x y.2) bigs m) {x : Int}
    (hx : x ∈ bigs) : ∃ v, excludedAt m x = .ok v ∧ P x v := by
  induction h with
  | nil => simp at hx
  | @cons b y bigs m hr _ ih =>
    obtain ⟨b', v⟩ := y
    obtain ⟨h1, h2⟩ := hr
    have h1 : b' = b := h1
    subst h1
    by_cases hxb : x = b'
    · subst hxb
      exact ⟨v, by simp [excludedAt, List.lookup], h2⟩
    · obtain ⟨w, hw, hp⟩ := ih ((List.mem_cons.mp hx).resolve_left hxb)
      refine ⟨w, ?_, hp⟩
      unfold excludedAt at hw ⊢
      have : (x == b') = false := by simpa using hxb
      rw [List.lookup_cons, this]
      exact hw

theorem axisTables_ok {capacity : Int} {lengths : List Int} {pool : Int → List (Int × Int)}
    (hc : 0 < capacity) (hpos : ∀ x ∈ lengths, 0 < x)
    (hpool : ∀ k, 1 ≤ k → ∀ p ∈ pool k, 0 < p.1 ∧ 0 ≤ p.2) :
    ∃ ts, axisTables capacity lengths pool = .ok ts ∧ ∀ t ∈ ts, 1 ≤ t.k ∧ t.k ≤ capacity / 2
      ∧ TablesOk capacity (bigValues capacity lengths) (pool t.k) t := by
  obtain ⟨ts, h1, h2⟩ := mapM_ok (f := breakpointTables capacity (bigValues capacity lengths) pool)
    (l := breakpoints capacity lengths)
    (R := fun k t => t.k = k ∧ TablesOk capacity (bigValues capacity lengths) (pool k) t) (by
      intro k hk
      have hk1 := (breakpoints_range hc hpos hk).1
      have hv := (cardOf_spec (hpool k hk1) capacity).1
      obtain ⟨m, hm, hmf⟩ := mapM_ok (l := bigValues capacity lengths)
        (f := fun big => (do
          return (big, ← greedyMaximumCardinality (capacity - big) (sortPool (pool k))) :
          Except Err (Int × Int)))
        (R := fun x y => y.1 = x ∧ y.2 = cardOf (pool k) (capacity - x)) (by
          intro x hx
          have hw := (cardOf_spec (hpool k hk1) (capacity - x)).1
          exact ⟨(x, cardOf (pool k) (capacity - x)), by rw [hw]; rfl, rfl, rfl⟩)
      refine ⟨⟨k, cardOf (pool k) capacity, m⟩, ?_, rfl, rfl, fun x hx => ?_⟩
      swap
      · obtain ⟨v, h1, h2⟩ := excludedAt_ok (P := fun x y => y = cardOf (pool k) (capacity - x))
          hmf hx
        rw [h1, h2]
      unfold breakpointTables
      simp only [bind, Except.bind] at hm ⊢
      rw [hv]
      simp only []
      rw [hm]
      rfl)
  refine ⟨ts, h1, fun t ht => ?_⟩
  obtain ⟨i, hi, rfl⟩ := List.getElem_of_mem ht
  have hi' : i < (breakpoints capacity lengths).length := by rw [h2.length_eq]; exact hi
  obtain ⟨h3, h4⟩ := h2.get hi' hi
  simp only [List.get_eq_getElem] at h3 h4
  have := breakpoints_range hc hpos (List.getElem_mem hi')
  rw [← h3] at this h4
  exact ⟨this.1, this.2, h4⟩

/-! ## Validity of the functions on one axis -/

/-- The value of the families as total functions; `M` gives the maximum cardinalities. -/
def coef (capacity k : Int) (M : Int → Int) (family : Nat) (x : Int) : Int :=
  match family with
  | 0 => fCcm0 capacity k x
  | 1 => if x > capacity / 2 then M capacity - M (capacity - x) else if x < k then 0 else 1
  | _ =>
    if x > capacity / 2 then 2 * (capacity / k - (capacity - x).tdiv k)
    else if x = capacity / 2 ∧ capacity % 2 = 0 then capacity / k
    else 2 * (x / k)

/-- The value of the bin. -/
def binCoef (capacity k : Int) (M : Int → Int) (family : Nat) : Int :=
  match family with
  | 0 => capacity
  | 1 => M capacity
  | _ => 2 * (capacity / k)

theorem sum_pos_of_mem {l : List Int} (hpos : ∀ x ∈ l, 0 < x) {x : Int} (hx : x ∈ l) :
    x ≤ l.sum := by
  have := List.single_le_sum (fun y hy => (hpos y hy).le) x hx
  exact this

theorem sum_erase {l : List Int} {x : Int} (hx : x ∈ l) : l.sum = x + (l.erase x).sum := by
  rw [(List.perm_cons_erase hx).sum_eq, List.sum_cons]

theorem sum_map_erase {l : List Int} {x : Int} (f : Int → Int) (hx : x ∈ l) :
    (l.map f).sum = f x + ((l.erase x).map f).sum := by
  rw [((List.perm_cons_erase hx).map f).sum_eq, List.map_cons, List.sum_cons]

theorem sum_map_le (l : List Int) (f g : Int → Int) (h : ∀ x ∈ l, f x ≤ g x) :
    (l.map f).sum ≤ (l.map g).sum := List.sum_le_sum h

theorem sum_map_zero (l : List Int) (f : Int → Int) (h : ∀ x ∈ l, f x = 0) :
    (l.map f).sum = 0 := by
  refine List.sum_eq_zero fun y hy => ?_
  obtain ⟨x, hx, rfl⟩ := List.mem_map.mp hy
  exact h x hx

theorem f0_valid {capacity k : Int} (hk2 : k ≤ capacity / 2) {l : List Int}
    (hpos : ∀ x ∈ l, 0 < x) (hsum : l.sum ≤ capacity) :
    (l.map (fCcm0 capacity k)).sum ≤ capacity := by
  by_cases h : ∃ x ∈ l, x > capacity - k
  · obtain ⟨x, hx, hxk⟩ := h
    rw [sum_map_erase _ hx]
    have hrest : ((l.erase x).map (fCcm0 capacity k)).sum = 0 := by
      apply sum_map_zero
      intro y hy
      have h1 := sum_erase hx
      have h2 := sum_pos_of_mem (fun z hz => hpos z (List.mem_of_mem_erase hz)) hy
      unfold fCcm0
      rw [if_neg (by omega), if_pos (by omega)]
    rw [hrest]
    unfold fCcm0
    rw [if_pos hxk]
    omega
  · push Not at h
    refine le_trans ?_ hsum
    conv_rhs => rw [← List.map_id l]
    apply sum_map_le
    intro x hx
    have h1 := h x hx
    have h2 := hpos x hx
    unfold fCcm0
    rw [if_neg (by omega)]
    split_ifs
    · exact h2.le
    · exact le_refl _

theorem f1_valid {capacity k : Int} {M : Int → Int} {l : List Int}
    (hpos : ∀ x ∈ l, 0 < x) (hsum : l.sum ≤ capacity)
    (hM : ∀ s c, s <+ l → (∀ x ∈ s, k ≤ x ∧ x ≤ capacity / 2) → s.sum ≤ c →
      (s.length : Int) ≤ M c) :
    (l.map (coef capacity k M 1)).sum ≤ M capacity := by
  -- the items of a list without big items count at most `M c`
  have hsmall : ∀ s c, s <+ l → (∀ x ∈ s, x ≤ capacity / 2) → s.sum ≤ c →
      (s.map (coef capacity k M 1)).sum ≤ M c := by
    intro s c hs hsm hsc
    have hlen : (s.map (coef capacity k M 1)).sum
        = ((s.filter fun x => decide (k ≤ x)).length : Int) := by
      clear hs hsc
      induction s with
      | nil => simp
      | cons x s ih =>
        have IH := ih fun y hy => hsm y (by simp [hy])
        have hx := hsm x (by simp)
        rw [List.map_cons, List.sum_cons, IH]
        simp only [coef]
        rw [if_neg (by omega)]
        by_cases hxk : x < k
        · rw [if_pos hxk, List.filter_cons_of_neg (by simp; omega)]; omega
        · rw [if_neg hxk, List.filter_cons_of_pos (by simp; omega), List.length_cons]
          push_cast; omega
    rw [hlen]
    apply hM _ _ (List.filter_sublist.trans hs)
    · intro x hx
      rw [List.mem_filter] at hx
      exact ⟨by simpa using hx.2, hsm x hx.1⟩
    · refine le_trans ?_ hsc
      exact List.Sublist.sum_le_sum List.filter_sublist fun x hx => (hpos x (hs.subset hx)).le
  by_cases h : ∃ x ∈ l, x > capacity / 2
  · obtain ⟨x, hx, hxb⟩ := h
    rw [sum_map_erase _ hx]
    have h1 := sum_erase hx
    have h2 := hsmall (l.erase x) (capacity - x) List.erase_sublist (by
      intro y hy
      have h2 := sum_pos_of_mem (fun z hz => hpos z (List.mem_of_mem_erase hz)) hy
      omega) (by omega)
    have h3 : coef capacity k M 1 x = M capacity - M (capacity - x) := by
      simp only [coef]; rw [if_pos hxb]
    rw [h3]
    omega
  · push Not at h
    exact hsmall l capacity (List.Sublist.refl _) h hsum

theorem sum_ediv_le {k : Int} (hk : 1 ≤ k) (l : List Int) (h : ∀ x ∈ l, 0 < x) :
    (l.map fun x => x / k).sum ≤ l.sum / k := by
  induction l with
  | nil => simp
  | cons x l ih =>
    have IH := ih fun y hy => h y (by simp [hy])
    rw [List.map_cons, List.sum_cons, List.sum_cons]
    have : x / k + l.sum / k ≤ (x + l.sum) / k := by
      rw [Int.le_ediv_iff_mul_le (by omega)]
      have h1 := Int.ediv_mul_le x (show k ≠ 0 by omega)
      have h2 := Int.ediv_mul_le l.sum (show k ≠ 0 by omega)
      nlinarith
    omega

theorem f2_valid {capacity k : Int} {M : Int → Int} (hk : 1 ≤ k) {l : List Int}
    (hpos : ∀ x ∈ l, 0 < x) (hsum : l.sum ≤ capacity) :
    (l.map (coef capacity k M 2)).sum ≤ 2 * (capacity / k) := by
  have hmono : ∀ a b : Int, a ≤ b → a / k ≤ b / k := fun a b hab =>
    Int.ediv_le_ediv (by omega) hab
  have hsmall : ∀ s c, s <+ l → (∀ x ∈ s, x ≤ capacity / 2 ∧ ¬ (x = capacity / 2 ∧ capacity % 2 = 0))
      → s.sum ≤ c → (s.map (coef capacity k M 2)).sum ≤ 2 * (c / k) := by
    intro s c hs hsm hsc
    have h1 : s.map (coef capacity k M 2) = s.map fun x => 2 * (x / k) := by
      apply List.map_congr_left
      intro x hx
      simp only [coef]
      rw [if_neg (by have := (hsm x hx).1; omega), if_neg (hsm x hx).2]
    rw [h1, List.sum_map_mul_left]
    have h2 := sum_ediv_le hk s fun x hx => hpos x (hs.subset hx)
    have h3 := hmono _ _ hsc
    omega
  by_cases h : ∃ x ∈ l, x > capacity / 2
  · obtain ⟨x, hx, hxb⟩ := h
    rw [sum_map_erase _ hx]
    have h1 := sum_erase hx
    have h2 := hsmall (l.erase x) (capacity - x) List.erase_sublist (by
      intro y hy
      have h2 := sum_pos_of_mem (fun z hz => hpos z (List.mem_of_mem_erase hz)) hy
      omega) (by omega)
    have h3 : coef capacity k M 2 x = 2 * (capacity / k - (capacity - x) / k) := by
      simp only [coef]; rw [if_pos hxb]
      have := sum_nonneg_of_pos fun z hz => hpos z (List.mem_of_mem_erase (a := z) (b := x) hz)
      rw [Int.tdiv_eq_ediv_of_nonneg (by omega)]
    rw [h3]
    omega
  push Not at h
  by_cases h' : ∃ x ∈ l, x = capacity / 2 ∧ capacity % 2 = 0
  · obtain ⟨x, hx, hxe⟩ := h'
    have hval : ∀ y, y = capacity / 2 ∧ capacity % 2 = 0 → coef capacity k M 2 y = capacity / k := by
      intro y hy
      simp only [coef]
      rw [if_neg (by omega), if_pos hy]
    have h1 := sum_erase hx
    rw [sum_map_erase _ hx, hval x hxe]
    by_cases h'' : ∃ y ∈ l.erase x, y = capacity / 2 ∧ capacity % 2 = 0
    · obtain ⟨y, hy, hye⟩ := h''
      rw [sum_map_erase _ hy, hval y hye]
      have h2 := sum_erase hy
      have h3 : (((l.erase x).erase y).map (coef capacity k M 2)).sum = 0 := by
        apply sum_map_zero
        intro z hz
        exfalso
        have hz0 := hpos z (List.mem_of_mem_erase (List.mem_of_mem_erase hz))
        have := sum_pos_of_mem
          (fun w hw => hpos w (List.mem_of_mem_erase (List.mem_of_mem_erase hw))) hz
        omega
      rw [h3]
      omega
    · have h2 := hsmall (l.erase x) (capacity / 2) List.erase_sublist (by
        intro y hy
        refine ⟨h y (List.mem_of_mem_erase hy), fun hye => h'' ⟨y, hy, hye⟩⟩) (by omega)
      have h3 : 2 * (capacity / 2 / k) ≤ capacity / k := by
        rw [Int.le_ediv_iff_mul_le (by omega)]
        have := Int.ediv_mul_le (capacity / 2) (show k ≠ 0 by omega)
        nlinarith [Int.ediv_mul_le capacity (show (2 : Int) ≠ 0 by decide)]
      omega
  · exact hsmall l capacity (List.Sublist.refl _)
      (fun x hx => ⟨h x hx, fun hxe => h' ⟨x, hx, hxe⟩⟩) hsum

/-- All three families are dual feasible functions on one axis. -/
theorem coef_valid {capacity k : Int} {M : Int → Int} (hk : 1 ≤ k) (hk2 : k ≤ capacity / 2)
    {l : List Int} (hpos : ∀ x ∈ l, 0 < x) (hsum : l.sum ≤ capacity)
    (hM : ∀ s c, s <+ l → (∀ x ∈ s, k ≤ x ∧ x ≤ capacity / 2) → s.sum ≤ c →
      (s.length : Int) ≤ M c) (family : Nat) :
    (l.map (coef capacity k M family)).sum ≤ binCoef capacity k M family := by
  match family with
  | 0 => exact f0_valid hk2 hpos hsum
  | 1 => exact f1_valid hpos hsum hM
  | _ + 2 => exact f2_valid (M := M) hk hpos hsum

theorem coef_nonneg {capacity k : Int} {M : Int → Int} (hk : 1 ≤ k) (hc : 0 ≤ capacity)
    (hM : ∀ c c', c ≤ c' → 0 ≤ c' → M c ≤ M c') (family : Nat) {x : Int} (hx : 0 < x) :
    0 ≤ coef capacity k M family x := by
  match family with
  | 0 => simp only [coef, fCcm0]; split_ifs <;> omega
  | 1 =>
    simp only [coef]
    have := hM (capacity - x) capacity (by omega) hc
    split_ifs <;> omega
  | _ + 2 =>
    simp only [coef]
    have h2 : 0 ≤ capacity / k := Int.ediv_nonneg hc (by omega)
    have h1 : (capacity - x).tdiv k ≤ capacity / k := by
      by_cases h : 0 ≤ capacity - x
      · rw [Int.tdiv_eq_ediv_of_nonneg h]
        exact Int.ediv_le_ediv (by omega) (by omega)
      · have h1 : 0 ≤ (-(capacity - x)).tdiv k := Int.tdiv_nonneg (by omega) (by omega)
        rw [Int.neg_tdiv] at h1
        omega
    have h3 : 0 ≤ x / k := Int.ediv_nonneg hx.le (by omega)
    split_ifs <;> omega

/-! ## The code computes these values -/

theorem tmod_two {c : Int} (hc : 0 ≤ c) : c.tmod 2 = c % 2 := Int.tmod_eq_emod_of_nonneg hc

theorem axisCoefficient_eq {capacity : Int} {lengths : List Int} {pool : List (Int × Int)}
    {t : BreakpointTables} (hc : 0 < capacity) (hk : 1 ≤ t.k)
    (hpool : ∀ p ∈ pool, 0 < p.1 ∧ 0 ≤ p.2)
    (ht : TablesOk capacity (bigValues capacity lengths) pool t) (family : Nat) {x : Int}
    (hx : x ∈ lengths) (hx0 : 0 < x) :
    axisCoefficient capacity family t x = .ok (coef capacity t.k (cardOf pool) family x) := by
  have h2 : capacity.tdiv 2 = capacity / 2 := Int.tdiv_eq_ediv_of_nonneg hc.le
  match family with
  | 0 => rfl
  | 1 =>
    simp only [axisCoefficient, coef]
    by_cases hb : x > capacity / 2
    · rw [if_pos (by omega), if_pos hb]
      have h1 := ht.excluded x (mem_bigValues.mpr ⟨hx, by omega⟩)
      rw [h1, ht.full]
      have h3 := cardOf_mono hpool (capacity - x) capacity (by omega) hc.le
      show fCcm1 _ _ _ _ = _
      unfold fCcm1
      rw [if_pos (by omega), if_neg (by omega)]
    · rw [if_neg (by omega), if_neg hb]
      unfold fCcm1
      rw [if_neg (by omega)]
      split_ifs <;> rfl
  | _ + 2 =>
    simp only [axisCoefficient, coef, fCcm2]
    rw [if_neg (by omega), h2, tmod_two hc.le]
    have h4 : capacity.tdiv t.k = capacity / t.k := Int.tdiv_eq_ediv_of_nonneg hc.le
    have h5 : x.tdiv t.k = x / t.k := Int.tdiv_eq_ediv_of_nonneg hx0.le
    rw [h4, h5]
    split_ifs <;> rfl

theorem binCoefficient_eq {capacity : Int} {bigs : List Int} {pool : List (Int × Int)}
    {t : BreakpointTables} (hc : 0 < capacity) (hk : 1 ≤ t.k)
    (hpool : ∀ p ∈ pool, 0 < p.1 ∧ 0 ≤ p.2)
    (ht : TablesOk capacity bigs pool t) (family : Nat) :
    binCoefficient capacity family t = .ok (binCoef capacity t.k (cardOf pool) family) := by
  have h2 : capacity.tdiv 2 = capacity / 2 := Int.tdiv_eq_ediv_of_nonneg hc.le
  match family with
  | 0 =>
    simp only [binCoefficient, binCoef, fCcm0]
    rw [if_pos (by omega)]
  | 1 =>
    simp only [binCoefficient, binCoef, fCcm1]
    have := (cardOf_spec hpool capacity).2.nonneg hc.le
    rw [if_pos (by omega), if_neg (by rw [ht.full]; omega), ht.full]
  | _ + 2 =>
    simp only [binCoefficient, binCoef, fCcm2]
    rw [if_neg (by omega), if_pos (by omega), sub_self, Int.zero_tdiv, sub_zero,
      Int.tdiv_eq_ediv_of_nonneg hc.le]

/-- The medium items of a bin are a selection from the pool. -/
theorem medium_count {α : Type} [DecidableEq α] (ids : List α) (plen copies : α → Int)
    (hpool : ∀ i ∈ ids, 0 < plen i ∧ 0 ≤ copies i) (hnd : ids.Nodup)
    {t : List α} (hmem : ∀ i ∈ t, i ∈ ids) (hcount : ∀ i ∈ t, (t.count i : Int) ≤ copies i)
    {c : Int} (hsum : (t.map plen).sum ≤ c) :
    (t.length : Int) ≤ cardOf (ids.map fun i => (plen i, copies i)) c := by
  have hsub : t.Subperm (ids.flatMap fun i => List.replicate (copies i).toNat i) := by
    rw [List.subperm_ext_iff]
    intro i hi
    have hcnt : (ids.flatMap fun i => List.replicate (copies i).toNat i).count i
        = (copies i).toNat := by
      have hi := hmem i hi
      clear hmem hpool
      induction ids with
      | nil => simp at hi
      | cons j ids ih =>
        obtain ⟨hj, hnd'⟩ := List.nodup_cons.mp hnd
        rw [List.flatMap_cons, List.count_append, List.count_replicate]
        by_cases hij : j = i
        · subst hij
          have h0 : (ids.flatMap fun i => List.replicate (copies i).toNat i).count j = 0 := by
            rw [List.count_eq_zero]
            intro h
            obtain ⟨a, ha, hja⟩ := List.mem_flatMap.mp h
            rw [(List.mem_replicate.mp hja).2] at hj
            exact hj ha
          rw [h0]; simp
        · rw [ih hnd' ((List.mem_cons.mp hi).resolve_left fun e => hij e.symm)]
          simp [hij]
    rw [hcnt]
    have := hcount i hi
    omega
  have hp : pieces (ids.map fun i => (plen i, copies i))
      = (ids.flatMap fun i => List.replicate (copies i).toNat i).map plen := by
    unfold pieces
    rw [List.flatMap_map, List.map_flatMap]
    simp
  obtain ⟨t', hperm, hsl⟩ := hsub
  have := (cardOf_spec (pool := ids.map fun i => (plen i, copies i)) (by
    intro p hp
    obtain ⟨i, hi, rfl⟩ := List.mem_map.mp hp
    exact hpool i hi) c).2.upper (t.map plen) ⟨by rw [hp]; exact ⟨t'.map plen, hperm.map _, hsl.map _⟩, hsum⟩
  simpa using this

end PackingSolver.Dff
