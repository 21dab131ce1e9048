import Verif.Lemmas.Guil.BlockComplete
import Verif.Model.Guil.BlockQueue
import Mathlib.Data.Set.Finite.Basic
import Mathlib.Data.Set.Finite.Lattice
import Mathlib.Data.Finite.Prod
import Mathlib.Data.Fintype.Pi
import Mathlib.Order.Interval.Finset.Defs
import Mathlib.Data.Int.Interval

/-!
# The block search ends, and the buckets of the code are as needed
-/

namespace PackingSolver.Guil

open Guil.Spec

/-! ## The buckets of the code -/

theorem log_factor_pos : 0 < Real.log (1 / 0.99 : ℝ) := Real.log_pos (by norm_num)

theorem codeBucketing_valid {init : ℚ} (h0 : 0 ≤ init) : (codeBucketing init).Valid init where
  index_lt p := by
    show (if init ≤ 0 ∨ p ≥ init then 0 else if p ≤ 0 then 2000 - 1 else _) < 2000
    split
    · omega
    split
    · omega
    · exact lt_of_le_of_lt (min_le_right _ _) (by omega)
  le_threshold p hp hpi := by
    show p ≤ init * (99 / 100) ^ (if init ≤ 0 ∨ p ≥ init then 0 else if p ≤ 0 then 2000 - 1 else _)
    by_cases h1 : init ≤ 0 ∨ p ≥ init
    · rw [if_pos h1, pow_zero, mul_one]; exact hpi
    · rw [if_neg h1, if_neg (not_le.mpr hp)]
      set x := Real.log ((init : ℝ) / (p : ℝ)) / Real.log (1 / 0.99) with hx
      have hk : ((min ⌊x⌋₊ (2000 - 1) : ℕ) : ℝ) ≤ x := by
        have hp' : (0 : ℝ) < p := by exact_mod_cast hp
        have hx0 : 0 ≤ x := by
          refine div_nonneg (Real.log_nonneg ?_) log_factor_pos.le
          rw [le_div_iff₀ hp', one_mul]
          exact_mod_cast hpi
        refine le_trans ?_ (Nat.floor_le hx0)
        exact_mod_cast min_le_left _ _
      generalize min ⌊x⌋₊ (2000 - 1) = k at hk
      have hp' : (0 : ℝ) < p := by exact_mod_cast hp
      have hi' : (0 : ℝ) < init := lt_of_lt_of_le hp' (by exact_mod_cast hpi)
      rw [hx, le_div_iff₀ log_factor_pos, ← Real.log_pow] at hk
      have h2 := (Real.log_le_log_iff (by positivity) (by positivity)).mp hk
      rw [le_div_iff₀ hp', div_pow, one_pow, div_mul_eq_mul_div, one_mul,
        div_le_iff₀ (by positivity)] at h2
      have h3 : (p : ℝ) ≤ ((init * (99 / 100) ^ k : ℚ) : ℝ) := by
        push_cast
        rw [show (99 / 100 : ℝ) = 0.99 by norm_num]
        exact h2
      exact_mod_cast h3
  index_anti p q hp hpq hqi := by
    show (if init ≤ 0 ∨ q ≥ init then 0 else if q ≤ 0 then 2000 - 1 else _)
      ≤ (if init ≤ 0 ∨ p ≥ init then 0 else if p ≤ 0 then 2000 - 1 else _)
    by_cases h1 : init ≤ 0 ∨ q ≥ init
    · rw [if_pos h1]; exact Nat.zero_le _
    · have hq : 0 < q := lt_of_lt_of_le hp hpq
      have hqi' : q < init := by
        by_contra hn
        exact h1 (Or.inr (not_lt.mp hn))
      have h2 : ¬ (init ≤ 0 ∨ p ≥ init) := by
        rintro (h | h)
        · exact h1 (Or.inl h)
        · linarith
      rw [if_neg h1, if_neg h2, if_neg (not_le.mpr hq), if_neg (not_le.mpr hp)]
      refine min_le_min ?_ (le_refl _)
      refine Nat.floor_le_floor ?_
      have hp' : (0 : ℝ) < p := by exact_mod_cast hp
      have hq' : (0 : ℝ) < q := by exact_mod_cast hq
      have hi' : (0 : ℝ) < init := lt_trans hq' (by exact_mod_cast hqi')
      refine div_le_div_of_nonneg_right ?_ log_factor_pos.le
      refine Real.log_le_log (by positivity) ?_
      refine div_le_div_of_nonneg_left hi'.le hp' ?_
      exact_mod_cast hpq
  threshold_anti j k hjk := by
    show init * (99 / 100) ^ k ≤ init * (99 / 100) ^ j
    refine mul_le_mul_of_nonneg_left ?_ h0
    exact pow_le_pow_of_le_one (by norm_num) (by norm_num) hjk

/-! ## There are finitely many keys -/

section
variable {c : HyperContext} {s s' : Search} {b : Block}

theorem BuiltBlock.ids {inst : Instance} {t : Int} {ret : List Block} (h : BuiltBlock inst t ret b) :
    ∀ p ∈ b.itemCopies, p.1 < inst.itemTypes.length := by
  induction h with
  | simple hc hit hrot hw hh hp hcp hco =>
    rw [hcp]
    intro p hp
    rw [List.mem_singleton.mp hp]
    exact (List.getElem?_eq_some_iff.mp hit).1
  | pair hc h1 h2 _ _ hd hp hcp hv ih1 ih2 =>
    rw [hcp]
    intro p hp
    rcases mem_merge_fst hp with ⟨q, hq, e⟩ | ⟨q, hq, e⟩
    · rw [← e]; exact ih1 q hq
    · rw [← e]; exact ih2 q hq

/-- The keys a block may have. -/
def KeySet (c : HyperContext) : Set BlockKey :=
  {κ | (0 ≤ κ.w ∧ κ.w ≤ c.effW) ∧ (0 ≤ κ.h ∧ κ.h ≤ c.effH) ∧ Canonical κ.itemCopies
    ∧ κ.itemCopies.all (copiesOk c.inst) = true
    ∧ ∀ p ∈ κ.itemCopies, p.1 < c.inst.itemTypes.length}

theorem sparseCount_nonneg {l : SparseCopies} (h : Canonical l) (i : Nat) : 0 ≤ sparseCount l i := by
  by_cases hm : ∃ p ∈ l, p.1 = i
  · obtain ⟨p, hp, rfl⟩ := hm
    rw [sparseCount_mem h hp]
    exact (h.pos p hp).le
  · rw [sparseCount_zero fun p hp e => hm ⟨p, hp, e⟩]

theorem keySet_finite (c : HyperContext) : (KeySet c).Finite := by
  have hor : (Set.univ : Set CutOrientation).Finite :=
    Set.Finite.subset (Set.toFinite {.horizontal, .vertical, .any})
      (by intro x _; cases x <;> simp)
  have hfin : ((Set.Icc (0 : Int) c.effW) ×ˢ (Set.Icc (0 : Int) c.effH)
      ×ˢ (Set.pi Set.univ fun i : Fin c.inst.itemTypes.length =>
        Set.Icc (0 : Int) (max 0 (c.inst.itemType i).copies))
      ×ˢ (Set.univ : Set CutOrientation)).Finite :=
    (Set.finite_Icc _ _).prod ((Set.finite_Icc _ _).prod
      ((Set.Finite.pi fun i => Set.finite_Icc _ _).prod hor))
  refine Set.Finite.of_injOn (f := fun κ : BlockKey =>
    (κ.w, κ.h, (fun i : Fin c.inst.itemTypes.length => sparseCount κ.itemCopies i),
      κ.firstCutOrientation)) ?_ ?_ hfin
  · rintro κ ⟨h1, h2, h3, h4, h5⟩
    refine ⟨h1, h2, ?_, trivial⟩
    intro i _
    have h0 := sparseCount_nonneg h3 i
    refine ⟨h0, ?_⟩
    rcases eq_or_lt_of_le h0 with e | hlt
    · show sparseCount κ.itemCopies i ≤ _
      rw [← e]; exact le_max_left _ _
    · exact le_trans ((all_copiesOk_iff _ h3).mp h4 i hlt) (le_max_right _ _)
  · rintro ⟨w, h, l, o⟩ ⟨-, -, h3, -, h5⟩ ⟨w', h', l', o'⟩ ⟨-, -, h3', -, h5'⟩ e
    simp only [Prod.mk.injEq] at e
    obtain ⟨rfl, rfl, el, rfl⟩ := e
    have : l = l' := by
      refine canonical_ext h3 h3' fun i => ?_
      by_cases hi : i < c.inst.itemTypes.length
      · exact congrFun el ⟨i, hi⟩
      · rw [sparseCount_zero, sparseCount_zero]
        · rintro p hp rfl; exact hi (h5' p hp)
        · rintro p hp rfl; exact hi (h5 p hp)
    rw [this]

theorem key_mem (hc : CtxOk c) {ret : List Block} (hb : BlockOk c ret b) : b.key ∈ KeySet c := by
  have pos := hb.1.pos hc.items hc.thickness
  have cp := hb.1.copies
  exact ⟨⟨pos.1.le, hb.2.1⟩, ⟨pos.2.le, hb.2.2⟩, cp.1, cp.2.2, hb.1.ids⟩

/-- Keys are marked once. -/
structure Marked (c : HyperContext) (s : Search) : Prop where
  nodup : s.seen.Nodup
  mem : ∀ κ ∈ s.seen, κ ∈ KeySet c

noncomputable def keyCount (c : HyperContext) : Nat := (keySet_finite c).toFinset.card

theorem Marked.length_le (h : Marked c s) : s.seen.length ≤ keyCount c := by
  rw [← List.toFinset_card_of_nodup h.nodup]
  refine Finset.card_le_card fun κ hκ => ?_
  rw [Set.Finite.mem_toFinset]
  exact h.mem κ (List.mem_toFinset.mp hκ)

/-! ## The loops end -/

theorem processBucket_mono {k fuel fuel' : Nat} (hle : fuel ≤ fuel')
    (h : processBucket c k fuel s = .ok (some s')) : processBucket c k fuel' s = .ok (some s') := by
  induction fuel generalizing s fuel' with
  | zero => unfold processBucket at h; cases h
  | succ fuel ih =>
    obtain ⟨f, rfl⟩ : ∃ f, fuel' = f + 1 := ⟨fuel' - 1, by omega⟩
    unfold processBucket at h ⊢
    cases hb : s.buckets.getD k [] with
    | nil => rw [hb] at h; exact h
    | cons b rest =>
      rw [hb] at h
      dsimp only at h ⊢
      split at h
      · rename_i h1; rw [if_pos h1]; exact h
      rename_i h1
      rw [if_neg h1]
      split at h
      · rename_i h2; rw [if_pos h2]; exact h
      rename_i h2
      rw [if_neg h2]
      split at h
      · rename_i h3; rw [if_pos h3]; exact ih (by omega) h
      rename_i h3
      rw [if_neg h3]
      split at h
      · rename_i h4; rw [if_pos h4]; exact ih (by omega) h
      rename_i h4
      rw [if_neg h4]
      obtain ⟨s1, e1, e2⟩ := bind_ok.mp h
      exact bind_ok.mpr ⟨s1, e1, ih (by omega) e2⟩

theorem processBuckets_mono {fuel fuel' : Nat} {ks : List Nat} (hle : fuel ≤ fuel')
    (h : processBuckets c fuel ks s = .ok (some s')) :
    processBuckets c fuel' ks s = .ok (some s') := by
  induction ks generalizing s with
  | nil => exact h
  | cons k ks ih =>
    unfold processBuckets at h ⊢
    split at h
    · rename_i h1; rw [if_pos h1]; exact h
    rename_i h1
    rw [if_neg h1]
    split at h
    · rename_i h2; rw [if_pos h2]; exact h
    rename_i h2
    rw [if_neg h2]
    obtain ⟨r, e1, e2⟩ := bind_ok.mp h
    cases r with
    | none => cases e2
    | some s1 => exact bind_ok.mpr ⟨some s1, processBucket_mono hle e1, ih e2⟩

theorem pop_length {k : Nat} {y : Block} {l : List Block} (hk : s.buckets.getD k [] = y :: l) :
    (s.pop k).buckets.getD k [] = l := by
  unfold Search.pop
  dsimp only
  rw [getD_modify_ite]
  have : k < s.buckets.length := by
    by_contra hn
    rw [List.getD_eq_getElem?_getD, List.getElem?_eq_none (by omega)] at hk
    cases hk
  rw [if_pos ⟨rfl, this⟩, hk]
  rfl

theorem processBucket_ends (hc : CtxOk c) (k : Nat) : ∀ (m l : Nat) (s : Search), SInv c s →
    Marked c s → keyCount c ≤ s.seen.length + m → (s.buckets.getD k []).length ≤ l →
    ∃ fuel s', processBucket c k fuel s = .ok (some s') ∧ Marked c s' := by
  intro m
  induction m with
  | zero =>
    intro l
    induction l with
    | zero =>
      intro s hs hm _ hl
      have : s.buckets.getD k [] = [] := List.eq_nil_of_length_eq_zero (by omega)
      refine ⟨1, s, ?_, hm⟩
      unfold processBucket
      rw [this]
    | succ l ihl =>
      intro s hs hm hN hl
      cases hb : s.buckets.getD k [] with
      | nil =>
        refine ⟨1, s, ?_, hm⟩
        unfold processBucket
        rw [hb]
      | cons b rest =>
        have hbk : s.tick.buckets.getD k [] = b :: rest := hb
        have hpop := pop_length hbk
        obtain ⟨fuel, s', e, hm'⟩ := ihl (s.tick.pop k) (sinv_pop (sinv_tick hs) k)
          ⟨hm.nodup, hm.mem⟩ hN (by rw [hpop]; rw [hb] at hl; simp at hl; omega)
        have hmem : b ∈ s.buckets.getD k [] := by rw [hb]; simp
        have hseen : b.key ∈ (s.tick.pop k).seen := by
          by_contra hn
          have hm2 : Marked c ((s.tick.pop k).accept b) :=
            ⟨List.nodup_cons.mpr ⟨hn, hm.nodup⟩, fun κ hκ => by
              rcases List.mem_cons.mp hκ with rfl | hκ
              · exact key_mem hc (hs.waiting b ⟨k, hmem⟩)
              · exact hm.mem κ hκ⟩
          have h1 := hm2.length_le
          have h2 : ((s.tick.pop k).accept b).seen.length = s.seen.length + 1 := rfl
          omega
        by_cases h1 : c.timer s.ticks = true
        · refine ⟨1, s.tick, ?_, ⟨hm.nodup, hm.mem⟩⟩
          unfold processBucket
          rw [hb]
          dsimp only
          rw [if_pos h1]
        by_cases h2 : c.bk.threshold k ≤ s.best
        · refine ⟨1, s.tick, ?_, ⟨hm.nodup, hm.mem⟩⟩
          unfold processBucket
          rw [hb]
          dsimp only
          rw [if_neg h1, if_pos h2]
        refine ⟨fuel + 1, s', ?_, hm'⟩
        unfold processBucket
        rw [hb]
        dsimp only
        rw [if_neg h1, if_neg h2, if_pos hseen, e]
        split <;> rfl
  | succ m ihm =>
    intro l
    induction l with
    | zero =>
      intro s hs hm _ hl
      have : s.buckets.getD k [] = [] := List.eq_nil_of_length_eq_zero (by omega)
      refine ⟨1, s, ?_, hm⟩
      unfold processBucket
      rw [this]
    | succ l ihl =>
      intro s hs hm hN hl
      cases hb : s.buckets.getD k [] with
      | nil =>
        refine ⟨1, s, ?_, hm⟩
        unfold processBucket
        rw [hb]
      | cons b rest =>
        have hbk : s.tick.buckets.getD k [] = b :: rest := hb
        have hpop := pop_length hbk
        have hmem : b ∈ s.buckets.getD k [] := by rw [hb]; simp
        by_cases h1 : c.timer s.ticks = true
        · refine ⟨1, s.tick, ?_, ⟨hm.nodup, hm.mem⟩⟩
          unfold processBucket
          rw [hb]
          dsimp only
          rw [if_pos h1]
        by_cases h2 : c.bk.threshold k ≤ s.best
        · refine ⟨1, s.tick, ?_, ⟨hm.nodup, hm.mem⟩⟩
          unfold processBucket
          rw [hb]
          dsimp only
          rw [if_neg h1, if_pos h2]
        have hS : SInv c (s.tick.pop k) := sinv_pop (sinv_tick hs) k
        by_cases h3 : b.priority ≤ (s.tick.pop k).best ∨ b.key ∈ (s.tick.pop k).seen
        · obtain ⟨fuel, s', e, hm'⟩ := ihl (s.tick.pop k) hS
            ⟨hm.nodup, hm.mem⟩ hN (by rw [hpop]; rw [hb] at hl; simp at hl; omega)
          refine ⟨fuel + 1, s', ?_, hm'⟩
          unfold processBucket
          rw [hb]
          dsimp only
          rw [if_neg h1, if_neg h2]
          by_cases h4 : b.priority ≤ (s.tick.pop k).best
          · rw [if_pos h4, e]
          · rw [if_neg h4, if_pos (h3.resolve_left h4), e]
        · have hn3 : ¬ b.priority ≤ (s.tick.pop k).best := fun h => h3 (Or.inl h)
          have hn4 : b.key ∉ (s.tick.pop k).seen := fun h => h3 (Or.inr h)
          have hm2 : Marked c ((s.tick.pop k).accept b) :=
            ⟨List.nodup_cons.mpr ⟨hn4, hm.nodup⟩, fun κ hκ => by
              rcases List.mem_cons.mp hκ with rfl | hκ
              · exact key_mem hc (hs.waiting b ⟨k, hmem⟩)
              · exact hm.mem κ hκ⟩
          have ha : SInv c ((s.tick.pop k).accept b) :=
            sinv_accept hS (hs.waiting b ⟨k, hmem⟩)
          have hlen : ((s.tick.pop k).accept b).returned.length
              = (s.tick.pop k).returned.length + 1 := by
            show (_ ++ [b]).length = _
            simp
          have hget : ((s.tick.pop k).accept b).returned[(s.tick.pop k).returned.length]?
              = some b := by
            show ((s.tick.pop k).returned ++ [b])[(s.tick.pop k).returned.length]? = some b
            simp
          obtain ⟨s1, e1, i1, -, i3⟩ := combine_loop hc ha hget (le_of_eq hlen.symm)
          have hlen2 : s1.seen.length = s.seen.length + 1 := by rw [i3]; rfl
          obtain ⟨fuel, s', e, hm'⟩ := ihm _ s1 i1
            ⟨by rw [i3]; exact hm2.nodup, by rw [i3]; exact hm2.mem⟩ (by omega) (le_refl _)
          refine ⟨fuel + 1, s', ?_, hm'⟩
          unfold processBucket
          rw [hb]
          dsimp only
          rw [if_neg h1, if_neg h2, if_neg hn3, if_neg hn4]
          exact bind_ok.mpr ⟨s1, e1, e⟩

theorem processBuckets_ends (hc : CtxOk c) {ks : List Nat} (hs : SInv c s) (hm : Marked c s) :
    ∃ fuel s', processBuckets c fuel ks s = .ok (some s') := by
  induction ks generalizing s with
  | nil => exact ⟨0, s, rfl⟩
  | cons k ks ih =>
    by_cases h1 : c.timer s.ticks = true
    · refine ⟨0, s.tick, ?_⟩
      unfold processBuckets
      rw [if_pos h1]
    by_cases h2 : c.bk.threshold k ≤ s.best
    · refine ⟨0, s.tick, ?_⟩
      unfold processBuckets
      rw [if_neg h1, if_pos h2]
    obtain ⟨f1, s1, e1, m1⟩ := processBucket_ends hc k (keyCount c) _ s.tick (sinv_tick hs)
      ⟨hm.nodup, hm.mem⟩ (by omega) (le_refl _)
    obtain ⟨r, e1', i1⟩ := sinv_processBucket (k := k) (fuel := f1) hc (sinv_tick hs)
    rw [e1] at e1'
    cases e1'
    obtain ⟨f2, s2, e2⟩ := ih (i1 s1 rfl) m1
    refine ⟨max f1 f2, s2, ?_⟩
    unfold processBuckets
    rw [if_neg h1, if_neg h2]
    exact bind_ok.mpr ⟨some s1, processBucket_mono (le_max_left _ _) e1,
      processBuckets_mono (le_max_right _ _) e2⟩

theorem seedRotation_seen {id : Nat} {rotate : Bool} (hc : CtxOk c) {it : ItemType}
    (hit : c.inst.itemTypes[id]? = some it) (h : seedRotation c id rotate s = .ok s') :
    s'.seen = s.seen := by
  rcases seedRotation_eq hc hit rotate s with ⟨-, e⟩ | ⟨-, e⟩
  · rw [e] at h
    cases h
    unfold seedWith
    cases c.R (if rotate then it.h else it.w) (if rotate then it.w else it.h) with
    | bot => rfl
    | coe v =>
      show Search.seen (if it.profit + v ≤ s.best then _ else _) = _
      split
      · rfl
      · dsimp only
        split
        · exact (report_fields s _).2.1
        · exact (report_fields s _).2.1
  · rw [e] at h; cases h; rfl

theorem seedItem_seen {id : Nat} (hc : CtxOk c) (hid : id < c.inst.numberOfItemTypes)
    (h : seedItem c s id = .ok s') : s'.seen = s.seen := by
  obtain ⟨it, hit⟩ := item_some hid
  unfold seedItem at h
  split at h
  · cases h; rfl
  · obtain ⟨s1, e1, e2⟩ := bind_ok.mp h
    rw [seedRotation_seen hc hit e2, seedRotation_seen hc hit e1]

theorem seedAll_marked (hc : CtxOk c) :
    ∃ s, seedAll c { buckets := List.replicate c.bk.count [] } = .ok s ∧ SInv c s ∧ Marked c s := by
  have key := foldlM_range_ok (n := c.inst.numberOfItemTypes) (f := seedItem c)
    (s := ({ buckets := List.replicate c.bk.count [] } : Search))
    (P := fun _ s => SInv c s ∧ s.seen = []) ⟨sinv_init c, rfl⟩ ?_
  · obtain ⟨s, e, h1, h2⟩ := key
    exact ⟨s, e, h1, by rw [h2]; exact List.nodup_nil, by rw [h2]; simp⟩
  · rintro k a hk ⟨h1, h2⟩
    obtain ⟨s', e, i⟩ := sinv_seedItem hc h1 hk
    exact ⟨s', e, i, by rw [seedItem_seen hc hk e, h2]⟩

theorem runSearch_ends (hc : CtxOk c) :
    ∃ fuel s, ∀ fuel', fuel ≤ fuel' → runSearch c fuel' = .ok (some s) := by
  obtain ⟨s0, e0, i0, m0⟩ := seedAll_marked hc
  obtain ⟨fuel, s, e⟩ := processBuckets_ends (ks := List.range c.bk.count) hc i0 m0
  refine ⟨fuel, s, fun fuel' hle => ?_⟩
  unfold runSearch
  exact bind_ok.mpr ⟨s0, e0, processBuckets_mono hle e⟩

end

end PackingSolver.Guil
