import Verif.Model.Guil.BlockSearch
import Mathlib.Tactic.Linarith
import Mathlib.Tactic.Ring

/-!
# Lemmas about sorted sparse lists of copies
-/

namespace PackingSolver.Guil

/-- The number of copies of item type `i` in a sparse list. -/
def sparseCount (l : SparseCopies) (i : Nat) : Int :=
  (l.map fun p => if p.1 = i then p.2 else 0).sum

/-- The profit of the items of a sparse list. -/
def profitOf (inst : Instance) (l : SparseCopies) : ℚ :=
  (l.map fun p => (p.2 : ℚ) * (inst.itemType p.1).profit).sum

/-- Strictly increasing ids, positive numbers. -/
structure Canonical (l : SparseCopies) : Prop where
  sorted : l.Pairwise fun p q => p.1 < q.1
  pos : ∀ p ∈ l, 0 < p.2

theorem mergeFrom_nil (p : Nat × Int) (l1 : SparseCopies) (next : SparseCopies → SparseCopies) :
    mergeFrom p l1 next [] = p :: l1 := rfl

theorem mergeFrom_cons (p q : Nat × Int) (l1 l2 : SparseCopies)
    (next : SparseCopies → SparseCopies) :
    mergeFrom p l1 next (q :: l2) =
      if p.1 < q.1 then p :: next (q :: l2)
      else if p.1 > q.1 then q :: mergeFrom p l1 next l2
      else (p.1, p.2 + q.2) :: next l2 := rfl

theorem mergeCopies_nil_left (l : SparseCopies) : mergeCopies [] l = l := rfl

theorem mergeCopies_nil_right (l : SparseCopies) : mergeCopies l [] = l := by
  cases l <;> rfl

theorem mergeCopies_cons (p q : Nat × Int) (l1 l2 : SparseCopies) :
    mergeCopies (p :: l1) (q :: l2) =
      if p.1 < q.1 then p :: mergeCopies l1 (q :: l2)
      else if p.1 > q.1 then q :: mergeCopies (p :: l1) l2
      else (p.1, p.2 + q.2) :: mergeCopies l1 l2 := rfl

theorem validCopies_cons (inst : Instance) (p q : Nat × Int) (l1 l2 : SparseCopies) :
    validCopies inst (p :: l1) (q :: l2) =
      if p.1 < q.1 then copiesOk inst p && validCopies inst l1 (q :: l2)
      else if p.1 > q.1 then copiesOk inst q && validCopies inst (p :: l1) l2
      else copiesOk inst (p.1, p.2 + q.2) && validCopies inst l1 l2 := rfl

/-- Induction along the two loops. -/
theorem merge_induction {P : SparseCopies → SparseCopies → Prop}
    (h1 : ∀ l, P [] l) (h2 : ∀ l, P l [])
    (h3 : ∀ p q l1 l2, P l1 (q :: l2) → P (p :: l1) l2 → P l1 l2 → P (p :: l1) (q :: l2)) :
    ∀ l1 l2, P l1 l2 := by
  intro l1
  induction l1 with
  | nil => exact h1
  | cons p l1 ih =>
    intro l2
    induction l2 with
    | nil => exact h2 _
    | cons q l2 ih2 => exact h3 p q l1 l2 (ih _) ih2 (ih _)

theorem sparseCount_cons (p : Nat × Int) (l : SparseCopies) (i : Nat) :
    sparseCount (p :: l) i = (if p.1 = i then p.2 else 0) + sparseCount l i := by
  simp [sparseCount]

theorem sparseCount_merge (l1 l2 : SparseCopies) (i : Nat) :
    sparseCount (mergeCopies l1 l2) i = sparseCount l1 i + sparseCount l2 i := by
  revert l1 l2
  refine merge_induction ?_ ?_ ?_
  · intro l; rw [mergeCopies_nil_left]; simp [sparseCount]
  · intro l; rw [mergeCopies_nil_right]; simp [sparseCount]
  · intro p q l1 l2 a b c
    rw [mergeCopies_cons]
    by_cases h1 : p.1 < q.1
    · rw [if_pos h1, sparseCount_cons, a, sparseCount_cons p]; ring
    · rw [if_neg h1]
      by_cases h2 : p.1 > q.1
      · rw [if_pos h2, sparseCount_cons, b, sparseCount_cons q]; ring
      · rw [if_neg h2, sparseCount_cons, c, sparseCount_cons p, sparseCount_cons q]
        have : p.1 = q.1 := by omega
        rw [this]
        dsimp only
        split <;> ring

theorem profitOf_cons (inst : Instance) (p : Nat × Int) (l : SparseCopies) :
    profitOf inst (p :: l) = (p.2 : ℚ) * (inst.itemType p.1).profit + profitOf inst l := by
  simp [profitOf]

theorem profitOf_merge (inst : Instance) (l1 l2 : SparseCopies) :
    profitOf inst (mergeCopies l1 l2) = profitOf inst l1 + profitOf inst l2 := by
  revert l1 l2
  refine merge_induction ?_ ?_ ?_
  · intro l; rw [mergeCopies_nil_left]; simp [profitOf]
  · intro l; rw [mergeCopies_nil_right]; simp [profitOf]
  · intro p q l1 l2 a b c
    rw [mergeCopies_cons]
    by_cases h1 : p.1 < q.1
    · rw [if_pos h1, profitOf_cons, a, profitOf_cons _ p]; ring
    · rw [if_neg h1]
      by_cases h2 : p.1 > q.1
      · rw [if_pos h2, profitOf_cons, b, profitOf_cons _ q]; ring
      · rw [if_neg h2, profitOf_cons, c, profitOf_cons _ p, profitOf_cons _ q]
        have : p.1 = q.1 := by omega
        rw [this]
        push_cast
        ring

theorem mem_merge_fst {l1 l2 : SparseCopies} {r : Nat × Int} (h : r ∈ mergeCopies l1 l2) :
    (∃ p ∈ l1, p.1 = r.1) ∨ ∃ q ∈ l2, q.1 = r.1 := by
  revert h
  refine merge_induction (P := fun l1 l2 => r ∈ mergeCopies l1 l2 →
    (∃ p ∈ l1, p.1 = r.1) ∨ ∃ q ∈ l2, q.1 = r.1) ?_ ?_ ?_ l1 l2
  · intro l h; exact Or.inr ⟨r, h, rfl⟩
  · intro l h; rw [mergeCopies_nil_right] at h; exact Or.inl ⟨r, h, rfl⟩
  · intro p q l1 l2 a b c h
    rw [mergeCopies_cons] at h
    by_cases h1 : p.1 < q.1
    · rw [if_pos h1, List.mem_cons] at h
      rcases h with rfl | h
      · exact Or.inl ⟨r, by simp, rfl⟩
      · rcases a h with ⟨x, hx, e⟩ | ⟨x, hx, e⟩
        · exact Or.inl ⟨x, by simp [hx], e⟩
        · exact Or.inr ⟨x, hx, e⟩
    · rw [if_neg h1] at h
      by_cases h2 : p.1 > q.1
      · rw [if_pos h2, List.mem_cons] at h
        rcases h with rfl | h
        · exact Or.inr ⟨r, by simp, rfl⟩
        · rcases b h with ⟨x, hx, e⟩ | ⟨x, hx, e⟩
          · exact Or.inl ⟨x, hx, e⟩
          · exact Or.inr ⟨x, by simp [hx], e⟩
      · rw [if_neg h2, List.mem_cons] at h
        rcases h with rfl | h
        · exact Or.inl ⟨p, by simp, rfl⟩
        · rcases c h with ⟨x, hx, e⟩ | ⟨x, hx, e⟩
          · exact Or.inl ⟨x, by simp [hx], e⟩
          · exact Or.inr ⟨x, by simp [hx], e⟩

theorem Canonical.tail {p : Nat × Int} {l : SparseCopies} (h : Canonical (p :: l)) : Canonical l :=
  ⟨(List.pairwise_cons.mp h.sorted).2, fun q hq => h.pos q (by simp [hq])⟩

theorem Canonical.head_lt {p q : Nat × Int} {l : SparseCopies} (h : Canonical (p :: l))
    (hq : q ∈ l) : p.1 < q.1 :=
  (List.pairwise_cons.mp h.sorted).1 q hq

theorem canonical_cons {p : Nat × Int} {l : SparseCopies} (hp : 0 < p.2) (h : Canonical l)
    (hlt : ∀ q ∈ l, p.1 < q.1) : Canonical (p :: l) :=
  ⟨List.pairwise_cons.mpr ⟨hlt, h.sorted⟩, by
    intro q hq
    rcases List.mem_cons.mp hq with rfl | hq
    · exact hp
    · exact h.pos q hq⟩

theorem canonical_merge (l1 l2 : SparseCopies) :
    Canonical l1 → Canonical l2 → Canonical (mergeCopies l1 l2) := by
  revert l1 l2
  refine merge_induction ?_ ?_ ?_
  · intro l _ h; exact h
  · intro l h _; rw [mergeCopies_nil_right]; exact h
  · intro p q l1 l2 a b c hp hq
    rw [mergeCopies_cons]
    have pp := hp.pos p (by simp)
    have pq := hq.pos q (by simp)
    by_cases h1 : p.1 < q.1
    · rw [if_pos h1]
      refine canonical_cons pp (a hp.tail hq) fun r hr => ?_
      rcases mem_merge_fst hr with ⟨x, hx, e⟩ | ⟨x, hx, e⟩
      · have := hp.head_lt hx; omega
      · rcases List.mem_cons.mp hx with rfl | hx
        · omega
        · have := hq.head_lt hx; omega
    · rw [if_neg h1]
      by_cases h2 : p.1 > q.1
      · rw [if_pos h2]
        refine canonical_cons pq (b hp hq.tail) fun r hr => ?_
        rcases mem_merge_fst hr with ⟨x, hx, e⟩ | ⟨x, hx, e⟩
        · rcases List.mem_cons.mp hx with rfl | hx
          · omega
          · have := hp.head_lt hx; omega
        · have := hq.head_lt hx; omega
      · rw [if_neg h2]
        refine canonical_cons (by show 0 < p.2 + q.2; omega) (c hp.tail hq.tail) fun r hr => ?_
        show p.1 < r.1
        rcases mem_merge_fst hr with ⟨x, hx, e⟩ | ⟨x, hx, e⟩
        · have := hp.head_lt hx; omega
        · have := hq.head_lt hx; omega

theorem sparseCount_zero {l : SparseCopies} {i : Nat} (h : ∀ p ∈ l, p.1 ≠ i) : sparseCount l i = 0 := by
  induction l with
  | nil => rfl
  | cons p l ih =>
    rw [sparseCount_cons, if_neg (h p (by simp)), ih fun q hq => h q (by simp [hq])]
    rfl

theorem sparseCount_mem {l : SparseCopies} (hc : Canonical l) {p : Nat × Int} (hp : p ∈ l) :
    sparseCount l p.1 = p.2 := by
  induction l with
  | nil => cases hp
  | cons q l ih =>
    rw [sparseCount_cons]
    rcases List.mem_cons.mp hp with rfl | hp
    · rw [if_pos rfl, sparseCount_zero fun r hr => ?_]
      · ring
      · have := hc.head_lt hr; omega
    · have := hc.head_lt hp
      rw [if_neg (by omega), ih hc.tail hp]
      ring

theorem canonical_ext {l1 l2 : SparseCopies} (h1 : Canonical l1) (h2 : Canonical l2)
    (he : ∀ i, sparseCount l1 i = sparseCount l2 i) : l1 = l2 := by
  induction l1 generalizing l2 with
  | nil =>
    cases l2 with
    | nil => rfl
    | cons q l2 =>
      exfalso
      have := he q.1
      rw [sparseCount_mem h2 (by simp)] at this
      have h0 := h2.pos q (by simp)
      simp only [sparseCount, List.map_nil, List.sum_nil] at this
      omega
  | cons p l1 ih =>
    have pp := h1.pos p (by simp)
    cases l2 with
    | nil =>
      exfalso
      have := he p.1
      rw [sparseCount_mem h1 (by simp)] at this
      simp only [sparseCount, List.map_nil, List.sum_nil] at this
      omega
    | cons q l2 =>
      have pq := h2.pos q (by simp)
      have e1 : p.1 = q.1 := by
        rcases lt_trichotomy p.1 q.1 with h | h | h
        · exfalso
          have := he p.1
          rw [sparseCount_mem h1 (by simp), sparseCount_zero (l := q :: l2) (fun r hr => ?_)] at this
          · omega
          · rcases List.mem_cons.mp hr with rfl | hr
            · omega
            · have := h2.head_lt hr; omega
        · exact h
        · exfalso
          have := he q.1
          rw [sparseCount_mem h2 (by simp), sparseCount_zero (l := p :: l1) (fun r hr => ?_)] at this
          · omega
          · rcases List.mem_cons.mp hr with rfl | hr
            · omega
            · have := h1.head_lt hr; omega
      have e2 : p.2 = q.2 := by
        have := he p.1
        rw [sparseCount_mem h1 (by simp), e1, sparseCount_mem h2 (by simp)] at this
        exact this
      have e : p = q := Prod.ext e1 e2
      subst e
      congr 1
      refine ih h1.tail h2.tail fun i => ?_
      have := he i
      rw [sparseCount_cons, sparseCount_cons] at this
      omega

theorem mergeCopies_comm {l1 l2 : SparseCopies} (h1 : Canonical l1) (h2 : Canonical l2) :
    mergeCopies l1 l2 = mergeCopies l2 l1 :=
  canonical_ext (canonical_merge _ _ h1 h2) (canonical_merge _ _ h2 h1) fun i => by
    rw [sparseCount_merge, sparseCount_merge, add_comm]

theorem validCopies_eq (inst : Instance) (l1 l2 : SparseCopies) :
    validCopies inst l1 l2 = (mergeCopies l1 l2).all (copiesOk inst) := by
  revert l1 l2
  refine merge_induction ?_ ?_ ?_
  · intro l; rfl
  · intro l
    rw [mergeCopies_nil_right]
    cases l <;> rfl
  · intro p q l1 l2 a b c
    rw [mergeCopies_cons, validCopies_cons]
    by_cases h1 : p.1 < q.1
    · rw [if_pos h1, if_pos h1, a, List.all_cons]
    · rw [if_neg h1, if_neg h1]
      by_cases h2 : p.1 > q.1
      · rw [if_pos h2, if_pos h2, b, List.all_cons]
      · rw [if_neg h2, if_neg h2, c, List.all_cons]

theorem all_copiesOk_iff (inst : Instance) {l : SparseCopies} (hc : Canonical l) :
    l.all (copiesOk inst) = true
      ↔ ∀ i, 0 < sparseCount l i → sparseCount l i ≤ (inst.itemType i).copies := by
  rw [List.all_eq_true]
  constructor
  · intro h i hi
    by_cases hm : ∃ p ∈ l, p.1 = i
    · obtain ⟨p, hp, rfl⟩ := hm
      rw [sparseCount_mem hc hp]
      exact of_decide_eq_true (h p hp)
    · rw [sparseCount_zero fun p hp e => hm ⟨p, hp, e⟩] at hi
      omega
  · intro h p hp
    have := h p.1
    rw [sparseCount_mem hc hp] at this
    exact decide_eq_true (this (hc.pos p hp))

theorem canonical_single (i : Nat) : Canonical [(i, 1)] :=
  ⟨List.pairwise_singleton _ _, by simp⟩

end PackingSolver.Guil
