import Verif.Spec.ColumnGeneration
import Mathlib.Algebra.Order.BigOperators.Group.List
import Mathlib.Tactic.Ring
import Mathlib.Tactic.Linarith
import Mathlib.Tactic.FieldSimp

/-! Helper lemmas: the cap on the number of bins. -/

namespace PackingSolver.ColumnGeneration

open Spec

/-- A bin type (cost, copies) with the number of copies taken. -/
abbrev Taken := (ℚ × Int) × Int

/-- Total number taken. -/
def takenCount (l : List Taken) : Int := (l.map fun x => x.2).sum

/-- Total cost of what is taken. -/
def takenCost (l : List Taken) : ℚ := (l.map fun x => x.1.1 * (x.2 : ℚ)).sum

/-- Every number taken is between zero and the number of copies. -/
def TakenOk (l : List Taken) : Prop := ∀ x ∈ l, 0 ≤ x.2 ∧ x.2 ≤ x.1.2

theorem takenCount_nonneg {l : List Taken} (h : TakenOk l) : 0 ≤ takenCount l := by
  apply List.sum_nonneg
  intro x hx
  obtain ⟨y, hy, rfl⟩ := List.mem_map.1 hx
  exact (h y hy).1

theorem takenCost_ge {l : List Taken} (h : TakenOk l) {c : ℚ} (hc : ∀ x ∈ l, c ≤ x.1.1) :
    c * takenCount l ≤ takenCost l := by
  induction l with
  | nil => simp [takenCount, takenCost]
  | cons x l ih =>
    have ih := ih (fun y hy => h y (List.mem_cons_of_mem _ hy))
      (fun y hy => hc y (List.mem_cons_of_mem _ hy))
    have h1 := hc x (by simp)
    have h2 : (0 : ℚ) ≤ (x.2 : ℚ) := by exact_mod_cast (h x (by simp)).1
    have h3 := mul_le_mul_of_nonneg_right h1 h2
    simp only [takenCount, takenCost, List.map_cons, List.sum_cons] at ih ⊢
    push_cast at ih ⊢
    rw [mul_add]
    linarith

/-- Taking `j` fewer among items that cost at least `c`. -/
theorem take_fewer {l : List Taken} (h : TakenOk l) {c : ℚ} (hc : ∀ x ∈ l, c ≤ x.1.1)
    {j : Int} (hj : 0 ≤ j) (hjl : j ≤ takenCount l) :
    ∃ l', TakenOk l' ∧ l'.map Prod.fst = l.map Prod.fst ∧ takenCount l' = takenCount l - j
      ∧ takenCost l' ≤ takenCost l - c * j := by
  induction l generalizing j with
  | nil =>
    have : j = 0 := le_antisymm (by simpa [takenCount] using hjl) hj
    subst this
    exact ⟨[], h, rfl, by simp, by simp [takenCost]⟩
  | cons x l ih =>
    have hx := h x (by simp)
    have hcx := hc x (by simp)
    have hl : TakenOk l := fun y hy => h y (List.mem_cons_of_mem _ hy)
    have hcl : ∀ y ∈ l, c ≤ y.1.1 := fun y hy => hc y (List.mem_cons_of_mem _ hy)
    have hcons : takenCount (x :: l) = x.2 + takenCount l := by simp [takenCount]
    by_cases hle : j ≤ x.2
    · refine ⟨(x.1, x.2 - j) :: l, ?_, by simp, by simp [takenCount]; ring, ?_⟩
      · intro y hy
        rcases List.mem_cons.1 hy with rfl | hy
        · dsimp only; omega
        · exact hl y hy
      · have : c * (j : ℚ) ≤ x.1.1 * (j : ℚ) :=
          mul_le_mul_of_nonneg_right hcx (by exact_mod_cast hj)
        simp only [takenCost, List.map_cons, List.sum_cons]
        push_cast
        linarith
    · obtain ⟨l', h1, h2, h3, h4⟩ := ih hl hcl (j := j - x.2) (by omega) (by omega)
      refine ⟨(x.1, 0) :: l', ?_, by simp [h2], ?_, ?_⟩
      · intro y hy
        rcases List.mem_cons.1 hy with rfl | hy
        · dsimp only; omega
        · exact h1 y hy
      · simp only [takenCount, List.map_cons, List.sum_cons] at h3 ⊢
        omega
      · have : c * (x.2 : ℚ) ≤ x.1.1 * (x.2 : ℚ) :=
          mul_le_mul_of_nonneg_right hcx (by exact_mod_cast hx.1)
        simp only [takenCost, List.map_cons, List.sum_cons] at h4 ⊢
        push_cast at h4 ⊢
        linarith

theorem fillBudget_nonneg {l : List (ℚ × Int)} (h : ∀ p ∈ l, 0 ≤ p.2) {budget : ℚ}
    (hb : 0 ≤ budget) : 0 ≤ fillBudget l budget := by
  induction l generalizing budget with
  | nil => simp [fillBudget]
  | cons p l ih =>
    obtain ⟨cost, copies⟩ := p
    have hp := h (cost, copies) (by simp)
    have hl : ∀ p ∈ l, 0 ≤ p.2 := fun q hq => h q (List.mem_cons_of_mem _ hq)
    unfold fillBudget
    split_ifs with hc
    · have := ih hl hb
      dsimp only at hp
      omega
    · push Not at hc
      dsimp only
      have hf : 0 ≤ ⌊budget / cost⌋ := Int.floor_nonneg.2 (div_nonneg hb hc.le)
      have hle : ((min copies ⌊budget / cost⌋ : Int) : ℚ) * cost ≤ budget := by
        have h1 : ((min copies ⌊budget / cost⌋ : Int) : ℚ) ≤ budget / cost :=
          le_trans (by exact_mod_cast min_le_right _ _) (Int.floor_le _)
        calc _ ≤ budget / cost * cost := mul_le_mul_of_nonneg_right h1 hc.le
          _ = budget := div_mul_cancel₀ _ hc.ne'
      have := ih hl (budget := budget - ((min copies ⌊budget / cost⌋ : Int) : ℚ) * cost)
        (by linarith)
      dsimp only at hp
      omega

/-- The greedy filling takes at least as many as any choice within the budget. -/
theorem fillBudget_max (l : List Taken) (h : TakenOk l)
    (hsort : (l.map Prod.fst).Pairwise fun a b => a.1 ≤ b.1) (hnn : ∀ x ∈ l, 0 ≤ x.1.1)
    {budget : ℚ} (hcost : takenCost l ≤ budget) :
    takenCount l ≤ fillBudget (l.map Prod.fst) budget := by
  generalize hn : l.length = n
  induction n generalizing l budget with
  | zero =>
    have : l = [] := List.length_eq_zero_iff.1 hn
    subst this
    simp [takenCount, fillBudget]
  | succ n ih =>
    match l, hn with
    | x :: l, hn =>
      obtain ⟨⟨cost, copies⟩, y⟩ := x
      have hx := h ((cost, copies), y) (by simp)
      dsimp only at hx
      have hl : TakenOk l := fun y hy => h y (List.mem_cons_of_mem _ hy)
      have hnl : ∀ x ∈ l, 0 ≤ x.1.1 := fun y hy => hnn y (List.mem_cons_of_mem _ hy)
      have hc0 := hnn ((cost, copies), y) (by simp)
      dsimp only at hc0
      have hlen : l.length = n := by simpa using hn
      rw [List.map_cons, List.pairwise_cons] at hsort
      obtain ⟨hfirst, hsort⟩ := hsort
      have hcl : ∀ x ∈ l, cost ≤ x.1.1 := fun x hx =>
        hfirst x.1 (List.mem_map.2 ⟨x, hx, rfl⟩)
      have hcount : takenCount (((cost, copies), y) :: l) = y + takenCount l := by
        simp [takenCount]
      have hcostc : takenCost (((cost, copies), y) :: l) = cost * y + takenCost l := by
        simp [takenCost]
      rw [hcostc] at hcost
      have hyq : (0 : ℚ) ≤ (y : ℚ) := by exact_mod_cast hx.1
      rw [hcount, List.map_cons]
      unfold fillBudget
      split_ifs with hc
      · have hz : cost = 0 := le_antisymm hc hc0
        have := ih l hl hsort hnl (budget := budget) (by rw [hz] at hcost; linarith) hlen
        omega
      · push Not at hc
        dsimp only
        have hge := takenCost_ge h (c := cost) (by
          intro z hz
          rcases List.mem_cons.1 hz with rfl | hz
          · exact le_refl _
          · exact hcl z hz)
        rw [hcount, hcostc] at hge
        have hfl : y + takenCount l ≤ ⌊budget / cost⌋ := by
          rw [Int.le_floor, le_div_iff₀ hc]
          linarith
        have hb0 : 0 ≤ budget := by
          have h1 := takenCount_nonneg hl
          have h2 : (0 : ℚ) ≤ ((y + takenCount l : Int) : ℚ) := by
            exact_mod_cast add_nonneg hx.1 h1
          have := mul_nonneg hc.le h2
          linarith
        by_cases hcap : copies ≤ ⌊budget / cost⌋
        · rw [min_eq_left hcap]
          by_cases hall : takenCount l ≤ copies - y
          · have : 0 ≤ fillBudget (l.map Prod.fst) (budget - (copies : ℚ) * cost) := by
              apply fillBudget_nonneg
              · intro p hp
                obtain ⟨z, hz, rfl⟩ := List.mem_map.1 hp
                exact (hl z hz).1.trans (hl z hz).2
              · have : (copies : ℚ) ≤ budget / cost :=
                  le_trans (by exact_mod_cast hcap) (Int.floor_le _)
                rw [le_div_iff₀ hc] at this
                linarith
            omega
          · obtain ⟨l', h1, h2, h3, h4⟩ := take_fewer hl hcl (j := copies - y) (by omega)
              (by omega)
            have hnn' : ∀ x ∈ l', 0 ≤ x.1.1 := by
              intro x hx
              have : x.1 ∈ l.map Prod.fst := h2 ▸ List.mem_map.2 ⟨x, hx, rfl⟩
              obtain ⟨z, hz, he⟩ := List.mem_map.1 this
              rw [← he]; exact hnl z hz
            have hlen' : l'.length = n := by
              have := congrArg List.length h2
              simpa [hlen] using this
            have := ih l' h1 (h2 ▸ hsort) hnn' (budget := budget - (copies : ℚ) * cost) (by
              push_cast at h4
              linarith) hlen'
            rw [h2] at this
            omega
        · push Not at hcap
          rw [min_eq_right hcap.le]
          have hfill : 0 ≤ fillBudget (l.map Prod.fst)
              (budget - ((⌊budget / cost⌋ : Int) : ℚ) * cost) := by
            apply fillBudget_nonneg
            · intro p hp
              obtain ⟨z, hz, rfl⟩ := List.mem_map.1 hp
              exact (hl z hz).1.trans (hl z hz).2
            · have : ((⌊budget / cost⌋ : Int) : ℚ) ≤ budget / cost := Int.floor_le _
              rw [le_div_iff₀ hc] at this
              linarith
          omega

/-- The greedy filling is attained. -/
theorem fillBudget_attained (l : List (ℚ × Int)) (h : ∀ p ∈ l, 0 ≤ p.2) (hnn : ∀ p ∈ l, 0 ≤ p.1)
    {budget : ℚ} (hb : 0 ≤ budget) :
    ∃ t : List Taken, t.map Prod.fst = l ∧ TakenOk t ∧ takenCost t ≤ budget
      ∧ takenCount t = fillBudget l budget := by
  induction l generalizing budget with
  | nil => exact ⟨[], rfl, by simp [TakenOk], by simpa [takenCost] using hb,
      by simp [takenCount, fillBudget]⟩
  | cons p l ih =>
    obtain ⟨cost, copies⟩ := p
    have hp := h (cost, copies) (by simp)
    have hc0 := hnn (cost, copies) (by simp)
    dsimp only at hp hc0
    have hl : ∀ p ∈ l, 0 ≤ p.2 := fun q hq => h q (List.mem_cons_of_mem _ hq)
    have hnl : ∀ p ∈ l, 0 ≤ p.1 := fun q hq => hnn q (List.mem_cons_of_mem _ hq)
    unfold fillBudget
    split_ifs with hc
    · have hz : cost = 0 := le_antisymm hc hc0
      obtain ⟨t, h1, h2, h3, h4⟩ := ih hl hnl hb
      refine ⟨((cost, copies), copies) :: t, by simp [h1], ?_, ?_, ?_⟩
      · intro y hy
        rcases List.mem_cons.1 hy with rfl | hy
        · exact ⟨hp, le_refl _⟩
        · exact h2 y hy
      · simp only [takenCost, List.map_cons, List.sum_cons] at h3 ⊢
        rw [hz]; linarith
      · simp only [takenCount, List.map_cons, List.sum_cons] at h4 ⊢
        omega
    · push Not at hc
      dsimp only
      have hf : 0 ≤ ⌊budget / cost⌋ := Int.floor_nonneg.2 (div_nonneg hb hc.le)
      have hle : ((min copies ⌊budget / cost⌋ : Int) : ℚ) * cost ≤ budget := by
        have h1 : ((min copies ⌊budget / cost⌋ : Int) : ℚ) ≤ budget / cost :=
          le_trans (by exact_mod_cast min_le_right _ _) (Int.floor_le _)
        calc _ ≤ budget / cost * cost := mul_le_mul_of_nonneg_right h1 hc.le
          _ = budget := div_mul_cancel₀ _ hc.ne'
      obtain ⟨t, h1, h2, h3, h4⟩ := ih hl hnl
        (budget := budget - ((min copies ⌊budget / cost⌋ : Int) : ℚ) * cost) (by linarith)
      refine ⟨((cost, copies), min copies ⌊budget / cost⌋) :: t, by simp [h1], ?_, ?_, ?_⟩
      · intro y hy
        rcases List.mem_cons.1 hy with rfl | hy
        · exact ⟨le_min hp hf, min_le_left _ _⟩
        · exact h2 y hy
      · simp only [takenCost, List.map_cons, List.sum_cons] at h3 ⊢
        linarith
      · simp only [takenCount, List.map_cons, List.sum_cons] at h4 ⊢
        omega

instance : Std.Total pairLe := ⟨fun a b => by
  unfold pairLe
  rcases lt_trichotomy a.1 b.1 with h | h | h
  · exact Or.inl (Or.inl h)
  · rcases le_total a.2 b.2 with h2 | h2
    · exact Or.inl (Or.inr ⟨h, h2⟩)
    · exact Or.inr (Or.inr ⟨h.symm, h2⟩)
  · exact Or.inr (Or.inl h)⟩

instance : IsTrans (ℚ × Int) pairLe := ⟨fun a b c h1 h2 => by
  unfold pairLe at *
  rcases h1 with h1 | ⟨h1, h1'⟩ <;> rcases h2 with h2 | ⟨h2, h2'⟩
  · exact Or.inl (h1.trans h2)
  · exact Or.inl (h2 ▸ h1)
  · exact Or.inl (h1 ▸ h2)
  · exact Or.inr ⟨h1.trans h2, h1'.trans h2'⟩⟩

theorem sorted_fst (l : List (ℚ × Int)) :
    (l.insertionSort pairLe).Pairwise fun a b => a.1 ≤ b.1 := by
  refine (List.pairwise_insertionSort pairLe l).imp ?_
  intro a b h
  rcases h with h | h
  · exact h.le
  · exact h.1.le

/-- Sorting a list of choices by their bin types. -/
theorem sort_taken (t : List Taken) :
    ∃ t' : List Taken, t'.Perm t
      ∧ t'.map Prod.fst = (t.map Prod.fst).insertionSort pairLe := by
  refine ⟨t.insertionSort (fun a b => pairLe a.1 b.1), List.perm_insertionSort _ _, ?_⟩
  exact List.map_insertionSort _ _ _ _ (fun a _ b _ => Iff.rfl)

/-- Undoing a sort. -/
theorem unsort_taken {l : List (ℚ × Int)} {t : List Taken} (h : (t.map Prod.fst).Perm l) :
    ∃ t' : List Taken, t'.Perm t ∧ t'.map Prod.fst = l := by
  induction l generalizing t with
  | nil =>
    have : t = [] := by simpa using h.eq_nil
    subst this
    exact ⟨[], List.Perm.refl _, rfl⟩
  | cons p l ih =>
    have hm : p ∈ t.map Prod.fst := h.mem_iff.2 (by simp)
    obtain ⟨x, hx, rfl⟩ := List.mem_map.1 hm
    obtain ⟨t1, t2, rfl⟩ := List.append_of_mem hx
    have hp : (t1 ++ x :: t2).Perm (x :: (t1 ++ t2)) := List.perm_middle
    have h' := (hp.map Prod.fst).symm.trans h
    rw [List.map_cons, List.perm_cons] at h'
    obtain ⟨t', h1, h2⟩ := ih h'
    exact ⟨x :: t', (h1.cons x).trans hp.symm, by simp [h2]⟩

theorem takenCount_perm {l l' : List Taken} (h : l.Perm l') : takenCount l = takenCount l' :=
  (h.map _).sum_eq

theorem takenCost_perm {l l' : List Taken} (h : l.Perm l') : takenCost l = takenCost l' :=
  (h.map _).sum_eq

theorem takenOk_perm {l l' : List Taken} (h : l.Perm l') (ho : TakenOk l) : TakenOk l' :=
  fun x hx => ho x (h.mem_iff.2 hx)

/-- The optional copies used by a choice of bins. -/
theorem optional_of_choice {bins : List BinData} {n : List Int}
    (h : List.Forall₂ (fun b x => b.copiesMin ≤ x ∧ x ≤ b.copies) bins n) :
    ∃ t : List Taken, t.map Prod.fst = optionalBins bins ∧ TakenOk t
      ∧ n.sum = (bins.map fun b => b.copiesMin).sum + takenCount t
      ∧ (List.zipWith (fun b x => b.cost * ((x : Int) : ℚ)) bins n).sum
        = (bins.map fun b => b.cost * (b.copiesMin : ℚ)).sum + takenCost t := by
  induction h with
  | nil => exact ⟨[], rfl, by simp [TakenOk], by simp [takenCount], by simp [takenCost]⟩
  | cons hbx _ ih =>
    rename_i b x bins n _
    obtain ⟨t, h1, h2, h3, h4⟩ := ih
    by_cases hopt : b.copies - b.copiesMin > 0
    · refine ⟨((b.cost, b.copies - b.copiesMin), x - b.copiesMin) :: t, ?_, ?_, ?_, ?_⟩
      · unfold optionalBins at h1 ⊢
        rw [List.filterMap_cons]
        simp only [if_pos hopt, List.map_cons, h1]
      · intro y hy
        rcases List.mem_cons.1 hy with rfl | hy
        · dsimp only; omega
        · exact h2 y hy
      · simp only [takenCount, List.map_cons, List.sum_cons] at h3 ⊢
        omega
      · simp only [takenCost, List.map_cons, List.sum_cons, List.zipWith_cons_cons] at h4 ⊢
        rw [h4]; push_cast; ring
    · have hx : x = b.copiesMin := by omega
      refine ⟨t, ?_, h2, ?_, ?_⟩
      · unfold optionalBins at h1 ⊢
        rw [List.filterMap_cons]
        simp only [if_neg hopt, h1]
      · simp only [List.map_cons, List.sum_cons]
        omega
      · simp only [List.map_cons, List.sum_cons, List.zipWith_cons_cons]
        rw [h4, hx]; ring

/-- A choice of bins from optional copies. -/
theorem choice_of_optional {bins : List BinData} (hbins : ∀ b ∈ bins, b.copiesMin ≤ b.copies)
    {t : List Taken} (ht : t.map Prod.fst = optionalBins bins) (hok : TakenOk t) :
    ∃ n : List Int, List.Forall₂ (fun b x => b.copiesMin ≤ x ∧ x ≤ b.copies) bins n
      ∧ n.sum = (bins.map fun b => b.copiesMin).sum + takenCount t
      ∧ (List.zipWith (fun b x => b.cost * ((x : Int) : ℚ)) bins n).sum
        = (bins.map fun b => b.cost * (b.copiesMin : ℚ)).sum + takenCost t := by
  induction bins generalizing t with
  | nil =>
    have : t = [] := by simpa [optionalBins] using ht
    subst this
    exact ⟨[], .nil, by simp [takenCount], by simp [takenCost]⟩
  | cons b bins ih =>
    have hb := hbins b (by simp)
    have hbins' : ∀ b ∈ bins, b.copiesMin ≤ b.copies :=
      fun c hc => hbins c (List.mem_cons_of_mem _ hc)
    unfold optionalBins at ht
    rw [List.filterMap_cons] at ht
    by_cases hopt : b.copies - b.copiesMin > 0
    · simp only [if_pos hopt] at ht
      match t, ht, hok with
      | x :: t, ht, hok =>
        rw [List.map_cons, List.cons.injEq] at ht
        obtain ⟨n, h1, h2, h3⟩ := ih hbins' ht.2 (fun y hy => hok y (List.mem_cons_of_mem _ hy))
        have hx := hok x (by simp)
        rw [ht.1] at hx
        dsimp only at hx
        refine ⟨(b.copiesMin + x.2) :: n, .cons (by omega) h1, ?_, ?_⟩
        · simp only [takenCount, List.map_cons, List.sum_cons] at h2 ⊢
          omega
        · simp only [takenCost, List.map_cons, List.sum_cons, List.zipWith_cons_cons] at h3 ⊢
          rw [h3, ht.1]; push_cast; ring
    · simp only [if_neg hopt] at ht
      obtain ⟨n, h1, h2, h3⟩ := ih hbins' ht hok
      refine ⟨b.copiesMin :: n, .cons (by omega) h1, ?_, ?_⟩
      · simp only [List.map_cons, List.sum_cons]
        omega
      · simp only [List.map_cons, List.sum_cons, List.zipWith_cons_cons]
        rw [h3]; ring

end PackingSolver.ColumnGeneration
