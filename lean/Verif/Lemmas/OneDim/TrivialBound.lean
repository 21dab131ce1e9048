import Verif.Model.OneDim.TrivialBound
import Verif.Lemmas.OneDim.Packing
import Verif.Spec.OneDimOutput
import Verif.Spec.Sort
import Mathlib.Tactic.FieldSimp
import Mathlib.Tactic.Positivity

/-!
# Lemmas for the trivial bounds
-/

namespace PackingSolver.OneDim.BoundLemmas

open PackingSolver.OneDim OneDim.Spec PackingLemmas

variable {inst : Instance}

/-- Sum of the reduced lengths of a sequence of items. -/
def load (inst : Instance) (l : List Nat) : Int :=
  (l.map fun i => reducedLength (inst.itemType i)).sum

theorem foldl_add {α R : Type} [AddCommMonoid R] (f : α → R) (l : List α) (a : R) :
    l.foldl (fun s x => s + f x) a = a + (l.map f).sum := by
  induction l generalizing a with
  | nil => simp
  | cons x l ih => simp only [List.foldl_cons, List.map_cons, List.sum_cons, ih, add_assoc]

theorem foldl_range {R : Type} [AddCommMonoid R] (f : Nat → R) (n : Nat) :
    (List.range n).foldl (fun s x => s + f x) 0 = ∑ i ∈ Finset.range n, f i := by
  rw [foldl_add, zero_add]
  induction n with
  | zero => simp
  | succ n ih =>
    rw [List.range_succ, List.map_append, List.sum_append, ih, Finset.sum_range_succ]
    simp

/-- The reduced lengths of the items of a bin fit in the space they occupy. -/
theorem load_le_binEnd (inst : Instance) (l : List Nat) : load inst l ≤ binEnd inst l := by
  cases l with
  | nil => simp [load, binEnd]
  | cons i l =>
    unfold load binEnd
    simp only [List.map_cons, List.sum_cons, List.tail_cons]
    have h : (l.map fun i => reducedLength (inst.itemType i)).sum
        ≤ (l.map fun i => (inst.itemType i).length).sum
          - (l.map fun i => (inst.itemType i).nestingLength).sum := by
      induction l with
      | nil => simp
      | cons j l ih =>
        simp only [List.map_cons, List.sum_cons]
        have : reducedLength (inst.itemType j)
            ≤ (inst.itemType j).length - (inst.itemType j).nestingLength := by
          unfold reducedLength; omega
        omega
    have h1 : reducedLength (inst.itemType i) ≤ (inst.itemType i).length := by
      unfold reducedLength; omega
    omega

/-- The load of a bin is at most its length (or zero). -/
theorem load_le {b : Nat} {l : List Nat} (h : Fits inst b l) :
    load inst l ≤ max (inst.binType b).length 0 := by
  cases l with
  | nil => simp [load]
  | cons i l =>
    have := h (i :: l) (List.prefix_refl _) (by simp)
    have := load_le_binEnd inst (i :: l)
    omega

/-- Total load of a packing, per item type. -/
theorem total_load {p : Packing} (hp : WellTyped inst p) :
    (p.map fun b => b.copies * load inst b.items).sum
      = ∑ i ∈ Finset.range inst.numberOfItemTypes,
        itemCopies p i * reducedLength (inst.itemType i) := by
  have := items_sum (R := Int) (fun i => reducedLength (inst.itemType i)) hp
  simpa [load] using this

/-- The load of a packing is at most the length of its bins. -/
theorem total_load_le {p : Packing} (hp : WellTyped inst p)
    (hf : ∀ b ∈ p, Fits inst b.binTypeId b.items) :
    ∑ i ∈ Finset.range inst.numberOfItemTypes,
        itemCopies p i * reducedLength (inst.itemType i)
      ≤ ∑ t ∈ Finset.range inst.numberOfBinTypes,
        binCopies p t * max (inst.binType t).length 0 := by
  have hb := bins_sum (R := Int) (fun t => max (inst.binType t).length 0) hp
  simp only [Int.cast_id] at hb
  rw [← total_load hp, ← hb]
  apply List.sum_le_sum
  intro b hbm
  exact mul_le_mul_of_nonneg_left (load_le (hf b hbm)) (hp b hbm).2.1

/-! ## Bin packing -/

theorem ceil_div_le {r l c : Int} (hl : 0 < l) (hr : 0 < r) (h : r ≤ c * l) :
    (r + l - 1).tdiv l ≤ c := by
  rw [Int.tdiv_eq_ediv_of_nonneg (by omega)]
  have : (r + l - 1) / l < c + 1 := by
    apply Int.ediv_lt_of_lt_mul hl
    nlinarith
  omega

theorem le_ceil_div_mul {r l : Int} (hl : 0 < l) (hr : 0 < r) :
    r ≤ (r + l - 1).tdiv l * l := by
  rw [Int.tdiv_eq_ediv_of_nonneg (by omega)]
  have h1 := Int.mul_ediv_add_emod (r + l - 1) l
  have h2 := Int.emod_lt_of_pos (r + l - 1) hl
  nlinarith

theorem binPackingFill_nonpos (l : List BinType) (r b : Int) (h : r ≤ 0) :
    binPackingFill l r b = b := by
  cases l with
  | nil => rfl
  | cons x l => unfold binPackingFill; rw [if_pos h]

/-- Filling the bin types in order is optimal when bin types are used in order. -/
theorem binPackingFill_le (l : List BinType) (c : List Int) (hlen : c.length = l.length)
    (h0 : ∀ x ∈ c, 0 ≤ x)
    (hle : ∀ k, k < l.length → c.getD k 0 ≤ (l.getD k default).copies)
    (hord : ∀ j k, j < k → k < l.length → 0 < c.getD k 0 →
      c.getD j 0 = (l.getD j default).copies)
    (r bound : Int)
    (hr : r ≤ (List.zipWith (fun (b : BinType) x => x * max b.length 0) l c).sum) :
    binPackingFill l r bound ≤ bound + c.sum := by
  induction l generalizing c r bound with
  | nil =>
    have : c = [] := List.length_eq_zero_iff.mp (by simpa using hlen)
    subst this
    simp [binPackingFill]
  | cons b l ih =>
    cases c with
    | nil => simp at hlen
    | cons x c =>
      have hx : 0 ≤ x := h0 x (by simp)
      have hc0 : 0 ≤ c.sum := List.sum_nonneg fun y hy => h0 y (by simp [hy])
      have hxle : x ≤ b.copies := by simpa using hle 0 (by simp)
      have IH := ih c (by simpa using hlen) (fun y hy => h0 y (by simp [hy]))
        (fun k hk => by simpa using hle (k + 1) (by simpa using hk))
        (fun j k hjk hk hpos => by
          simpa using hord (j + 1) (k + 1) (by omega) (by simpa using hk) (by simpa using hpos))
      simp only [List.zipWith_cons_cons, List.sum_cons] at hr ⊢
      unfold binPackingFill
      by_cases hr0 : r ≤ 0
      · rw [if_pos hr0]; omega
      rw [if_neg hr0]
      by_cases hb : b.length ≤ 0
      · rw [if_pos hb]
        have hm : max b.length 0 = 0 := max_eq_right hb
        rw [hm, mul_zero, zero_add] at hr
        have := IH r bound hr
        omega
      rw [if_neg hb]
      have hb : 0 < b.length := by omega
      have hm : max b.length 0 = b.length := max_eq_left hb.le
      rw [hm] at hr
      dsimp only
      by_cases hxc : x = b.copies
      · rcases le_total ((r + b.length - 1).tdiv b.length) b.copies with hn | hn
        · rw [min_eq_left hn]
          have := le_ceil_div_mul hb (show 0 < r by omega)
          rw [binPackingFill_nonpos _ _ _ (by omega)]
          omega
        · rw [min_eq_right hn, ← hxc]
          have := IH (r - x * b.length) (bound + x) (by linarith)
          omega
      · have hzero : ∀ y ∈ c, y = 0 := by
          intro y hy
          obtain ⟨k, hk, rfl⟩ := List.getElem_of_mem hy
          by_contra hne
          have hpos : 0 < c[k] := lt_of_le_of_ne (h0 _ (by simp)) (Ne.symm hne)
          have hlen' : c.length = l.length := by simpa using hlen
          have := hord 0 (k + 1) (by omega) (by simpa using (by omega : k < l.length)) (by
            rw [List.getD_cons_succ, List.getD_eq_getElem _ _ hk]; exact hpos)
          exact hxc (by simpa using this)
        have hzs : (List.zipWith (fun (b : BinType) x => x * max b.length 0) l c).sum = 0 := by
          refine List.sum_eq_zero fun y hy => ?_
          obtain ⟨k, hk, rfl⟩ := List.getElem_of_mem hy
          rw [List.getElem_zipWith, hzero _ (List.getElem_mem _), zero_mul]
        rw [hzs] at hr
        have hn := ceil_div_le hb (show 0 < r by omega) (by linarith : r ≤ x * b.length)
        have hn2 := le_ceil_div_mul hb (show 0 < r by omega)
        rw [min_eq_left (by omega), binPackingFill_nonpos _ _ _ (by omega)]
        omega

/-! ## Knapsack -/

/-- The greedy fractional filling, abstractly: `w`, `c`, `q` are the weights, the
numbers of copies and the profits. -/
def greedyFill (w c q : Nat → ℚ) : List Nat → ℚ → ℚ
  | [], _ => 0
  | i :: rest, r =>
    if r ≤ 0 then 0
    else if w i * c i ≤ r then q i * c i + greedyFill w c q rest (r - w i * c i)
    else q i * (r / w i)

/-- Optimality of the greedy filling, with some extra capacity `e` valued at `ρ`, a
ratio no item exceeds. -/
theorem greedyFill_opt (w c q y : Nat → ℚ) (l : List Nat) (hw : ∀ i ∈ l, 0 < w i)
    (hy : ∀ i ∈ l, 0 ≤ y i ∧ y i ≤ c i) (hq : ∀ i ∈ l, 0 ≤ q i)
    (hs : l.Pairwise fun i j => q j * w i ≤ q i * w j)
    (r e ρ : ℚ) (hr : 0 ≤ r) (he : 0 ≤ e) (hρ : ∀ i ∈ l, q i ≤ ρ * w i) (hρ0 : 0 ≤ ρ)
    (hcap : (l.map fun i => w i * y i).sum ≤ r + e) :
    (l.map fun i => q i * y i).sum ≤ greedyFill w c q l r + ρ * e := by
  induction l generalizing r e ρ with
  | nil =>
    simp only [List.map_nil, List.sum_nil, greedyFill, zero_add]
    positivity
  | cons i l ih =>
    have hwi := hw i (by simp)
    obtain ⟨hy0, hyc⟩ := hy i (by simp)
    have hqi := hq i (by simp)
    have hρi := hρ i (by simp)
    have hle : ∀ ρ' : ℚ, (∀ j ∈ i :: l, q j ≤ ρ' * w j) →
        ((i :: l).map fun i => q i * y i).sum ≤ ρ' * ((i :: l).map fun i => w i * y i).sum := by
      intro ρ' h
      rw [← List.sum_map_mul_left]
      apply List.sum_le_sum
      intro j hj
      have := h j hj
      have := (hy j hj).1
      nlinarith
    have hρi' : ∀ j ∈ i :: l, q j ≤ q i / w i * w j := by
      intro j hj
      rcases List.mem_cons.mp hj with rfl | hj
      · rw [div_mul_cancel₀ _ hwi.ne']
      · have := (List.pairwise_cons.mp hs).1 j hj
        rw [div_mul_eq_mul_div, le_div_iff₀ hwi]
        exact this
    have hρle : q i / w i ≤ ρ := by
      rw [div_le_iff₀ hwi]; exact hρi
    have hd0 : 0 ≤ q i / w i := by positivity
    unfold greedyFill
    by_cases h1 : r ≤ 0
    · rw [if_pos h1]
      have := hle ρ hρ
      nlinarith
    rw [if_neg h1]
    by_cases h2 : w i * c i ≤ r
    · rw [if_pos h2]
      have he' : 0 ≤ e + w i * (c i - y i) := by
        have : 0 ≤ w i * (c i - y i) := mul_nonneg hwi.le (by linarith)
        linarith
      simp only [List.map_cons, List.sum_cons] at hcap ⊢
      have := ih (fun j hj => hw j (by simp [hj])) (fun j hj => hy j (by simp [hj]))
        (fun j hj => hq j (by simp [hj])) (List.pairwise_cons.mp hs).2 (r - w i * c i)
        (e + w i * (c i - y i)) (q i / w i) (by linarith) he'
        (fun j hj => hρi' j (by simp [hj])) hd0 (by linarith)
      have hx : q i / w i * (e + w i * (c i - y i)) = q i / w i * e + q i * (c i - y i) := by
        field_simp
      rw [hx] at this
      have : q i / w i * e ≤ ρ * e := mul_le_mul_of_nonneg_right hρle he
      nlinarith
    · rw [if_neg h2]
      have h3 := hle (q i / w i) hρi'
      have h4 : q i / w i * ((i :: l).map fun i => w i * y i).sum ≤ q i / w i * (r + e) :=
        mul_le_mul_of_nonneg_left hcap hd0
      have h5 : q i * (r / w i) = q i / w i * r := by ring
      have : q i / w i * e ≤ ρ * e := mul_le_mul_of_nonneg_right hρle he
      rw [h5]
      linarith

/-- The greedy filling bounds the profit of every fractional packing. -/
theorem greedyFill_bound (w c q y : Nat → ℚ) (l : List Nat) (hw : ∀ i ∈ l, 0 < w i)
    (hy : ∀ i ∈ l, 0 ≤ y i ∧ y i ≤ c i) (hq : ∀ i ∈ l, 0 ≤ q i)
    (hs : l.Pairwise fun i j => q j * w i ≤ q i * w j)
    (r : ℚ) (hr : 0 ≤ r) (hcap : (l.map fun i => w i * y i).sum ≤ r) :
    (l.map fun i => q i * y i).sum ≤ greedyFill w c q l r := by
  obtain ⟨ρ, hρ0, hρ⟩ : ∃ ρ : ℚ, 0 ≤ ρ ∧ ∀ i ∈ l, q i ≤ ρ * w i := by
    clear hs hcap hy
    induction l with
    | nil => exact ⟨0, le_refl _, by simp⟩
    | cons i l ih =>
      obtain ⟨ρ, h0, h⟩ := ih (fun j hj => hw j (by simp [hj])) (fun j hj => hq j (by simp [hj]))
      have hwi := hw i (by simp)
      refine ⟨max ρ (q i / w i), le_max_of_le_left h0, fun j hj => ?_⟩
      rcases List.mem_cons.mp hj with rfl | hj
      · rw [← div_le_iff₀ hwi]; exact le_max_right _ _
      · exact (h j hj).trans (mul_le_mul_of_nonneg_right (le_max_left _ _)
          (hw j (by simp [hj])).le)
  have := greedyFill_opt w c q y l hw hy hq hs r 0 ρ hr (le_refl _) hρ hρ0 (by simpa using hcap)
  simpa using this

theorem knapsackFill_zero (l : List Nat) (bound : ℚ) : knapsackFill inst l 0 bound = bound := by
  cases l with
  | nil => rfl
  | cons i l => unfold knapsackFill; rw [if_pos (le_refl _)]

/-- The loop of the code is the greedy filling when all reduced lengths are positive. -/
theorem knapsackFill_eq (l : List Nat) (hpos : ∀ i ∈ l, 0 < reducedLength (inst.itemType i))
    (r : Int) (bound : ℚ) :
    knapsackFill inst l r bound = bound + greedyFill
      (fun i => (reducedLength (inst.itemType i) : ℚ)) (fun i => ((inst.itemType i).copies : ℚ))
      (fun i => (inst.itemType i).profit) l (r : ℚ) := by
  induction l generalizing r bound with
  | nil => simp [knapsackFill, greedyFill]
  | cons i l ih =>
    have hi := hpos i (by simp)
    have IH := ih fun j hj => hpos j (by simp [hj])
    unfold knapsackFill greedyFill
    by_cases h1 : r ≤ 0
    · rw [if_pos h1, if_pos (by exact_mod_cast h1), add_zero]
    have h1' : ¬ ((r : Int) : ℚ) ≤ 0 := by exact_mod_cast h1
    rw [if_neg h1, if_neg h1', if_neg (show ¬ reducedLength (inst.itemType i) ≤ 0 by omega)]
    by_cases h2 : reducedLength (inst.itemType i) * (inst.itemType i).copies ≤ r
    · rw [if_pos h2, if_pos (by exact_mod_cast h2), IH]
      push_cast
      ring
    · rw [if_neg h2, if_neg (by exact_mod_cast h2), knapsackFill_zero]

/-- When no item can nest by more than the length of another one, a packed item is not
longer than its bin. -/
theorem packed_fits {b : Nat} {l : List Nat} (h : Fits inst b l)
    (hnest : ∀ i ∈ l, ∀ j ∈ l, (inst.itemType i).nestingLength ≤ (inst.itemType j).length)
    (i : Nat) (hi : i ∈ l) : (inst.itemType i).length ≤ (inst.binType b).length := by
  obtain ⟨p, q, rfl⟩ := List.append_of_mem hi
  have hfit := h (p ++ [i]) ⟨q, by simp⟩ (by simp)
  rcases List.eq_nil_or_concat p with rfl | ⟨p', j, rfl⟩
  · simpa [binEnd] using hfit
  · rw [List.concat_eq_append] at *
    have key : ∀ (p : List Nat) (j : Nat), (∀ i ∈ p ++ [j], ∀ k ∈ p ++ [j],
        (inst.itemType i).nestingLength ≤ (inst.itemType k).length) →
        (inst.itemType j).length ≤ binEnd inst (p ++ [j]) := by
      intro p
      induction p using List.reverseRecOn with
      | nil => intro j _; simp [binEnd]
      | append_singleton p k ih =>
        intro j hj
        have h1 := ih k (fun a ha c hc => hj a (by simp at ha ⊢; tauto) c (by simp at hc ⊢; tauto))
        have h2 : (inst.itemType j).nestingLength ≤ (inst.itemType k).length :=
          hj j (by simp) k (by simp)
        have h3 : binEnd inst (p ++ [k] ++ [j])
            = binEnd inst (p ++ [k]) + (inst.itemType j).length
              - (inst.itemType j).nestingLength := by
          unfold binEnd
          rw [List.tail_append_of_ne_nil (by simp)]
          simp only [List.map_append, List.sum_append, List.map_cons, List.map_nil,
            List.sum_cons, List.sum_nil]
          ring
        omega
    have := key (p' ++ [j]) i (fun a ha c hc => hnest a (by simp at ha ⊢; tauto) c
      (by simp at hc ⊢; tauto))
    omega

/-! ## Penalties -/

theorem negativePenaltySum_eq (l : List Resource) : negativePenaltySum l
    = (l.map fun r => if r.penalize = true ∧ r.penalty < 0 then - r.penalty else 0).sum := by
  unfold negativePenaltySum
  have : ∀ a : ℚ, l.foldl (fun sum r => if r.penalize ∧ r.penalty < 0 then
      sum - r.penalty else sum) a
      = a + (l.map fun r => if r.penalize = true ∧ r.penalty < 0 then - r.penalty else 0).sum := by
    induction l with
    | nil => simp
    | cons r l ih =>
      intro a
      rw [List.foldl_cons, ih, List.map_cons, List.sum_cons]
      by_cases h : r.penalize = true ∧ r.penalty < 0
      · rw [if_pos h, if_pos h]; ring
      · rw [if_neg h, if_neg h]; ring
  rw [this, zero_add]

theorem negativePenaltySum_nonneg (l : List Resource) : 0 ≤ negativePenaltySum l := by
  rw [negativePenaltySum_eq]
  refine List.sum_nonneg fun x hx => ?_
  obtain ⟨r, -, rfl⟩ := List.mem_map.mp hx
  split_ifs with h
  · linarith [h.2]
  · exact le_refl _

theorem neg_penalties_le (b : Nat) (l : List Nat) :
    - penalties inst b l ≤ negativePenaltySum (inst.binType b).resources := by
  rw [negativePenaltySum_eq]
  unfold penalties
  rw [neg_eq_neg_one_mul, ← List.sum_map_mul_left]
  apply List.sum_le_sum
  intro r _
  rw [neg_one_mul]
  split_ifs with h1 h2 h2
  · exact le_refl _
  · push Not at h2
    linarith [h2 h1.1]
  · linarith [h2.2]
  · simp

/-- Profit of a packing: item profits plus at most the worst case of the penalties. -/
theorem profit_le {p : Packing} (hp : WellTyped inst p) (hl : BinLimitsOk inst p)
    (hpos : ∀ b ∈ p, 0 < b.copies) :
    profit inst p ≤ (∑ i ∈ Finset.range inst.numberOfItemTypes,
      (itemCopies p i : ℚ) * (inst.itemType i).profit) + instNegativePenaltySum inst := by
  have h1 : profit inst p ≤ (p.map fun b => (b.copies : ℚ) * itemsProfit inst b.items).sum
      + (p.map fun b => (b.copies : ℚ) * negativePenaltySum (inst.binType b.binTypeId).resources).sum := by
    unfold profit
    rw [← List.sum_map_add]
    apply List.sum_le_sum
    intro b hb
    have h2 := neg_penalties_le (inst := inst) b.binTypeId b.items
    have h3 := negativePenaltySum_nonneg (inst.binType b.binTypeId).resources
    have h4 : (1 : ℚ) ≤ (b.copies : ℚ) := by exact_mod_cast hpos b hb
    nlinarith
  have h2 := items_sum (R := ℚ) (fun i => (inst.itemType i).profit) hp
  have h3 := bins_sum (R := ℚ) (fun t => negativePenaltySum (inst.binType t).resources) hp
  rw [h3] at h1
  have h4 : (p.map fun b => (b.copies : ℚ) * itemsProfit inst b.items).sum
      = ∑ i ∈ Finset.range inst.numberOfItemTypes,
      (itemCopies p i : ℚ) * (inst.itemType i).profit := h2
  rw [h4] at h1
  refine h1.trans (add_le_add (le_refl _) ?_)
  unfold instNegativePenaltySum
  rw [foldl_range]
  apply Finset.sum_le_sum
  intro t ht
  exact mul_le_mul_of_nonneg_right (by exact_mod_cast (hl t (Finset.mem_range.mp ht)).2)
    (negativePenaltySum_nonneg _)

end PackingSolver.OneDim.BoundLemmas
