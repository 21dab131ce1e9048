import Verif.Lemmas.Rect.Columns

/-!
# The three-dimensional inequality

Weighted intervals that cover no point too often, and from them the bound on the total of the
products of three functions for boxes placed without overlap.
-/

namespace PackingSolver.Box.Columns

open Rect.Columns

variable {α : Type}

theorem sum_toNat (m : α → Int) (c : List α) (h : ∀ a ∈ c, 0 ≤ m a) :
    (((c.map fun a => (m a).toNat).sum : Nat) : Int) = (c.map m).sum := by
  induction c with
  | nil => rfl
  | cons a c ih =>
    have h6 := h a (by simp)
    rw [List.map_cons, List.sum_cons, List.map_cons, List.sum_cons,
      ← ih fun b hb => h b (by simp [hb])]
    push_cast
    omega

/-- Intervals `[x a, x a + w a)` of `[0, W)` with weights `m a ≥ 0` of total at most `M` at every
point; `f` has total at most `F` on every set of intervals that fit side by side.  Then the total of
the products is at most `F * M`. -/
theorem coverage_bound (x w : α → Int) (W : Int) (f m : α → Int) (F M : Int) (hW : 0 ≤ W)
    (hM : 0 ≤ M) (L : List α) (hw : ∀ a ∈ L, 0 < w a)
    (hin : ∀ a ∈ L, 0 ≤ x a ∧ x a + w a ≤ W) (hm0 : ∀ a ∈ L, 0 ≤ m a)
    (hcov : ∀ p, ((L.filter fun a => decide (x a ≤ p ∧ p < x a + w a)).map m).sum ≤ M)
    (hf : ∀ c : List α, c.Subperm L → (c.map w).sum ≤ W → (c.map f).sum ≤ F) :
    (L.map fun a => f a * m a).sum ≤ F * M := by
  let r : α → α → Prop := fun a b => x a ≤ x b
  have : DecidableRel r := fun a b => inferInstanceAs (Decidable (x a ≤ x b))
  have : Std.Total r := ⟨fun a b => le_total (x a) (x b)⟩
  have : IsTrans α r := ⟨fun a b c => le_trans⟩
  have hperm := List.perm_insertionSort r L
  have hmem : ∀ a, a ∈ L.insertionSort r ↔ a ∈ L := fun a => hperm.mem_iff
  obtain ⟨cols, h1, h2, h3⟩ := columns_sorted x (fun a => x a + w a) (fun a => (m a).toNat)
    M.toNat (L.insertionSort r) (List.pairwise_insertionSort r L)
    (fun a ha => by have := hw a ((hmem a).1 ha); omega) (by
      intro p
      have h4 := hcov p
      rw [← ((hperm.filter fun a => decide (x a ≤ p ∧ p < x a + w a)).map m).sum_eq] at h4
      rw [← sum_toNat m _ fun a ha => hm0 a ((hmem a).1 (List.mem_of_mem_filter ha))] at h4
      omega)
  have hsum := h3 f
  have hle : colSum f cols ≤ (cols.length : Int) * F := by
    unfold colSum
    have hall : ∀ c ∈ cols, (c.map f).sum ≤ F := by
      intro c hc
      obtain ⟨h4, h5⟩ := h2 c hc
      have hcL : ∀ a ∈ c, a ∈ L := fun a ha => (hmem a).1 (h4.subset ha)
      have hlen := chain_length x (fun a => x a + w a) 0 W hW c h5 fun a ha => hin a (hcL a ha)
      refine hf c (h4.subperm.trans hperm.subperm) ?_
      have e : c.map (fun a => x a + w a - x a) = c.map w :=
        List.map_congr_left fun a _ => by omega
      rw [e] at hlen
      omega
    clear h1 h2 h3 hsum
    induction cols with
    | nil => simp
    | cons c cols ih =>
      have h4 := hall c (by simp)
      have h5 := ih fun d hd => hall d (by simp [hd])
      rw [List.map_cons, List.sum_cons, List.length_cons]
      push_cast
      linarith
  rw [hsum, h1] at hle
  have e1 : ((L.insertionSort r).map fun a => (((m a).toNat : Nat) : Int) * f a).sum
      = (L.map fun a => f a * m a).sum := by
    rw [(hperm.map _).sum_eq]
    congr 1
    refine List.map_congr_left fun a ha => ?_
    rw [Int.toNat_of_nonneg (hm0 a ha)]
    ring
  rw [e1, Int.toNat_of_nonneg hM] at hle
  linarith

/-- **The three-dimensional inequality.**  Boxes placed without overlap in a bin; each of the three
functions has a bounded total on every set of boxes whose lengths along its axis fit one after the
other.  Then the total of the products is at most the product of the bounds. -/
theorem product_bound (x y z w h d : α → Int) (W H D : Int) (f g k : α → Int) (F G K : Int)
    (hW : 0 ≤ W) (hH : 0 ≤ H) (hD : 0 ≤ D)
    (L : List α) (hw : ∀ a ∈ L, 0 < w a) (hh : ∀ a ∈ L, 0 < h a) (hd : ∀ a ∈ L, 0 < d a)
    (hinx : ∀ a ∈ L, 0 ≤ x a ∧ x a + w a ≤ W) (hiny : ∀ a ∈ L, 0 ≤ y a ∧ y a + h a ≤ H)
    (hinz : ∀ a ∈ L, 0 ≤ z a ∧ z a + d a ≤ D)
    (hsep : L.Pairwise fun a b => x a + w a ≤ x b ∨ x b + w b ≤ x a ∨ y a + h a ≤ y b ∨
      y b + h b ≤ y a ∨ z a + d a ≤ z b ∨ z b + d b ≤ z a)
    (hg0 : ∀ a ∈ L, 0 ≤ g a) (hk0 : ∀ a ∈ L, 0 ≤ k a)
    (hf : ∀ c : List α, c.Subperm L → (c.map w).sum ≤ W → (c.map f).sum ≤ F)
    (hg : ∀ c : List α, c.Subperm L → (c.map h).sum ≤ H → (c.map g).sum ≤ G)
    (hk : ∀ c : List α, c.Subperm L → (c.map d).sum ≤ D → (c.map k).sum ≤ K) :
    (L.map fun a => f a * (g a * k a)).sum ≤ F * (G * K) := by
  have hG : 0 ≤ G := by simpa using hg [] List.nil_subperm (by simpa using hH)
  have hK : 0 ≤ K := by simpa using hk [] List.nil_subperm (by simpa using hD)
  apply coverage_bound x w W f (fun a => g a * k a) F (G * K) hW (mul_nonneg hG hK) L hw hinx
    (fun a ha => mul_nonneg (hg0 a ha) (hk0 a ha)) ?_ hf
  intro p
  set Lp := L.filter fun a => decide (x a ≤ p ∧ p < x a + w a) with hLp
  have hs : Lp.Sublist L := List.filter_sublist
  have hpx : ∀ a ∈ Lp, x a ≤ p ∧ p < x a + w a := fun a ha =>
    of_decide_eq_true (List.mem_filter.1 ha).2
  apply coverage_bound y h H g k G K hH hK Lp (fun a ha => hh a (hs.subset ha))
    (fun a ha => hiny a (hs.subset ha)) (fun a ha => hk0 a (hs.subset ha)) ?_
    (fun c hc => hg c (hc.trans hs.subperm))
  intro q
  set Lq := Lp.filter fun a => decide (y a ≤ q ∧ q < y a + h a) with hLq
  have hs2 : Lq.Sublist Lp := List.filter_sublist
  have hqy : ∀ a ∈ Lq, y a ≤ q ∧ q < y a + h a := fun a ha =>
    of_decide_eq_true (List.mem_filter.1 ha).2
  apply hk Lq (hs2.trans hs).subperm
  have hlen := disjoint_length z (fun a => z a + d a) D hD Lq
    (fun a ha => by have := hd a ((hs2.trans hs).subset ha); omega)
    ((hsep.sublist (hs2.trans hs)).imp_of_mem fun {a b} ha hb hab => by
      have h1 := hpx a (hs2.subset ha)
      have h2 := hpx b (hs2.subset hb)
      have h3 := hqy a ha
      have h4 := hqy b hb
      omega)
    (fun a ha => hinz a ((hs2.trans hs).subset ha))
  have e : Lq.map (fun a => z a + d a - z a) = Lq.map d :=
    List.map_congr_left fun a _ => by omega
  rwa [e] at hlen

end PackingSolver.Box.Columns
