import Verif.Lemmas.Pool

/-!
# C04: the solution pool, for any type of solutions
-/

namespace PackingSolver

open Spec PoolLemmas

variable {σ : Type} {o : SolutionOps σ}

theorem addAll_snoc (p : Pool σ) (l : List σ) (s : σ) :
    p.addAll o (l ++ [s]) = ((p.addAll o l).add o s).2 := by
  simp [Pool.addAll, List.foldl_append]

theorem addAll_shape (n : Nat) (hn : 1 ≤ n) (l : List σ) :
    Shape ((Pool.new o n).addAll o l) ∧ ((Pool.new o n).addAll o l).sizeMax = n := by
  induction l using List.reverseRecOn with
  | nil => exact ⟨shape_new n hn, rfl⟩
  | append_singleton l s ih =>
    rw [addAll_snoc]
    rcases add_cases (o := o) _ ih.1 s with ⟨he, -⟩ | ⟨a, b, -, -, -, -, -, -, hsz, -, hsh⟩
    · rw [he]; exact ih
    · exact ⟨hsh, hsz.trans ih.2⟩

/-- **C04** (return code), whatever the comparison: after any sequence of `add`
calls, the next call returns 1 exactly when it makes the offered solution the best
one of the pool; when it does not return 1 the best solution is unchanged.  The pool
never exceeds its maximum size. -/
theorem pool_add_code (n : Nat) (hn : 1 ≤ n) (l : List σ) (s : σ) :
    (((Pool.new o n).addAll o l).solutions.length ≤ n)
    ∧ ((((Pool.new o n).addAll o l).add o s).1 = 1 →
        (((Pool.new o n).addAll o l).add o s).2.best = s)
    ∧ ((((Pool.new o n).addAll o l).add o s).1 ≠ 1 →
        (((Pool.new o n).addAll o l).add o s).2.best = ((Pool.new o n).addAll o l).best) := by
  obtain ⟨hsh, hsz⟩ := addAll_shape (o := o) n hn l
  generalize (Pool.new o n).addAll o l = p at hsh hsz ⊢
  refine ⟨by rw [← hsz]; exact hsh.size, ?_⟩
  rcases add_cases (o := o) p hsh s with ⟨he, -⟩ | ⟨a, b, he, -, -, -, -, hcode, -, hsol, hsh'⟩
  · rw [he]
    exact ⟨fun h => absurd h (show ¬(-1 : Int) = 1 by decide), fun _ => rfl⟩
  · have hh := hsh'.head
    rw [hsol] at hh
    have hhead : (a ++ s :: b).head? = some (p.add o s).2.best := by
      unfold trimPool at hh
      split_ifs at hh with hgt
      · have hne : (a ++ s :: b).dropLast ≠ [] := by
          intro h0; rw [h0] at hh; simp at hh
        cases hl : a ++ s :: b with
        | nil => rw [hl] at hne; simp at hne
        | cons x xs =>
          rw [hl] at hh hne
          cases xs with
          | nil => simp at hne
          | cons y ys => simpa using hh
      · exact hh
    rw [hcode]
    cases a with
    | nil =>
      simp only [List.nil_append, List.head?_cons, Option.some.injEq] at hhead
      exact ⟨fun _ => hhead.symm, fun h => absurd rfl h⟩
    | cons x a =>
      refine ⟨fun h => absurd h (by simp), fun _ => ?_⟩
      have hb := hsh.head
      rw [he] at hb
      simp only [List.cons_append, List.head?_cons, Option.some.injEq] at hhead hb
      rw [← hhead, ← hb]

/-- Adding to a pool of size 1. -/
theorem add_one (s b : σ) (h : o.lt b s = true → o.lt s b = false) :
    (⟨1, [b], b, b⟩ : Pool σ).add o s
      = if o.lt b s then (1, ⟨1, [s], s, s⟩) else (-1, ⟨1, [b], b, b⟩) := by
  unfold Pool.add
  by_cases hl : o.lt b s = true
  · have hc : poolComp o s b = true := comp_of_lt hl (h hl)
    simp [hl, setInsert, hc, trimPool]
  · rw [Bool.not_eq_true] at hl
    simp [hl]

theorem addAll_one (V : σ → Prop) (has : Asymmetric V o.lt) (htr : Transitive V o.lt)
    (hempty : V o.empty) (l : List σ) (hl : ∀ x ∈ l, V x) :
    ∃ b, (Pool.new o 1).addAll o l = ⟨1, [b], b, b⟩ ∧ IsBest o.lt (o.empty :: l) b := by
  have hirr : ∀ x, V x → o.lt x x = false := by
    intro x vx
    by_contra hc
    rw [Bool.not_eq_false] at hc
    rw [has x x vx vx hc] at hc
    exact absurd hc (by decide)
  induction l using List.reverseRecOn with
  | nil => exact ⟨o.empty, rfl, by simp, by simpa using hirr _ hempty⟩
  | append_singleton l s ih =>
    obtain ⟨b, hb, hmem, hbest⟩ := ih fun x hx => hl x (by simp [hx])
    have vs : V s := hl s (by simp)
    have hV : ∀ x ∈ o.empty :: l, V x := by
      intro x hx
      rcases List.mem_cons.mp hx with rfl | hx
      · exact hempty
      · exact hl x (by simp [hx])
    rw [addAll_snoc, hb, add_one s b (has b s (hV b hmem) vs)]
    have hsub : ∀ x, x ∈ o.empty :: (l ++ [s]) ↔ x ∈ o.empty :: l ∨ x = s := by
      intro x; simp [or_assoc]
    by_cases hlt : o.lt b s = true
    · rw [if_pos hlt]
      refine ⟨s, rfl, by simp, fun x hx => ?_⟩
      rcases (hsub x).mp hx with hx | rfl
      · by_contra hc
        rw [Bool.not_eq_false] at hc
        have := htr b s x (hV b hmem) vs (hV x hx) hlt hc
        rw [hbest x hx] at this
        exact absurd this (by decide)
      · exact hirr x vs
    · rw [if_neg hlt]
      refine ⟨b, rfl, (hsub b).mpr (.inl hmem), fun x hx => ?_⟩
      rcases (hsub x).mp hx with hx | rfl
      · exact hbest x hx
      · simpa using hlt

/-- **C04** (pools of size 1, the only size the library uses): when the comparison is
asymmetric and transitive on the offered solutions, the best solution is one of those
offered (or the initial empty one) and none of them is strictly better. -/
theorem pool_best_size_one (V : σ → Prop) (has : Asymmetric V o.lt) (htr : Transitive V o.lt)
    (hempty : V o.empty) (l : List σ) (hl : ∀ x ∈ l, V x) :
    IsBest o.lt (o.empty :: l) ((Pool.new o 1).addAll o l).best := by
  obtain ⟨b, hb, h⟩ := addAll_one V has htr hempty l hl
  rw [hb]; exact h

/-- For pools of size 1, `add` returns 1 exactly for strict improvements. -/
theorem pool_add_code_size_one (V : σ → Prop) (has : Asymmetric V o.lt)
    (htr : Transitive V o.lt) (hempty : V o.empty) (l : List σ) (hl : ∀ x ∈ l, V x) (s : σ)
    (hs : V s) : (((Pool.new o 1).addAll o l).add o s).1 = 1
      ↔ o.lt ((Pool.new o 1).addAll o l).best s = true := by
  obtain ⟨b, hb, hbest⟩ := addAll_one V has htr hempty l hl
  have vb : V b := by
    rcases List.mem_cons.mp hbest.1 with rfl | h
    · exact hempty
    · exact hl b h
  rw [hb, add_one s b (has b s vb hs)]
  dsimp only
  split_ifs with h
  · simp [h]
  · simp [h]

/-- **C04** (pools of any size): when the comparison is a strict weak order, the best
solution of the pool is one of those offered and none is strictly better; the pool
contains only offered solutions; and every offered solution is in the pool (up to a
solution of the same value packing the same items) unless the pool is full of
solutions at least as good. -/
theorem pool_best_any_size (V : σ → Prop) (has : Asymmetric V o.lt) (htr : Transitive V o.lt)
    (hnt : NegTransitive V o.lt)
    (hlen : ∀ x y, V x → V y → (o.itemCopies x).length = (o.itemCopies y).length)
    (hempty : V o.empty) (n : Nat) (hn : 1 ≤ n) (l : List σ) (hl : ∀ x ∈ l, V x) :
    IsBest o.lt (o.empty :: l) ((Pool.new o n).addAll o l).best
    ∧ (∀ x ∈ ((Pool.new o n).addAll o l).solutions, x ∈ o.empty :: l)
    ∧ ∀ x ∈ o.empty :: l,
      (∃ y ∈ ((Pool.new o n).addAll o l).solutions, SameValue o.lt o.itemCopies x y)
      ∨ (((Pool.new o n).addAll o l).solutions.length = n
        ∧ ∀ y ∈ ((Pool.new o n).addAll o l).solutions, o.lt y x = false) := by
  have hirr : ∀ x, V x → o.lt x x = false := by
    intro x vx
    by_contra hc
    rw [Bool.not_eq_false] at hc
    rw [has x x vx vx hc] at hc
    exact absurd hc (by decide)
  have key : ∀ l : List σ, (∀ x ∈ l, V x) →
      Sorted V o ((Pool.new o n).addAll o l).solutions
      ∧ (∀ x ∈ ((Pool.new o n).addAll o l).solutions, x ∈ o.empty :: l)
      ∧ ∀ x ∈ o.empty :: l, Represented o ((Pool.new o n).addAll o l) x := by
    intro l hl
    induction l using List.reverseRecOn with
    | nil =>
      refine ⟨⟨by simpa [Pool.addAll, Pool.new] using hempty, by simp [Pool.addAll, Pool.new]⟩,
        by simp [Pool.addAll, Pool.new], fun x hx => .inl ⟨o.empty, by
          simp [Pool.addAll, Pool.new], ?_⟩⟩
      rw [List.mem_singleton.mp hx]
      exact ⟨hirr _ hempty, hirr _ hempty, rfl⟩
    | append_singleton l s ih =>
      obtain ⟨ih1, ih2, ih3⟩ := ih fun x hx => hl x (by simp [hx])
      have vs : V s := hl s (by simp)
      obtain ⟨hsh, -⟩ := addAll_shape (o := o) n hn l
      have hsub : ∀ x, x ∈ o.empty :: (l ++ [s]) ↔ x ∈ o.empty :: l ∨ x = s := by
        intro x; simp [or_assoc]
      have hV : ∀ x ∈ o.empty :: l, V x := by
        intro x hx
        rcases List.mem_cons.mp hx with rfl | hx
        · exact hempty
        · exact hl x (by simp [hx])
      rw [addAll_snoc]
      refine ⟨add_sorted hnt hsh ih1 vs, fun x hx => ?_, fun x hx => ?_⟩
      · rcases add_cases (o := o) _ hsh s with ⟨he, -⟩ | ⟨a, b, he, -, -, -, -, -, -, hsol, -⟩
        · rw [he] at hx; exact (hsub x).mpr (.inl (ih2 x hx))
        · rw [hsol] at hx
          have hx' : x ∈ a ++ s :: b := by
            unfold trimPool at hx
            split_ifs at hx
            · exact List.dropLast_subset _ hx
            · exact hx
          rw [hsub]
          have : x = s ∨ x ∈ ((Pool.new o n).addAll o l).solutions := by
            rw [he]
            simp only [List.mem_append, List.mem_cons] at hx' ⊢
            tauto
          rcases this with h | h
          · exact .inr h
          · exact .inl (ih2 x h)
      · rcases (hsub x).mp hx with hx | rfl
        · exact add_represented has htr hnt hlen hsh ih1 vs (hV x hx) (.inr (ih3 x hx))
        · exact add_represented has htr hnt hlen hsh ih1 vs vs (.inl rfl)
  obtain ⟨h1, h2, h3⟩ := key l hl
  obtain ⟨hsh, hsz⟩ := addAll_shape (o := o) n hn l
  have hbm : ((Pool.new o n).addAll o l).best ∈ ((Pool.new o n).addAll o l).solutions :=
    List.mem_of_mem_head? hsh.head
  have hV : ∀ x ∈ o.empty :: l, V x := by
    intro x hx
    rcases List.mem_cons.mp hx with rfl | hx
    · exact hempty
    · exact hl x hx
  have hhead : ∀ y ∈ ((Pool.new o n).addAll o l).solutions,
      o.lt ((Pool.new o n).addAll o l).best y = false := by
    intro y hy
    have hh := hsh.head
    have hs := h1.sorted
    cases hl' : ((Pool.new o n).addAll o l).solutions with
    | nil => rw [hl'] at hh; simp at hh
    | cons z zs =>
      rw [hl'] at hh hs hy
      simp only [List.head?_cons, Option.some.injEq] at hh
      rw [← hh]
      rcases List.mem_cons.mp hy with rfl | hy
      · exact hirr _ (h1.valid _ (by rw [hl']; simp))
      · exact comp_true_lt ((List.pairwise_cons.mp hs).1 y hy)
  refine ⟨⟨h2 _ hbm, fun x hx => ?_⟩, h2, fun x hx => ?_⟩
  · rcases h3 x hx with ⟨y, hy, hv⟩ | ⟨-, hall⟩
    · exact hnt _ y x (h1.valid _ hbm) (h1.valid _ hy) (hV x hx) (hhead y hy) hv.2.1
    · exact hall _ hbm
  · have := h3 x hx
    unfold Represented at this
    rw [hsz] at this
    exact this

/-! ### A concrete pool -/

/-- Solutions are numbers of bins. -/
def intOps : SolutionOps Int where
  lt a b := decide (b < a)
  itemCopies a := [a]
  profit _ := 0
  cost _ := 0
  numberOfBins a := a
  full _ := true
  feasible _ := true
  empty := 10

example : Asymmetric (fun _ => True) intOps.lt ∧ Transitive (fun _ => True) intOps.lt
    ∧ NegTransitive (fun _ => True) intOps.lt
    ∧ ((Pool.new intOps 2).addAll intOps [7, 9, 12, 3, 5]).solutions = [3, 5] := by
  refine ⟨?_, ?_, ?_, by decide⟩
  · intro a b _ _; simp [intOps]; omega
  · intro a b c _ _ _; simp [intOps]; omega
  · intro a b c _ _ _; simp [intOps]; omega

end PackingSolver
