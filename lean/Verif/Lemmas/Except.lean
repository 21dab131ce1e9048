import Verif.Model.Basic

/-! Helper lemmas about monadic loops that may fail. -/

namespace PackingSolver

theorem foldlM_snoc_ok {α β ε : Type} {f : β → α → Except ε β} {l : List α} {a : α} {s s' : β} :
    (l ++ [a]).foldlM f s = .ok s' ↔ ∃ s1, l.foldlM f s = .ok s1 ∧ f s1 a = .ok s' := by
  rw [List.foldlM_append]
  cases h : l.foldlM f s with
  | error e => simp [bind, Except.bind]
  | ok s1 =>
    simp only [bind, Except.bind, List.foldlM_cons, List.foldlM_nil, Except.ok.injEq,
      exists_eq_left']
    cases f s1 a <;> simp [pure, Except.pure]

theorem foldlM_cons_ok {α β ε : Type} {f : β → α → Except ε β} {l : List α} {a : α} {s s' : β} :
    (a :: l).foldlM f s = .ok s' ↔ ∃ s1, f s a = .ok s1 ∧ l.foldlM f s1 = .ok s' := by
  rw [List.foldlM_cons]
  cases h : f s a <;> simp [bind, Except.bind]

theorem foldlM_append_ok {α β ε : Type} {f : β → α → Except ε β} {l l' : List α} {s s1 s2 : β}
    (h1 : l.foldlM f s = .ok s1) (h2 : l'.foldlM f s1 = .ok s2) :
    (l ++ l').foldlM f s = .ok s2 := by
  rw [List.foldlM_append, h1]; exact h2

theorem bind_ok {α β ε : Type} {x : Except ε α} {f : α → Except ε β} {b : β} :
    (x >>= f) = .ok b ↔ ∃ a, x = .ok a ∧ f a = .ok b := by
  cases x <;> simp [bind, Except.bind]

/-- Invariant rule for a loop over `0, …, n-1`. -/
theorem foldlM_range_inv {β ε : Type} {f : β → Nat → Except ε β} {n : Nat} {s s' : β}
    (P : Nat → β → Prop) (h0 : P 0 s)
    (hstep : ∀ k a b, k < n → P k a → f a k = .ok b → P (k + 1) b)
    (h : (List.range n).foldlM f s = .ok s') : P n s' := by
  induction n generalizing s' with
  | zero =>
    simp only [List.range_zero, List.foldlM_nil, pure, Except.pure, Except.ok.injEq] at h
    exact h ▸ h0
  | succ n ih =>
    rw [List.range_succ] at h
    obtain ⟨s1, h1, h2⟩ := foldlM_snoc_ok.mp h
    exact hstep n s1 s' (Nat.lt_succ_self n)
      (ih (fun k a b hk => hstep k a b (Nat.lt_succ_of_lt hk)) h1) h2

/-- Invariant rule for a loop over a list, the invariant not depending on the
position. -/
theorem foldlM_inv {α β ε : Type} {f : β → α → Except ε β} {l : List α} {s s' : β}
    (P : β → Prop) (h0 : P s) (hstep : ∀ x a b, x ∈ l → P a → f a x = .ok b → P b)
    (h : l.foldlM f s = .ok s') : P s' := by
  induction l generalizing s with
  | nil =>
    simp only [List.foldlM_nil, pure, Except.pure, Except.ok.injEq] at h
    exact h ▸ h0
  | cons a l ih =>
    obtain ⟨s1, h1, h2⟩ := foldlM_cons_ok.mp h
    exact ih (hstep a s s1 (by simp) h0 h1) (fun x a b hx => hstep x a b (by simp [hx])) h2

end PackingSolver
