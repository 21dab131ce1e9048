import Verif.Spec.Pool
import Mathlib.Data.List.Induction
import Mathlib.Data.List.Basic
import Mathlib.Tactic.Linarith

/-! Helper lemmas: the solution pool. -/

namespace PackingSolver

open Spec

variable {σ : Type} {o : SolutionOps σ}

namespace PoolLemmas

theorem keyLt_irrefl (l : List Int) : keyLt l l = false := by
  induction l with
  | nil => rfl
  | cons a l ih => simp [keyLt, ih]

theorem keyLt_asymm (l m : List Int) (h : keyLt l m = true) : keyLt m l = false := by
  induction l generalizing m with
  | nil => simp [keyLt] at h
  | cons a l ih =>
    cases m with
    | nil => simp [keyLt] at h
    | cons b m =>
      unfold keyLt at h ⊢
      by_cases hab : a = b
      · subst hab
        simp only [ne_eq, not_true_eq_false, if_false] at h ⊢
        exact ih m h
      · rw [if_pos hab, decide_eq_true_eq] at h
        rw [if_pos (Ne.symm hab), decide_eq_false_iff_not]
        omega

theorem keyLt_trans (l m n : List Int) (h : keyLt l m = true) (h' : keyLt m n = true) :
    keyLt l n = true := by
  induction l generalizing m n with
  | nil => simp [keyLt] at h
  | cons a l ih =>
    cases m with
    | nil => simp [keyLt] at h
    | cons b m =>
      cases n with
      | nil => simp [keyLt] at h'
      | cons c n =>
        unfold keyLt at h h' ⊢
        by_cases hab : a = b
        · subst hab
          simp only [ne_eq, not_true_eq_false, if_false] at h
          by_cases hac : a = c
          · subst hac
            simp only [ne_eq, not_true_eq_false, if_false] at h' ⊢
            exact ih m n h h'
          · rw [if_pos hac] at h' ⊢
            exact h'
        · rw [if_pos hab, decide_eq_true_eq] at h
          by_cases hbc : b = c
          · subst hbc
            rw [if_pos hab, decide_eq_true_eq]; exact h
          · rw [if_pos hbc, decide_eq_true_eq] at h'
            rw [if_pos (by omega), decide_eq_true_eq]
            omega

theorem keyLt_total (l m : List Int) (hl : l.length = m.length) (h : keyLt l m = false)
    (h' : keyLt m l = false) : l = m := by
  induction l generalizing m with
  | nil => exact (List.length_eq_zero_iff.mp hl.symm).symm
  | cons a l ih =>
    cases m with
    | nil => simp at hl
    | cons b m =>
      unfold keyLt at h h'
      by_cases hab : a = b
      · subst hab
        simp only [ne_eq, not_true_eq_false, if_false] at h h'
        rw [ih m (by simpa using hl) h h']
      · rw [if_pos hab, decide_eq_false_iff_not] at h
        rw [if_pos (Ne.symm hab), decide_eq_false_iff_not] at h'
        omega

/-! ### The comparator -/

theorem comp_false_lt {a b : σ} (h : poolComp o a b = false) (ha : o.lt b a = true →
    o.lt a b = false) : o.lt b a = false := by
  unfold poolComp at h
  by_contra hc
  rw [Bool.not_eq_false] at hc
  rw [if_neg (by rw [ha hc]; decide), if_pos hc] at h
  exact absurd h (by decide)

theorem comp_true_lt {a b : σ} (h : poolComp o a b = true) : o.lt a b = false := by
  unfold poolComp at h
  by_contra hc
  rw [Bool.not_eq_false] at hc
  rw [if_pos hc] at h
  exact absurd h (by decide)

theorem comp_of_lt {a b : σ} (h : o.lt b a = true) (ha : o.lt a b = false) :
    poolComp o a b = true := by
  unfold poolComp
  rw [if_neg (by rw [ha]; decide), if_pos h]

theorem comp_tie {a b : σ} (h1 : o.lt a b = false) (h2 : o.lt b a = false) :
    poolComp o a b = keyLt (o.itemCopies a) (o.itemCopies b) := by
  unfold poolComp
  rw [if_neg (by rw [h1]; decide), if_neg (by rw [h2]; decide)]

theorem comp_trans {V : σ → Prop} (hnt : NegTransitive V o.lt)
    {a b c : σ} (va : V a) (vb : V b) (vc : V c) (h1 : poolComp o a b = true)
    (h2 : poolComp o b c = true) : poolComp o a c = true := by
  have l1 := comp_true_lt h1
  have l2 := comp_true_lt h2
  have l3 := hnt a b c va vb vc l1 l2
  by_cases hca : o.lt c a = true
  · exact comp_of_lt hca l3
  · rw [Bool.not_eq_true] at hca
    have hba : o.lt b a = false := by
      by_contra h
      rw [Bool.not_eq_false] at h
      have := hnt b c a vb vc va l2 hca
      rw [this] at h; exact absurd h (by decide)
    have hcb : o.lt c b = false := hnt c a b vc va vb hca l1
    rw [comp_tie l1 hba] at h1
    rw [comp_tie l2 hcb] at h2
    rw [comp_tie l3 hca]
    exact keyLt_trans _ _ _ h1 h2

/-! ### Insertion -/

theorem setInsert_some (s : σ) (rest done l : List σ) (nb : Bool)
    (hd : ∀ x ∈ done, poolComp o s x = false)
    (h : setInsert o s done rest = some (l, nb)) :
    ∃ a b, done ++ rest = a ++ b ∧ l = a ++ s :: b ∧ (nb = true ↔ a = [])
      ∧ (∀ x ∈ a, poolComp o s x = false) ∧ (∀ x, b.head? = some x → poolComp o s x = true)
      ∧ ∀ j, a.getLast? = some j → poolComp o j s = true := by
  induction rest generalizing done with
  | nil =>
    unfold setInsert at h
    cases hj : done.getLast? with
    | none =>
      rw [hj] at h
      simp only [Option.some.injEq, Prod.mk.injEq] at h
      have : done = [] := List.getLast?_eq_none_iff.mp hj
      subst this
      exact ⟨[], [], rfl, by simp [← h.1], by simp [← h.2], by simp, by simp, by simp⟩
    | some j =>
      rw [hj] at h
      simp only at h
      split_ifs at h with hc
      simp only [Option.some.injEq, Prod.mk.injEq] at h
      have hne : done ≠ [] := by rintro rfl; simp at hj
      refine ⟨done, [], by simp, by simp [← h.1], by simp [← h.2, hne], hd, by simp, ?_⟩
      intro j' hj'
      rw [hj] at hj'
      cases hj'
      exact hc
  | cons x rest ih =>
    unfold setInsert at h
    by_cases hx : poolComp o s x = true
    · rw [if_pos hx] at h
      cases hj : done.getLast? with
      | none =>
        rw [hj] at h
        simp only [Option.some.injEq, Prod.mk.injEq] at h
        have : done = [] := List.getLast?_eq_none_iff.mp hj
        subst this
        exact ⟨[], x :: rest, rfl, by simp [← h.1], by simp [← h.2], by simp,
          by simp [hx], by simp⟩
      | some j =>
        rw [hj] at h
        simp only at h
        split_ifs at h with hc
        simp only [Option.some.injEq, Prod.mk.injEq] at h
        have hne : done ≠ [] := by rintro rfl; simp at hj
        refine ⟨done, x :: rest, rfl, by simp [← h.1], by simp [← h.2, hne], hd, by simp [hx], ?_⟩
        intro j' hj'
        rw [hj] at hj'
        cases hj'
        exact hc
    · rw [if_neg hx] at h
      rw [Bool.not_eq_true] at hx
      obtain ⟨a, b, he, h1, h2, h3, h4, h5⟩ := ih (done ++ [x])
        (by intro y hy
            rcases List.mem_append.mp hy with hy | hy
            · exact hd y hy
            · rw [List.mem_singleton.mp hy]; exact hx) h
      exact ⟨a, b, by rw [← he]; simp, h1, h2, h3, h4, h5⟩

theorem setInsert_none (s : σ) (rest done : List σ)
    (hd : ∀ x ∈ done, poolComp o s x = false) (h : setInsert o s done rest = none) :
    (done ++ rest ≠ [] → ∀ x, (done ++ rest).head? = some x → poolComp o s x = false)
    ∧ ∃ j ∈ done ++ rest, poolComp o j s = false ∧ poolComp o s j = false := by
  induction rest generalizing done with
  | nil =>
    unfold setInsert at h
    cases hj : done.getLast? with
    | none => rw [hj] at h; simp at h
    | some j =>
      rw [hj] at h
      simp only at h
      split_ifs at h with hc
      have hm : j ∈ done := List.mem_of_getLast? hj
      refine ⟨fun _ x hx => hd x ?_, j, by simp [hm], by simpa using hc, hd j hm⟩
      rw [List.append_nil] at hx
      exact List.mem_of_mem_head? hx
  | cons x rest ih =>
    unfold setInsert at h
    by_cases hx : poolComp o s x = true
    · rw [if_pos hx] at h
      cases hj : done.getLast? with
      | none => rw [hj] at h; simp at h
      | some j =>
        rw [hj] at h
        simp only at h
        split_ifs at h with hc
        have hm : j ∈ done := List.mem_of_getLast? hj
        refine ⟨fun _ y hy => hd y ?_, j, by simp [hm], by simpa using hc, hd j hm⟩
        cases done with
        | nil => simp at hm
        | cons d done => simp at hy; simp [hy]
    · rw [if_neg hx] at h
      rw [Bool.not_eq_true] at hx
      have := ih (done ++ [x])
        (by intro y hy
            rcases List.mem_append.mp hy with hy | hy
            · exact hd y hy
            · rw [List.mem_singleton.mp hy]; exact hx) h
      simpa using this

theorem setInsert_nil_head (s : σ) (l : List σ) (h : setInsert o s [] l = none) :
    ∀ x, l.head? = some x → poolComp o s x = false := by
  intro x hx
  have := (setInsert_none s l [] (by simp) h).1
  exact this (by rintro he; simp at he; subst he; simp at hx) x (by simpa using hx)

/-! ### Pools -/

/-- Shape of a pool after at least the initial insertion. -/
structure Shape (p : Pool σ) : Prop where
  ne : p.solutions ≠ []
  head : p.solutions.head? = some p.best
  last : p.solutions.getLast? = some p.worst
  size : p.solutions.length ≤ p.sizeMax

theorem shape_new (n : Nat) (hn : 1 ≤ n) : Shape (Pool.new o n) :=
  ⟨by simp [Pool.new], by simp [Pool.new], by simp [Pool.new], by simpa [Pool.new] using hn⟩

/-- The effect of a successful insertion. -/
theorem add_cases (p : Pool σ) (hp : Shape p) (s : σ) :
    (p.add o s = (-1, p) ∧ (p.solutions.length ≥ p.sizeMax ∧ o.lt p.worst s = false
        ∨ setInsert o s [] p.solutions = none))
    ∨ ∃ a b, p.solutions = a ++ b ∧ ¬ (p.solutions.length ≥ p.sizeMax ∧ o.lt p.worst s = false)
      ∧ (∀ x ∈ a, poolComp o s x = false) ∧ (∀ x, b.head? = some x → poolComp o s x = true)
      ∧ (∀ j, a.getLast? = some j → poolComp o j s = true)
      ∧ (p.add o s).1 = (if a = [] then 1 else 0)
      ∧ (p.add o s).2.sizeMax = p.sizeMax
      ∧ (p.add o s).2.solutions = trimPool p.sizeMax (a ++ s :: b)
      ∧ Shape (p.add o s).2 := by
  unfold Pool.add
  by_cases hc : p.solutions.length ≥ p.sizeMax ∧ o.lt p.worst s = false
  · rw [if_pos hc]; exact .inl ⟨rfl, .inl hc⟩
  · rw [if_neg hc]
    cases hs : setInsert o s [] p.solutions with
    | none => exact .inl ⟨rfl, .inr rfl⟩
    | some r =>
      obtain ⟨l, nb⟩ := r
      obtain ⟨a, b, he, hl, hnb, h1, h2, h3⟩ := setInsert_some s p.solutions [] l nb (by simp) hs
      simp only [List.nil_append] at he
      refine .inr ⟨a, b, he, hc, h1, h2, h3, ?_, rfl, by rw [hl], ?_⟩
      · by_cases ha : a = []
        · simp [hnb.mpr ha, ha]
        · have : nb = false := by
            by_contra hf
            exact ha (hnb.mp (by simpa using hf))
          simp [this, ha]
      · have hlen : l.length = p.solutions.length + 1 := by rw [hl, he]; simp; omega
        have hsz := hp.size
        have hne0 : p.solutions.length ≠ 0 := by
          have := hp.ne
          simpa [List.length_eq_zero_iff] using this
        have htne : trimPool p.sizeMax l ≠ [] := by
          unfold trimPool
          split_ifs
          · intro hd
            have := congrArg List.length hd
            rw [List.length_dropLast] at this
            simp at this; omega
          · intro hd; rw [hd] at hlen; simp at hlen
        have htl : (trimPool p.sizeMax l).length ≤ p.sizeMax := by
          unfold trimPool
          split_ifs with h
          · rw [List.length_dropLast]; omega
          · omega
        refine ⟨htne, ?_, ?_, htl⟩
        · dsimp only
          cases hh : trimPool p.sizeMax l with
          | nil => exact absurd hh htne
          | cons x xs => simp
        · dsimp only
          obtain ⟨x, hx⟩ := List.getLast?_isSome.mpr htne |> Option.isSome_iff_exists.mp
          rw [hx, List.getLastD_eq_getLast?, hx]; rfl

/-! ### Strict weak orders -/

/-- The pool is sorted and contains only valid solutions. -/
structure Sorted (V : σ → Prop) (o : SolutionOps σ) (l : List σ) : Prop where
  valid : ∀ x ∈ l, V x
  sorted : l.Pairwise fun x y => poolComp o x y = true

theorem Sorted.last {V : σ → Prop} (hs : ∀ x, V x → o.lt x x = false) {l : List σ} {w : σ}
    (h : Sorted V o l) (hw : l.getLast? = some w) : ∀ x ∈ l, o.lt x w = false := by
  induction l using List.reverseRecOn with
  | nil => simp
  | append_singleton l a _ =>
    rw [List.getLast?_append] at hw
    simp at hw
    subst hw
    intro x hx
    rcases List.mem_append.mp hx with hx | hx
    · exact comp_true_lt ((List.pairwise_append.mp h.sorted).2.2 x hx a (by simp))
    · rw [List.mem_singleton.mp hx]
      exact hs a (h.valid a (by simp))

theorem insert_sorted {V : σ → Prop} (hnt : NegTransitive V o.lt) {a b : List σ} {s : σ}
    (vs : V s) (h : Sorted V o (a ++ b)) (h2 : ∀ x, b.head? = some x → poolComp o s x = true)
    (h3 : ∀ j, a.getLast? = some j → poolComp o j s = true) : Sorted V o (a ++ s :: b) := by
  have hp := List.pairwise_append.mp h.sorted
  have hva : ∀ x ∈ a, V x := fun x hx => h.valid x (by simp [hx])
  have hvb : ∀ x ∈ b, V x := fun x hx => h.valid x (by simp [hx])
  have hsb : ∀ x ∈ b, poolComp o s x = true := by
    cases b with
    | nil => simp
    | cons y b =>
      intro x hx
      have hy := h2 y rfl
      rcases List.mem_cons.mp hx with rfl | hx
      · exact hy
      · exact comp_trans hnt vs (hvb y (by simp)) (hvb x (by simp [hx])) hy
          ((List.pairwise_cons.mp hp.2.1).1 x hx)
  have has : ∀ x ∈ a, poolComp o x s = true := by
    induction a using List.reverseRecOn with
    | nil => simp
    | append_singleton a y _ =>
      intro x hx
      have hy := h3 y (by simp)
      rcases List.mem_append.mp hx with hx | hx
      · exact comp_trans hnt (hva x (by simp [hx])) (hva y (by simp)) vs
          ((List.pairwise_append.mp hp.1).2.2 x hx y (by simp)) hy
      · rw [List.mem_singleton.mp hx]; exact hy
  refine ⟨?_, ?_⟩
  · intro x hx
    rcases List.mem_append.mp hx with hx | hx
    · exact hva x hx
    · rcases List.mem_cons.mp hx with rfl | hx
      · exact vs
      · exact hvb x hx
  · rw [List.pairwise_append]
    refine ⟨hp.1, List.pairwise_cons.mpr ⟨hsb, hp.2.1⟩, fun x hx y hy => ?_⟩
    rcases List.mem_cons.mp hy with rfl | hy
    · exact has x hx
    · exact hp.2.2 x hx y hy

theorem Sorted.trim {V : σ → Prop} {l : List σ} (n : Nat) (h : Sorted V o l) :
    Sorted V o (trimPool n l) := by
  unfold trimPool
  split_ifs
  · exact ⟨fun x hx => h.valid x (List.dropLast_subset l hx),
      h.sorted.sublist (List.dropLast_sublist l)⟩
  · exact h

theorem add_sorted {V : σ → Prop} (hnt : NegTransitive V o.lt) {p : Pool σ} (hp : Shape p)
    (h : Sorted V o p.solutions) {s : σ} (vs : V s) : Sorted V o (p.add o s).2.solutions := by
  rcases add_cases (o := o) p hp s with ⟨he, -⟩ | ⟨a, b, he, -, -, h2, h3, -, -, hsol, -⟩
  · rw [he]; exact h
  · rw [hsol]
    rw [he] at h
    exact (insert_sorted hnt vs h h2 h3).trim _

/-- Every offered solution is represented in the pool or the pool is full of
solutions at least as good. -/
def Represented (o : SolutionOps σ) (p : Pool σ) (x : σ) : Prop :=
  (∃ y ∈ p.solutions, SameValue o.lt o.itemCopies x y)
    ∨ (p.solutions.length = p.sizeMax ∧ ∀ y ∈ p.solutions, o.lt y x = false)

theorem add_represented {V : σ → Prop} (has : Asymmetric V o.lt) (htr : Transitive V o.lt)
    (hnt : NegTransitive V o.lt) (hlen : ∀ x y, V x → V y →
      (o.itemCopies x).length = (o.itemCopies y).length) {p : Pool σ} (hp : Shape p)
    (h : Sorted V o p.solutions) {s x : σ} (vs : V s) (vx : V x)
    (hx : x = s ∨ Represented o p x) : Represented o (p.add o s).2 x := by
  have hirr : ∀ x, V x → o.lt x x = false := by
    intro x vx
    by_contra hc
    rw [Bool.not_eq_false] at hc
    rw [has x x vx vx hc] at hc
    exact absurd hc (by decide)
  have hworst := h.last hirr hp.last
  have vworst : V p.worst := h.valid _ (List.mem_of_getLast? hp.last)
  rcases add_cases (o := o) p hp s with ⟨he, hwhy⟩ | ⟨a, b, he, hc, h1, h2, h3, -, hsz, hsol, hsh⟩
  · rw [he]
    rcases hx with rfl | hx
    · rcases hwhy with hwhy | hwhy
      · refine .inr ⟨le_antisymm hp.size hwhy.1, fun y hy => ?_⟩
        exact hnt y p.worst x (h.valid y hy) vworst vx (hworst y hy) hwhy.2
      · obtain ⟨j, hj, hj1, hj2⟩ := (setInsert_none x p.solutions [] (by simp) hwhy).2
        rw [List.nil_append] at hj
        have vj := h.valid j hj
        have l1 := comp_false_lt hj1 (has x j vx vj)
        have l2 := comp_false_lt hj2 (has j x vj vx)
        rw [comp_tie l2 l1] at hj1
        rw [comp_tie l1 l2] at hj2
        exact .inl ⟨j, hj, l1, l2, keyLt_total _ _ (hlen x j vx vj) hj2 hj1⟩
    · exact hx
  · -- the list before trimming
    have hsorted : Sorted V o (a ++ s :: b) := by
      rw [he] at h; exact insert_sorted hnt vs h h2 h3
    have hmem : ∀ y, y ∈ a ++ s :: b → y = s ∨ y ∈ p.solutions := by
      intro y hy
      rw [he]
      simp only [List.mem_append, List.mem_cons] at hy ⊢
      tauto
    have hmem' : ∀ y, y = s ∨ y ∈ p.solutions → y ∈ a ++ s :: b := by
      intro y hy
      rw [he] at hy
      simp only [List.mem_append, List.mem_cons] at hy ⊢
      tauto
    have hlen' : (a ++ s :: b).length = p.solutions.length + 1 := by rw [he]; simp; omega
    have hpre : (∃ y ∈ a ++ s :: b, SameValue o.lt o.itemCopies x y)
        ∨ (p.solutions.length = p.sizeMax ∧ ∀ y ∈ a ++ s :: b, o.lt y x = false) := by
      rcases hx with rfl | hx | hx
      · exact .inl ⟨x, hmem' x (.inl rfl), hirr x vx, hirr x vx, rfl⟩
      · obtain ⟨y, hy, hv⟩ := hx
        exact .inl ⟨y, hmem' y (.inr hy), hv⟩
      · refine .inr ⟨hx.1, fun y hy => ?_⟩
        rcases hmem y hy with rfl | hy
        · have hl : o.lt p.worst y = true := by
            by_contra hf
            rw [Bool.not_eq_true] at hf
            exact hc ⟨hx.1.ge, hf⟩
          by_contra hf
          rw [Bool.not_eq_false] at hf
          have := htr p.worst y x vworst vs vx hl hf
          rw [hx.2 p.worst (List.mem_of_getLast? hp.last)] at this
          exact absurd this (by decide)
        · exact hx.2 y hy
    unfold Represented
    rw [hsol, hsz]
    unfold trimPool
    by_cases hgt : (a ++ s :: b).length > p.sizeMax
    · rw [if_pos hgt]
      have hps := hp.size
      have hfull : (a ++ s :: b).dropLast.length = p.sizeMax := by
        rw [List.length_dropLast]; omega
      obtain ⟨w, hw⟩ := Option.isSome_iff_exists.mp
        (List.getLast?_isSome.mpr (by simp : a ++ s :: b ≠ []))
      have hlast := hsorted.last hirr hw
      rcases hpre with ⟨y, hy, hv⟩ | ⟨-, hall⟩
      · rw [← List.dropLast_append_getLast? w hw] at hy
        rcases List.mem_append.mp hy with hy | hy
        · exact .inl ⟨y, hy, hv⟩
        · have : y = w := List.mem_singleton.mp hy
          subst this
          refine .inr ⟨hfull, fun z hz => ?_⟩
          have hz' := List.dropLast_subset _ hz
          have vw : V y := hsorted.valid _ (List.mem_of_getLast? hw)
          exact hnt z y x (hsorted.valid z hz') vw vx (hlast z hz') hv.2.1
      · exact .inr ⟨hfull, fun z hz => hall z (List.dropLast_subset _ hz)⟩
    · rw [if_neg hgt]
      rcases hpre with hpre | ⟨hm, -⟩
      · exact .inl hpre
      · omega

end PoolLemmas

end PackingSolver
