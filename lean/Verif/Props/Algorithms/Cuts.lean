import Verif.Lemmas.Algorithms.Cuts
import Verif.Spec.Sort

/-!
# C31, C32: subset-row cuts
-/

namespace PackingSolver.ColumnGeneration

open PackingSolver.ColumnGeneration.Spec
open _root_.PackingSolver.Spec (IsSortOf)

/-! ### C31: the cuts are valid -/

/-- The coefficient of a column in a cut, read from the definition of the cut. -/
theorem coefficient_eq {i j k : Nat} (c : Column) :
    coefficient (buildSubsetRowCut i j k) c = if AtLeastTwo c.items i j k then 1 else 0 := by
  unfold coefficient buildSubsetRowCut
  have hp := (List.perm_insertionSort (· ≤ ·) [i, j, k]).filter
    (fun i => decide (c.items.count i > 0))
  rw [hp.length_eq]
  unfold AtLeastTwo
  by_cases h1 : i ∈ c.items <;> by_cases h2 : j ∈ c.items <;> by_cases h3 : k ∈ c.items <;>
    simp [h1, h2, h3]

/-- C31. Whatever bins an integer solution uses, if it packs each of the three item types at
most once then it satisfies the cut. -/
theorem subset_row_cut_valid {i j k : Nat} (sel : List (Column × Nat))
    (hi : packed (sel.map fun p => (p.1.items, p.2)) i ≤ 1)
    (hj : packed (sel.map fun p => (p.1.items, p.2)) j ≤ 1)
    (hk : packed (sel.map fun p => (p.1.items, p.2)) k ≤ 1) :
    (sel.map fun p => (p.2 : ℚ) * coefficient (buildSubsetRowCut i j k) p.1).sum
      ≤ cutUpperBound := by
  have key : ∀ sel : List (Column × Nat), ∃ n : Nat,
      (sel.map fun p => (p.2 : ℚ) * coefficient (buildSubsetRowCut i j k) p.1).sum = n
      ∧ 2 * n ≤ packed (sel.map fun p => (p.1.items, p.2)) i
        + packed (sel.map fun p => (p.1.items, p.2)) j
        + packed (sel.map fun p => (p.1.items, p.2)) k := by
    intro sel
    induction sel with
    | nil => exact ⟨0, by simp, by simp⟩
    | cons p sel ih =>
      obtain ⟨n, h1, h2⟩ := ih
      have hc : ∀ x, packed ((p :: sel).map fun p => (p.1.items, p.2)) x
          = p.2 * p.1.items.count x + packed (sel.map fun p => (p.1.items, p.2)) x := by
        intro x; simp [packed]
      rw [hc, hc, hc, List.map_cons, List.sum_cons, h1, coefficient_eq]
      by_cases hA : AtLeastTwo p.1.items i j k
      · refine ⟨p.2 + n, by rw [if_pos hA]; push_cast; ring, ?_⟩
        have h3 : 2 ≤ p.1.items.count i + p.1.items.count j + p.1.items.count k := by
          unfold AtLeastTwo at hA
          rcases hA with ⟨ha, hb⟩ | ⟨ha, hb⟩ | ⟨ha, hb⟩ <;>
            (have := List.count_pos_iff.2 ha; have := List.count_pos_iff.2 hb; omega)
        have h4 := Nat.mul_le_mul_left p.2 h3
        rw [Nat.mul_add, Nat.mul_add] at h4
        omega
      · exact ⟨n, by rw [if_neg hA]; ring, by omega⟩
  obtain ⟨n, h1, h2⟩ := key sel
  rw [h1]
  have : n ≤ 1 := by omega
  unfold cutUpperBound
  exact_mod_cast this

/-- Non-vacuity: two bins, the first with two of the three item types. -/
example : packed [([0, 1, 5], 1), ([2, 5], 1)] 0 ≤ 1 ∧ packed [([0, 1, 5], 1), ([2, 5], 1)] 1 ≤ 1
    ∧ packed [([0, 1, 5], 1), ([2, 5], 1)] 2 ≤ 1 := by decide

/-- The restriction to item types with one copy is needed: with two copies of each item type an
integer solution may violate the cut. -/
theorem subset_row_cut_needs_single_copies :
    ∃ sel : List (Column × Nat), (∀ x ∈ [0, 1, 2],
        packed (sel.map fun p => (p.1.items, p.2)) x ≤ 2)
      ∧ cutUpperBound <
        (sel.map fun p => (p.2 : ℚ) * coefficient (buildSubsetRowCut 0 1 2) p.1).sum :=
  ⟨[(columnOf 1 3 0 [0, 1, 2], 2)], by decide +kernel, by decide +kernel⟩

/-- Two cuts are considered equal exactly when they are over the same three item types. -/
theorem cutEqual_iff (i j k i' j' k' : Nat) :
    cutEqual (buildSubsetRowCut i j k) (buildSubsetRowCut i' j' k') = true
      ↔ [i, j, k].Perm [i', j', k'] := by
  unfold cutEqual buildSubsetRowCut
  rw [beq_iff_eq]
  constructor
  · intro h
    exact (List.perm_insertionSort (· ≤ ·) [i, j, k]).symm.trans
      (h ▸ List.perm_insertionSort (· ≤ ·) [i', j', k'])
  · intro h
    exact List.Perm.eq_of_pairwise (le := (· ≤ ·)) (fun a b _ _ h1 h2 => le_antisymm h1 h2)
      (List.pairwise_insertionSort _ _) (List.pairwise_insertionSort _ _)
      ((List.perm_insertionSort _ _).trans (h.trans (List.perm_insertionSort _ _).symm))

example : cutEqual (buildSubsetRowCut 4 1 7) (buildSubsetRowCut 7 4 1) = true := by decide

/-! ### C32: the violation is the true one -/

/-- C32. For every candidate triple, the violation computed from the weights of the pairs and of
the triple is the total value of the columns with at least two of the three item types, minus
one.  The columns with a value below 10⁻⁶ are left out. -/
theorem violation_exact {nbt nit cap : Nat} {copies : List Int} {sol : List (Column × ℚ)}
    (h : FromBins nbt nit sol) {t : List Nat}
    (ht : t ∈ addCandidates cap (candidateCalls (dropRare (columnItems nbt copies sol))) []) :
    ∃ a b c, t = [a, b, c] ∧ a < b ∧ b < c
      ∧ copies.getD a 0 = 1 ∧ copies.getD b 0 = 1 ∧ copies.getD c 0 = 1
      ∧ violation (dropRare (columnItems nbt copies sol)) t
        = weightOf (sol.filter fun p => epsilon ≤ p.2) (fun col => AtLeastTwo col.items a b c)
          - 1 := by
  have hinc := readColumns_increasing (copies := copies) h
  obtain ⟨a, b, c, rfl, hab, hbc, hmem⟩ := candidate_shape hinc ht
  have hx : ∀ x ∈ [a, b, c], copies.getD x 0 = 1 ∧ 2 ≤ support sol x := by
    intro x hx
    obtain ⟨col, hcol, hx⟩ := hmem x hx
    exact mem_read h hcol hx
  have ha := hx a (by simp)
  have hb := hx b (by simp)
  have hc := hx c (by simp)
  refine ⟨a, b, c, rfl, hab, hbc, ha.1, hb.1, hc.1, ?_⟩
  rw [violation_eq hinc hab hbc, sum_read h ha hb hc]

theorem weightOf_filter_le {sol : List (Column × ℚ)} (hn : ∀ p ∈ sol, 0 ≤ p.2)
    (P : Column → Prop) [DecidablePred P] :
    weightOf (sol.filter fun p => epsilon ≤ p.2) P ≤ weightOf sol P := by
  unfold weightOf
  induction sol with
  | nil => simp
  | cons p sol ih =>
    have ih := ih (fun q hq => hn q (List.mem_cons_of_mem _ hq))
    have hp := hn p (by simp)
    rw [List.filter_cons, List.map_cons, List.sum_cons]
    have h0 : 0 ≤ (if P p.1 then p.2 else 0) := by split_ifs <;> simp [hp]
    split_ifs at h0 ⊢ <;>
      (try rw [List.map_cons, List.sum_cons]) <;> simp_all; linarith

/-- The value of a cut row in a fractional solution. -/
def rowValue (cut : List Nat) (sol : List (Column × ℚ)) : ℚ :=
  (sol.map fun p => p.2 * coefficient cut p.1).sum

theorem rowValue_eq {a b c : Nat} (sol : List (Column × ℚ)) :
    rowValue (buildSubsetRowCut a b c) sol = weightOf sol fun col => AtLeastTwo col.items a b c := by
  unfold rowValue weightOf
  congr 1
  apply List.map_congr_left
  intro p _
  rw [coefficient_eq]
  split_ifs <;> simp

theorem build_sorted {a b c : Nat} (hab : a < b) (hbc : b < c) :
    buildSubsetRowCut a b c = [a, b, c] := by
  unfold buildSubsetRowCut
  apply List.Pairwise.insertionSort_eq
  simp; omega

theorem mem_violated {cap : Nat} {cols : List ColumnItems} {v : List Nat × ℚ}
    (h : v ∈ violatedTriples cap cols) :
    v.1 ∈ addCandidates cap (candidateCalls cols) [] ∧ v.2 = violation cols v.1
      ∧ epsilon < v.2 := by
  unfold violatedTriples at h
  obtain ⟨t, ht, he⟩ := List.mem_filterMap.1 h
  split_ifs at he with hv
  simp only [Option.some.injEq] at he
  subst he
  exact ⟨ht, rfl, hv⟩

/-- C32. Every cut returned for a solution with non-negative values is over three different
item types with one copy each, is violated by that solution by more than 10⁻⁶, is satisfied by
every integer solution that packs each item type at most as many times as it has copies, and at
most one cut is returned. -/
theorem separated_cut_sound {sortTriples : List (List Nat × ℚ) → List (List Nat × ℚ)}
    (hsort : ∀ l, IsSortOf moreViolated l (sortTriples l))
    {nbt nit : Nat} {copies : List Int} {sol : List (Column × ℚ)}
    (h : FromBins nbt nit sol) (hn : ∀ p ∈ sol, 0 ≤ p.2) :
    (separateCuts sortTriples nbt copies sol).length ≤ 1
    ∧ ∀ cut ∈ separateCuts sortTriples nbt copies sol,
      (∃ a b c, cut = [a, b, c] ∧ a < b ∧ b < c
        ∧ copies.getD a 0 = 1 ∧ copies.getD b 0 = 1 ∧ copies.getD c 0 = 1)
      ∧ cutUpperBound + epsilon < rowValue cut sol
      ∧ ∀ sel : List (Column × Nat),
        (∀ i, (packed (sel.map fun p => (p.1.items, p.2)) i : Int) ≤ copies.getD i 0) →
        (sel.map fun p => (p.2 : ℚ) * coefficient cut p.1).sum ≤ cutUpperBound := by
  constructor
  · unfold separateCuts
    simp only [List.length_map, List.length_take]
    omega
  · intro cut hcut
    unfold separateCuts at hcut
    dsimp only at hcut
    obtain ⟨v, hv, rfl⟩ := List.mem_map.1 hcut
    have hv := (hsort _).perm.mem_iff.1 (List.mem_of_mem_take hv)
    obtain ⟨hcand, hval, hgt⟩ := mem_violated hv
    obtain ⟨a, b, c, ht, hab, hbc, ha, hb, hc, hviol⟩ := violation_exact h hcand
    rw [ht]
    simp only [List.getD_cons_zero, List.getD_cons_succ]
    refine ⟨⟨a, b, c, build_sorted hab hbc, hab, hbc, ha, hb, hc⟩, ?_, ?_⟩
    · rw [rowValue_eq]
      have := weightOf_filter_le hn (fun col => AtLeastTwo col.items a b c)
      rw [hval, hviol] at hgt
      unfold cutUpperBound
      linarith
    · intro sel hsel
      have h1 := hsel a
      have h2 := hsel b
      have h3 := hsel c
      rw [ha] at h1; rw [hb] at h2; rw [hc] at h3
      exact subset_row_cut_valid sel
        (by exact_mod_cast h1) (by exact_mod_cast h2) (by exact_mod_cast h3)

/-- A column with at least two of three item types. -/
theorem weight_pos {sol : List (Column × ℚ)} {P : Column → Prop} [DecidablePred P]
    (h : 0 < weightOf sol P) : ∃ p ∈ sol, P p.1 := by
  by_contra hc
  push Not at hc
  have : weightOf sol P = 0 := by
    unfold weightOf
    apply List.sum_eq_zero
    intro x hx
    obtain ⟨p, hp, rfl⟩ := List.mem_map.1 hx
    rw [if_neg (hc p hp)]
  linarith

theorem weight_mono {sol : List (Column × ℚ)} (hn : ∀ p ∈ sol, 0 ≤ p.2) {P Q : Column → Prop}
    [DecidablePred P] [DecidablePred Q] (h : ∀ p ∈ sol, P p.1 → Q p.1) :
    weightOf sol P ≤ weightOf sol Q := by
  unfold weightOf
  apply List.sum_le_sum
  intro p hp
  have := hn p hp
  by_cases h1 : P p.1
  · rw [if_pos h1, if_pos (h p hp h1)]
  · rw [if_neg h1]; split_ifs
    · exact this
    · exact le_refl _

/-- The column read for a column that is not negligible. -/
theorem read_of {nbt nit : Nat} {copies : List Int} {sol : List (Column × ℚ)}
    (h : FromBins nbt nit sol) {p : Column × ℚ} (hp : p ∈ sol) (he : epsilon ≤ p.2) :
    ∃ col ∈ dropRare (columnItems nbt copies sol), ∀ i, copies.getD i 0 = 1 →
      2 ≤ support sol i → (i ∈ col.ids ↔ i ∈ p.1.items) := by
  obtain ⟨b, hb, items, hit, heq⟩ := h p hp
  refine ⟨_, List.mem_map.2 ⟨{ value := p.2, ids := columnIds nbt copies p.1 },
    List.mem_filterMap.2 ⟨p, hp, by rw [if_neg (not_lt.2 he)]⟩, rfl⟩, ?_⟩
  intro i h1 h2
  dsimp only
  rw [List.mem_filter, numberOfColumns_eq h h1, heq, mem_columnIds hb hit]
  exact ⟨fun h => h.1.1, fun h => ⟨⟨h, h1⟩, decide_eq_true (not_lt.2 h2)⟩⟩

/-- C32. The separation finds a violated cut whenever there is one: if the solution satisfies the
demand rows of three item types with one copy, and the columns with two of the three weigh more
than one, then a cut is returned, and it is at least as violated (10 000 candidates or more stop
the enumeration).  In particular nothing is lost by ignoring the item types present in one
column only. -/
theorem separated_cut_complete {sortTriples : List (List Nat × ℚ) → List (List Nat × ℚ)}
    (hsort : ∀ l, IsSortOf moreViolated l (sortTriples l))
    {nbt nit : Nat} {copies : List Int} {sol : List (Column × ℚ)}
    (h : FromBins nbt nit sol) (hn : ∀ p ∈ sol, 0 ≤ p.2)
    {a b c : Nat} (hab : a < b) (hbc : b < c)
    (hone : ∀ x ∈ [a, b, c], copies.getD x 0 = 1)
    (hrow : ∀ x ∈ [a, b, c], weightOf sol (fun col => x ∈ col.items) ≤ 1)
    (hviol : 1 + epsilon < weightOf (sol.filter fun p => epsilon ≤ p.2)
      (fun col => AtLeastTwo col.items a b c))
    (hcap : (addCandidates 10000
      (candidateCalls (dropRare (columnItems nbt copies sol))) []).length < 10000) :
    ∃ cut, separateCuts sortTriples nbt copies sol = [cut]
      ∧ weightOf (sol.filter fun p => epsilon ≤ p.2) (fun col => AtLeastTwo col.items a b c)
        ≤ rowValue cut sol := by
  have hinc := readColumns_increasing (copies := copies) h
  have hepos : (0 : ℚ) < epsilon := by decide +kernel
  set big := sol.filter fun p => epsilon ≤ p.2 with hbig
  have hbn : ∀ p ∈ big, 0 ≤ p.2 := fun p hp => hn p (List.mem_of_mem_filter hp)
  have hrow' : ∀ x ∈ [a, b, c], weightOf big (fun col => x ∈ col.items) ≤ 1 :=
    fun x hx => (weightOf_filter_le hn _).trans (hrow x hx)
  -- no item type is missing from all the pairs
  have hmiss : ∀ x ∈ [a, b, c], ∃ p ∈ big, x ∉ p.1.items ∧ AtLeastTwo p.1.items a b c := by
    intro x hx
    by_contra hno
    push Not at hno
    have := weight_mono hbn (P := fun col => AtLeastTwo col.items a b c)
      (Q := fun col => x ∈ col.items) (by
        intro p hp hA
        by_contra hxm
        exact hno p hp hxm hA)
    have h1 := hrow' x hx
    linarith
  -- so every item type is in two different columns
  have htwo : ∀ x, ∀ p ∈ big, ∀ q ∈ big, p ≠ q → x ∈ p.1.items → x ∈ q.1.items →
      2 ≤ support sol x := by
    intro x p hp q hq hne hxp hxq
    unfold support
    have hsub : [p, q] ⊆ sol.filter fun p => epsilon ≤ p.2 ∧ x ∈ p.1.items := by
      intro r hr
      rw [List.mem_filter] at hp hq ⊢
      simp only [List.mem_cons, List.not_mem_nil, or_false] at hr
      rcases hr with rfl | rfl
      · exact ⟨hp.1, decide_eq_true ⟨of_decide_eq_true hp.2, hxp⟩⟩
      · exact ⟨hq.1, decide_eq_true ⟨of_decide_eq_true hq.2, hxq⟩⟩
    have hnd : [p, q].Nodup := by simp [hne]
    exact (hnd.subperm hsub).length_le
  have hsup : ∀ x ∈ [a, b, c], 2 ≤ support sol x := by
    obtain ⟨p, hp, hpa, hpA⟩ := hmiss a (by simp)
    obtain ⟨q, hq, hqb, hqA⟩ := hmiss b (by simp)
    obtain ⟨r, hr, hrc, hrA⟩ := hmiss c (by simp)
    unfold AtLeastTwo at hpA hqA hrA
    have hp2 : b ∈ p.1.items ∧ c ∈ p.1.items := by tauto
    have hq2 : a ∈ q.1.items ∧ c ∈ q.1.items := by tauto
    have hr2 : a ∈ r.1.items ∧ b ∈ r.1.items := by tauto
    intro x hx
    simp only [List.mem_cons, List.not_mem_nil, or_false] at hx
    rcases hx with rfl | rfl | rfl
    · exact htwo _ q hq r hr (fun he => hrc (he ▸ hq2.2)) hq2.1 hr2.1
    · exact htwo _ p hp r hr (fun he => hrc (he ▸ hp2.2)) hp2.1 hr2.2
    · exact htwo _ p hp q hq (fun he => hqb (he ▸ hp2.1)) hp2.2 hq2.2
  -- every pair with both in some column becomes, with the third, a candidate
  have hbase : ∀ p ∈ big, ∃ col ∈ readColumns nbt copies sol,
      ∀ x ∈ [a, b, c], (x ∈ col.ids ↔ x ∈ p.1.items) := by
    intro p hp
    obtain ⟨hp, he⟩ := List.mem_filter.1 hp
    obtain ⟨col, hcol, hiff⟩ := read_of (copies := copies) h hp (of_decide_eq_true he)
    exact ⟨col, hcol, fun x hx => hiff x (hone x hx) (hsup x hx)⟩
  have hcand : [a, b, c] ∈ addCandidates 10000
      (candidateCalls (dropRare (columnItems nbt copies sol))) [] := by
    -- a column without `c` has `a` and `b`; a column without `a` has `b` and `c`
    obtain ⟨p, hp, hpc, hpA⟩ := hmiss c (by simp)
    obtain ⟨q, hq, hqa, hqA⟩ := hmiss a (by simp)
    obtain ⟨colp, hcolp, hiffp⟩ := hbase p hp
    obtain ⟨colq, hcolq, hiffq⟩ := hbase q hq
    unfold AtLeastTwo at hpA hqA
    have hpab : a ∈ p.1.items ∧ b ∈ p.1.items := by tauto
    have hqbc : b ∈ q.1.items ∧ c ∈ q.1.items := by tauto
    have hcall : (a, b, c) ∈ candidateCalls (readColumns nbt copies sol) := by
      rw [mem_candidateCalls hinc]
      refine ⟨hab, ⟨colp, hcolp, (hiffp a (by simp)).2 hpab.1, (hiffp b (by simp)).2 hpab.2⟩,
        Or.inr ?_⟩
      rw [mem_neighbors hinc]
      exact ⟨by omega, colq, hcolq, (hiffq b (by simp)).2 hqbc.1, (hiffq c (by simp)).2 hqbc.2⟩
    have := (addCandidates_complete 10000 _ [] hcap).2 _ hcall (by dsimp only; omega)
      (by dsimp only; omega)
    rwa [show [(a, b, c).1, (a, b, c).2.1, (a, b, c).2.2].insertionSort (· ≤ ·) = [a, b, c] from
      build_sorted hab hbc] at this
  have hval : violation (dropRare (columnItems nbt copies sol)) [a, b, c]
      = weightOf big (fun col => AtLeastTwo col.items a b c) - 1 := by
    obtain ⟨a', b', c', ht, -, -, -, -, -, hv⟩ := violation_exact (copies := copies) h hcand
    simp only [List.cons.injEq, and_true] at ht
    obtain ⟨rfl, rfl, rfl⟩ := ht
    exact hv
  have hin : ([a, b, c], violation (dropRare (columnItems nbt copies sol)) [a, b, c])
      ∈ violatedTriples 10000 (dropRare (columnItems nbt copies sol)) := by
    unfold violatedTriples
    refine List.mem_filterMap.2 ⟨[a, b, c], hcand, ?_⟩
    rw [if_pos (by rw [hval]; linarith)]
  unfold separateCuts
  dsimp only
  obtain ⟨hperm, hsorted⟩ := hsort (violatedTriples 10000 (dropRare (columnItems nbt copies sol)))
  have hin' := hperm.mem_iff.2 hin
  generalize hL : sortTriples (violatedTriples 10000 (dropRare (columnItems nbt copies sol))) = L
    at hperm hsorted hin'
  cases L with
  | nil => simp at hin'
  | cons v L =>
    refine ⟨buildSubsetRowCut (v.1.getD 0 0) (v.1.getD 1 0) (v.1.getD 2 0), by simp, ?_⟩
    have hv := hperm.mem_iff.1 (List.mem_cons_self (a := v) (l := L))
    obtain ⟨hc1, hv1, -⟩ := mem_violated hv
    obtain ⟨a', b', c', ht, hab', hbc', -, -, -, hviol'⟩ := violation_exact h hc1
    rw [ht]
    simp only [List.getD_cons_zero, List.getD_cons_succ]
    rw [rowValue_eq]
    have hle := weightOf_filter_le hn (fun col => AtLeastTwo col.items a' b' c')
    have hmax : violation (dropRare (columnItems nbt copies sol)) [a, b, c] ≤ v.2 := by
      rcases List.mem_cons.1 hin' with he | he
      · rw [← he]
      · have := (List.pairwise_cons.1 hsorted).1 _ he
        unfold moreViolated at this
        simpa using this
    rw [hv1, hviol', hval] at hmax
    linarith

/-- The usual example: three bins with two items each, every bin used one half. -/
def halfTriangle : List (Column × ℚ) :=
  [(columnOf 1 4 0 [0, 1], 1 / 2), (columnOf 1 4 0 [0, 3], 1 / 2),
   (columnOf 1 4 0 [3, 1], 1 / 2), (columnOf 1 4 0 [2, 2], 1)]

theorem halfTriangle_fromBins : FromBins 1 4 halfTriangle := by
  intro p hp
  simp only [halfTriangle, List.mem_cons, List.not_mem_nil, or_false] at hp
  rcases hp with rfl | rfl | rfl | rfl
  · exact ⟨0, by decide, [0, 1], by decide, rfl⟩
  · exact ⟨0, by decide, [0, 3], by decide, rfl⟩
  · exact ⟨0, by decide, [3, 1], by decide, rfl⟩
  · exact ⟨0, by decide, [2, 2], by decide, rfl⟩

/-- Non-vacuity of the soundness theorem: a cut is returned. -/
example : separateCuts (fun l => l.insertionSort fun x y => x.2 ≥ y.2) 1 [1, 1, 2, 1] halfTriangle
    = [[0, 1, 3]] := by decide +kernel

example : rowValue [0, 1, 3] halfTriangle = 3 / 2 := by decide +kernel

/-- Non-vacuity of the completeness theorem. -/
example : (∀ p ∈ halfTriangle, 0 ≤ p.2)
    ∧ (∀ x ∈ [0, 1, 3], ([1, 1, 2, 1] : List Int).getD x 0 = 1)
    ∧ (∀ x ∈ [0, 1, 3], weightOf halfTriangle (fun col => x ∈ col.items) ≤ 1)
    ∧ 1 + epsilon < weightOf (halfTriangle.filter fun p => epsilon ≤ p.2)
        (fun col => AtLeastTwo col.items 0 1 3)
    ∧ (addCandidates 10000
        (candidateCalls (dropRare (columnItems 1 [1, 1, 2, 1] halfTriangle))) []).length < 10000 := by
  decide +kernel

/-- Any relation-respecting sort does: here, insertion sort. -/
theorem insertionSort_isSort (l : List (List Nat × ℚ)) :
    IsSortOf moreViolated l (l.insertionSort fun x y => x.2 ≥ y.2) := by
  constructor
  · exact List.perm_insertionSort _ l
  · have : Std.Total (fun x y : List Nat × ℚ => x.2 ≥ y.2) := ⟨fun x y => le_total y.2 x.2⟩
    have : IsTrans (List Nat × ℚ) (fun x y : List Nat × ℚ => x.2 ≥ y.2) :=
      ⟨fun x y z h1 h2 => le_trans h2 h1⟩
    refine (List.pairwise_insertionSort (fun x y : List Nat × ℚ => x.2 ≥ y.2) l).imp ?_
    intro x y h
    unfold moreViolated
    simpa using h

end PackingSolver.ColumnGeneration
