import Verif.Lemmas.Algorithms.BinCap

/-!
# C33: the cap on the number of bins; C49: the bound of the pricing problem
-/

namespace PackingSolver.ColumnGeneration

open PackingSolver.ColumnGeneration.Spec

/-! ### C33 -/

/-- C33 (upper bound). When no bin has a negative cost, every choice of bins that respects the
availability of the bin types, costs at most the incumbent and has no more bins than there are
items, has at most as many bins as the cap.  What is missing from the full claim: negative
costs (`maximum_number_of_bins_negative_cost`) and solutions with empty bins
(`maximum_number_of_bins_empty_bins`), for which it is false. -/
theorem maximum_number_of_bins_upper_partial {bins : List BinData} {numberOfItems : Int}
    {bestCost : ℚ} {n : List Int} (hcost : ∀ b ∈ bins, 0 ≤ b.cost)
    (h : Affordable bins bestCost n) (hitems : n.sum ≤ numberOfItems) :
    n.sum ≤ maximumNumberOfBins bins numberOfItems bestCost := by
  obtain ⟨t, h1, h2, h3, h4⟩ := optional_of_choice h.available
  obtain ⟨t', hp, hm⟩ := sort_taken t
  have hok := takenOk_perm hp.symm h2
  have hnn : ∀ x ∈ t', 0 ≤ x.1.1 := by
    intro x hx
    have : x.1 ∈ optionalBins bins := by
      rw [← h1]; exact List.mem_map.2 ⟨x, hp.mem_iff.1 hx, rfl⟩
    unfold optionalBins at this
    obtain ⟨b, hb, he⟩ := List.mem_filterMap.1 this
    split_ifs at he
    simp only [Option.some.injEq] at he
    rw [← he]; exact hcost b hb
  have hc := h.cost
  rw [h4] at hc
  have hcost0 : 0 ≤ takenCost t' := by
    have := takenCost_ge hok (c := 0) hnn
    simpa using this
  have hcp := takenCost_perm hp
  have hbud : ¬ (bestCost - (bins.map fun b => b.cost * (b.copiesMin : ℚ)).sum < 0) := by
    push Not; linarith
  have key := fillBudget_max t' hok (by rw [hm]; exact sorted_fst _) hnn
    (budget := bestCost - (bins.map fun b => b.cost * (b.copiesMin : ℚ)).sum) (by linarith)
  rw [hm, h1, takenCount_perm hp] at key
  unfold maximumNumberOfBins
  dsimp only
  rw [if_neg hbud]
  refine le_min ?_ hitems
  omega

/-- C33 (attained). When no bin has a negative cost and the mandatory bins cost at most the
incumbent, some choice of bins within the budget has exactly as many bins as the cap, up to the
number of items: together with the upper bound, the cap is the true maximum. -/
theorem maximum_number_of_bins_attained_partial {bins : List BinData} {numberOfItems : Int}
    {bestCost : ℚ} (hcost : ∀ b ∈ bins, 0 ≤ b.cost)
    (hcopies : ∀ b ∈ bins, b.copiesMin ≤ b.copies)
    (hmand : Affordable bins bestCost (bins.map fun b => b.copiesMin)) :
    ∃ n, Affordable bins bestCost n
      ∧ min n.sum numberOfItems = maximumNumberOfBins bins numberOfItems bestCost := by
  have hmc : (bins.map fun b => b.cost * (b.copiesMin : ℚ)).sum ≤ bestCost := by
    have := hmand.cost
    rw [show List.zipWith (fun b x => b.cost * ((x : Int) : ℚ)) bins
      (bins.map fun b => b.copiesMin) = bins.map fun b => b.cost * (b.copiesMin : ℚ) by
        rw [List.zipWith_map_right, List.zipWith_self]] at this
    exact this
  have hopt : ∀ p ∈ (optionalBins bins).insertionSort pairLe, 0 ≤ p.2 ∧ 0 ≤ p.1 := by
    intro p hp
    rw [List.mem_insertionSort] at hp
    unfold optionalBins at hp
    obtain ⟨b, hb, he⟩ := List.mem_filterMap.1 hp
    split_ifs at he with hpos
    simp only [Option.some.injEq] at he
    rw [← he]
    exact ⟨by dsimp only; omega, hcost b hb⟩
  obtain ⟨t, h1, h2, h3, h4⟩ := fillBudget_attained _ (fun p hp => (hopt p hp).1)
    (fun p hp => (hopt p hp).2)
    (budget := bestCost - (bins.map fun b => b.cost * (b.copiesMin : ℚ)).sum) (by linarith)
  obtain ⟨t', hp, hm⟩ := unsort_taken (l := optionalBins bins) (t := t)
    (by rw [h1]; exact List.perm_insertionSort _ _)
  obtain ⟨n, hn1, hn2, hn3⟩ := choice_of_optional hcopies hm (takenOk_perm hp.symm h2)
  refine ⟨n, ⟨hn1, ?_⟩, ?_⟩
  · rw [hn3, takenCost_perm hp]; linarith
  · unfold maximumNumberOfBins
    dsimp only
    rw [if_neg (by push Not; linarith), hn2, takenCount_perm hp, h4]

/-- Non-vacuity: two bin types, one mandatory bin, budget for three more. -/
example : maximumNumberOfBins [⟨3, 5, 1⟩, ⟨2, 2, 0⟩] 10 (21 / 2) = 4
    ∧ Affordable [⟨3, 5, 1⟩, ⟨2, 2, 0⟩] (21 / 2) [2, 2]
    ∧ Affordable [⟨3, 5, 1⟩, ⟨2, 2, 0⟩] (21 / 2) [1, 0] := by
  refine ⟨by decide +kernel, ⟨?_, by decide +kernel⟩, ⟨?_, by decide +kernel⟩⟩
  · exact .cons (by decide) (.cons (by decide) .nil)
  · exact .cons (by decide) (.cons (by decide) .nil)

/-- C33 is false for negative costs: bins that earn money extend the budget, the cap ignores
it. -/
theorem maximum_number_of_bins_negative_cost :
    ∃ bins bestCost n, Affordable bins bestCost n ∧ n.sum ≤ 10
      ∧ maximumNumberOfBins bins 10 bestCost < n.sum :=
  ⟨[⟨-5, 1, 0⟩, ⟨3, 1, 0⟩], 0, [1, 1],
    ⟨.cons (by decide) (.cons (by decide) .nil), by decide +kernel⟩, by decide,
    by decide +kernel⟩

/-- C33 is false for solutions with empty bins: two mandatory bins, one item. -/
theorem maximum_number_of_bins_empty_bins :
    ∃ bins bestCost n, (∀ b ∈ bins, 0 ≤ b.cost) ∧ Affordable bins bestCost n
      ∧ maximumNumberOfBins bins 1 bestCost < n.sum :=
  ⟨[⟨1, 2, 2⟩], 2, [2], by decide +kernel,
    ⟨.cons (by decide) .nil, by decide +kernel⟩, by decide +kernel⟩

/-- The calls of the cap over time, with the cache. -/
def cachedCalls (bins : List BinData) (numberOfItems : Int) :
    List ℚ → Option (ℚ × Int) → List Int
  | [], _ => []
  | cost :: rest, cache =>
    let r := cachedMaximumNumberOfBins bins numberOfItems cost cache
    r.1 :: cachedCalls bins numberOfItems rest r.2

/-- Whatever the sequence of incumbent costs, the cache never changes an answer. -/
theorem cached_calls_exact (bins : List BinData) (numberOfItems : Int) (costs : List ℚ) :
    cachedCalls bins numberOfItems costs none
      = costs.map (maximumNumberOfBins bins numberOfItems) := by
  have key : ∀ (costs : List ℚ) (cache : Option (ℚ × Int)),
      (∀ p, cache = some p → p.2 = maximumNumberOfBins bins numberOfItems p.1) →
      cachedCalls bins numberOfItems costs cache
        = costs.map (maximumNumberOfBins bins numberOfItems) := by
    intro costs
    induction costs with
    | nil => intro cache _; rfl
    | cons c rest ih =>
      intro cache hc
      unfold cachedCalls
      dsimp only
      rw [List.map_cons]
      match cache, hc with
      | none, _ =>
        unfold cachedMaximumNumberOfBins
        dsimp only
        rw [ih _ (by rintro p hp; simp only [Option.some.injEq] at hp; subst hp; rfl)]
      | some (cost, value), hc =>
        have hv := hc (cost, value) rfl
        dsimp only at hv
        unfold cachedMaximumNumberOfBins
        dsimp only
        split_ifs with he
        · dsimp only
          rw [ih _ hc, hv, he]
        · dsimp only
          rw [ih _ (by rintro p hp; simp only [Option.some.injEq] at hp; subst hp; rfl)]
  exact key costs none (by simp)

example : cachedCalls [⟨3, 5, 1⟩, ⟨2, 2, 0⟩] 10 [20, 20, 21 / 2] none = [7, 7, 4] := by
  decide +kernel

/-! ### C49: the bound of the pricing problem -/

/-- The reduced cost bound is at most zero and at most the term of every bin type that counts. -/
theorem reducedCostBound_le (bins : List PricedBin) :
    reducedCostBound bins ≤ 0 ∧ ∀ b ∈ bins, b.exhausted = false → b.hasColumn = true →
      reducedCostBound bins ≤ b.objective - b.dual - b.knapsackBound := by
  unfold reducedCostBound
  have key : ∀ (l : List PricedBin) (r : ℚ),
      (l.foldl (fun r b => if b.exhausted then r
        else if b.hasColumn then min r (b.objective - b.dual - b.knapsackBound) else r) r) ≤ r
      ∧ ∀ b ∈ l, b.exhausted = false → b.hasColumn = true →
        (l.foldl (fun r b => if b.exhausted then r
        else if b.hasColumn then min r (b.objective - b.dual - b.knapsackBound) else r) r)
          ≤ b.objective - b.dual - b.knapsackBound := by
    intro l
    induction l with
    | nil => intro r; exact ⟨le_refl _, by simp⟩
    | cons b l ih =>
      intro r
      rw [List.foldl_cons]
      obtain ⟨h1, h2⟩ := ih (if b.exhausted then r
        else if b.hasColumn then min r (b.objective - b.dual - b.knapsackBound) else r)
      refine ⟨h1.trans ?_, ?_⟩
      · split_ifs
        · exact le_refl _
        · exact min_le_left _ _
        · exact le_refl _
      · intro c hc he hk
        rcases List.mem_cons.1 hc with rfl | hc
        · refine h1.trans ?_
          rw [he, hk]
          simp
        · exact h2 c hc he hk
  exact key bins 0

/-- C49. If the bounds returned by the knapsack solver are valid and it returned at least one
column for every bin type that still has copies, then for every list of bins to add (their types
and the total dual value of their items) with at most as many bins as the cap, the objective is
at least the total of the duals plus the reported overcost.  What is missing from the full claim:
bin types for which no column was returned, for which it is false
(`overcost_invalid_without_column`). -/
theorem overcost_valid_partial {cap : Int} {bins : List PricedBin}
    (used : List (PricedBin × List ℚ))
    (hused : ∀ u ∈ used, u.1 ∈ bins ∧ u.1.exhausted = false ∧ u.1.hasColumn = true
      ∧ u.2.sum ≤ u.1.knapsackBound)
    (hcap : (used.length : Int) ≤ cap) :
    (used.map fun u => u.1.dual + u.2.sum).sum + overcost cap bins
      ≤ (used.map fun u => u.1.objective).sum := by
  obtain ⟨h0, hb⟩ := reducedCostBound_le bins
  have key : (used.map fun u => u.1.dual + u.2.sum).sum + used.length * reducedCostBound bins
      ≤ (used.map fun u => u.1.objective).sum := by
    clear hcap
    induction used with
    | nil => simp
    | cons u used ih =>
      have ih := ih (fun v hv => hused v (List.mem_cons_of_mem _ hv))
      obtain ⟨h1, h2, h3, h4⟩ := hused u (by simp)
      have := hb u.1 h1 h2 h3
      simp only [List.map_cons, List.sum_cons, List.length_cons]
      push_cast
      rw [add_mul, one_mul]
      linarith
  unfold overcost
  have h1 : ((used.length : Int) : ℚ) ≤ (cap : ℚ) := by exact_mod_cast hcap
  have h2 := mul_le_mul_of_nonpos_right h1 h0
  push_cast at h2
  linarith

/-- Non-vacuity: two bins of two types. -/
example : overcost 3 [{ objective := 1, dual := 0, knapsackBound := 3 / 2 },
      { objective := 2, dual := 1 / 2, knapsackBound := 5 / 2 }] = -3 := by decide +kernel

/-- C49 is false when the knapsack solver proved a bound but returned only the empty solution
(for instance because it was interrupted): the bound is then ignored and the overcost is zero,
although a bin with a negative reduced cost exists. -/
theorem overcost_invalid_without_column :
    ∃ (bins : List PricedBin) (used : List (PricedBin × List ℚ)),
      (∀ u ∈ used, u.1 ∈ bins ∧ u.1.exhausted = false ∧ u.2.sum ≤ u.1.knapsackBound)
      ∧ used.length ≤ 1
      ∧ (used.map fun u => u.1.objective).sum
        < (used.map fun u => u.1.dual + u.2.sum).sum + overcost 1 bins :=
  ⟨[{ objective := 1, hasColumn := false, knapsackBound := 3 }],
    [({ objective := 1, hasColumn := false, knapsackBound := 3 }, [3])],
    by decide +kernel, by decide, by decide +kernel⟩

end PackingSolver.ColumnGeneration
