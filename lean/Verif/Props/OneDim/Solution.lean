import Verif.Props.OneDim.Examples

/-!
# C09–C13, C44: one-dimensional solutions

The theorems quantify over every instance and every solution obtainable by any
history of `SolutionBuilder`, `append_bin`, `append_bins` and
`append_empty_bin` calls (`Spec.Reachable`).
-/

namespace PackingSolver.OneDim

open Spec

variable {inst : Instance} {s : Solution}

/-! ## C09 -/

/-- **C09** (counters): every reported total equals its definition on the list of
bins. -/
theorem indicators_exact (h : Reachable inst s) :
    s.numberOfBins = Spec.numberOfBins (packingOf s)
    ∧ s.numberOfItems = Spec.numberOfItems (packingOf s)
    ∧ s.binLength = Spec.binLength inst (packingOf s)
    ∧ s.itemLength = Spec.itemLength inst (packingOf s)
    ∧ s.length = Spec.length inst (packingOf s)
    ∧ s.binCost = Spec.cost inst (packingOf s)
    ∧ (∀ t, t < inst.numberOfBinTypes →
        s.binCopies.getD t 0 = Spec.binCopies (packingOf s) t)
    ∧ (∀ i, i < inst.numberOfItemTypes →
        s.itemCopies.getD i 0 = Spec.itemCopies (packingOf s) i)
    ∧ s.numberOfInfeasibleItemCopiesMin = Spec.missing inst (packingOf s) := by
  have hi := h.good.indic
  exact ⟨hi.numberOfBins, hi.numberOfItems, hi.binLength, hi.itemLength, hi.length, hi.cost,
    hi.binCopies, hi.itemCopies, hi.missing⟩

/-- **C09** (profit): the reported profit is the profit of the packed items times
the copies of their bin, minus, for each listed bin, the penalty of every
penalized resource whose capacity its items exceed.  Consumptions and
capacities are non-negative. -/
theorem profit_exact (h : Reachable inst s) (hR : ResourceIdsOk inst)
    (hcap : CapacitiesNonneg inst) (hnn : ConsumptionsNonneg inst) :
    s.itemProfit = Spec.profit inst (packingOf s) :=
  h.good.indic.profit hR hcap hnn

example : Reachable Examples.ex Examples.exSol ∧ ResourceIdsOk Examples.ex
    ∧ CapacitiesNonneg Examples.ex ∧ ConsumptionsNonneg Examples.ex
    ∧ Examples.exSol.itemProfit = 13 ∧ Examples.exSol.length = 14 :=
  ⟨Examples.exSol_reachable, Examples.ex_resourceIds, Examples.ex_capacities,
    Examples.ex_consumptions, by decide +kernel, by decide +kernel⟩

/-! ## C10 -/

/-- **C10**: `feasible()` is true exactly when the packing satisfies every
constraint of the specification.  An empty solution never consults the
callback. -/
theorem feasible_iff (h : Reachable inst s) (hR : ResourceIdsOk inst)
    (hcap : CapacitiesNonneg inst)
    (hcopies : ∀ i, i < inst.numberOfItemTypes → 0 ≤ (inst.itemType i).copies)
    (hcb : s.bins = [] → inst.callback [] = true) :
    s.feasible = true ↔ Spec.Feasible inst (packingOf s) := by
  have hg := h.good
  have hi := hg.indic
  have hp : packingOf s = binsView s.bins := rfl
  rw [hp]
  have hcallback : s.callbackFeasible = true ↔ inst.callback (binsView s.bins) = true := by
    by_cases he : s.bins = []
    · rw [hg.callback_nil he, he]
      simp only [binsView, List.map_nil, hcb he]
    · rw [hg.callback he]
  rw [hi.feasible]
  simp only [Bool.and_eq_true, decide_eq_true_eq]
  rw [hi.capacity, hi.weight, hi.stack, hi.weightAfter, hi.itemCopiesFeasible,
    hi.resources hR hcap, hi.eligible, hcallback, hi.missing, missing_eq_zero]
  constructor
  · rintro ⟨⟨⟨⟨⟨⟨⟨⟨h1, h2⟩, h3⟩, h4⟩, h5⟩, h6⟩, h7⟩, h8⟩, h9⟩
    refine ⟨fun b hb => ⟨h1 b hb, h2 b hb, h7 b hb, h3 b hb, h4 b hb, h6 b hb⟩,
      fun i hlt => ⟨h9 i hlt, ?_⟩, h8⟩
    by_cases hm : ∃ b ∈ binsView s.bins, i ∈ b.items
    · obtain ⟨b, hb, hib⟩ := hm
      exact h5 b hb i hib
    · have hz : Spec.itemCopies (binsView s.bins) i = 0 := by
        apply List.sum_eq_zero
        intro x hx
        obtain ⟨b, hb, rfl⟩ := List.mem_map.mp hx
        have : b.items.count i = 0 := List.count_eq_zero.mpr (fun hi => hm ⟨b, hb, hi⟩)
        simp [this]
      rw [hz]; exact hcopies i hlt
  · rintro ⟨hb, hc, hcall⟩
    refine ⟨⟨⟨⟨⟨⟨⟨⟨fun b h => (hb b h).fits, fun b h => (hb b h).weight⟩,
      fun b h => (hb b h).stack⟩, fun b h => (hb b h).weightAfter⟩, ?_⟩,
      fun b h => (hb b h).resources⟩, fun b h => (hb b h).eligible⟩, hcall⟩,
      fun i hlt => (hc i hlt).1⟩
    intro b hbm i hib
    exact (hc i ((hg.typed b hbm).2.2 i hib)).2

/-- Each individual flag also has exactly its documented meaning. -/
theorem flags_exact (h : Reachable inst s) (hR : ResourceIdsOk inst)
    (hcap : CapacitiesNonneg inst) :
    (s.capacityFeasible = true ↔ ∀ b ∈ packingOf s, Fits inst b.binTypeId b.items)
    ∧ (s.weightFeasible = true ↔ ∀ b ∈ packingOf s, WeightOk inst b.binTypeId b.items)
    ∧ (s.eligibilityFeasible = true ↔ ∀ b ∈ packingOf s, EligibleAll inst b.binTypeId b.items)
    ∧ (s.stackabilityFeasible = true ↔ ∀ b ∈ packingOf s, StackOk inst b.items)
    ∧ (s.maximumWeightAfterFeasible = true ↔ ∀ b ∈ packingOf s, WeightAfterOk inst b.items)
    ∧ (s.resourceFeasible = true ↔ ∀ b ∈ packingOf s, ResourcesOk inst b.binTypeId b.items) := by
  have hi := h.good.indic
  exact ⟨hi.capacity, hi.weight, hi.eligible, hi.stack, hi.weightAfter, hi.resources hR hcap⟩

example : Reachable Examples.ex Examples.exSol ∧ Examples.exSol.feasible = true
    ∧ (∀ i, i < Examples.ex.numberOfItemTypes → 0 ≤ (Examples.ex.itemType i).copies)
    ∧ Spec.Feasible Examples.ex (packingOf Examples.exSol) := by
  have hc : ∀ i, i < Examples.ex.numberOfItemTypes → 0 ≤ (Examples.ex.itemType i).copies := by
    decide
  have hf : Examples.exSol.feasible = true := by decide +kernel
  exact ⟨Examples.exSol_reachable, hf, hc,
    (feasible_iff Examples.exSol_reachable Examples.ex_resourceIds Examples.ex_capacities hc
      (fun _ => rfl)).mp hf⟩

/-- A resource with a negative capacity is not checked in a bin whose items do
not consume it: the hypothesis `CapacitiesNonneg` of `feasible_iff` cannot be
dropped. -/
theorem feasible_iff_needs_nonneg_capacity : ∃ (inst : Instance) (s : Solution),
    Reachable inst s ∧ ResourceIdsOk inst ∧ s.feasible = true ∧
      ¬ Spec.Feasible inst (packingOf s) := by
  let inst : Instance := {
    objective := .knapsack
    itemTypes := [{ length := 1, profit := 1, copies := 1, copiesMin := 0, resourceIds := [[]] }]
    binTypes := [
      { length := 5, cost := 1, copies := 1, copiesMin := 0, resources := [{ capacity := -1 }] }] }
  let ops : List BuilderOp := [.addBin 0 1, .addItem 0 0]
  let s := Examples.okD {} (SolutionBuilder.runOps inst ops)
  have hrun : SolutionBuilder.runOps inst ops = .ok s := by decide +kernel
  refine ⟨inst, s, .built ops s (by intro t c h; simp [ops] at h; omega) hrun, ?_,
    by decide +kernel, ?_⟩
  · intro i hi b hb
    have hi' : i = 0 := by
      have : i < 1 := hi
      omega
    have hb' : b = 0 := by
      have : b < 1 := hb
      omega
    subst hi' hb'
    refine ⟨by decide, fun r => ⟨fun h => absurd h (by simp [inst, Instance.itemType]),
      fun h => ?_⟩⟩
    have h1 : r < 1 := h.1
    have : r = 0 := by omega
    subst this
    exact absurd rfl h.2
  · intro hf
    have hmem : (⟨0, 1, [0]⟩ : PackedBin) ∈ packingOf s := by decide +kernel
    have := (hf.bins _ hmem).resources { capacity := -1 } (by simp [inst, Instance.binType]) rfl
      [] (by simp)
    rw [consumption_nil] at this
    norm_num at this

/-! ## C11 -/

/-- **C11** fails: a solution that uses a bin type more often than it is
available, less often than required, or out of order still reports
`feasible()`. -/
theorem feasible_ignores_bin_limits : ∃ (inst : Instance) (s : Solution),
    Reachable inst s ∧ s.feasible = true ∧ inst.objective = .binPacking
      ∧ ¬ Spec.BinLimitsOk inst (packingOf s) ∧ ¬ Spec.OrderOk inst (packingOf s) := by
  let inst : Instance := {
    objective := .binPacking
    itemTypes := [{ length := 1, profit := 1, copies := 2, copiesMin := 2, resourceIds := [[], []] }]
    binTypes := [{ length := 5, cost := 1, copies := 1, copiesMin := 0 },
      { length := 5, cost := 1, copies := 1, copiesMin := 0 }] }
  let ops : List BuilderOp := [.addBin 1 2, .addItem 0 0]
  let s := Examples.okD {} (SolutionBuilder.runOps inst ops)
  have hrun : SolutionBuilder.runOps inst ops = .ok s := by decide +kernel
  refine ⟨inst, s, .built ops s (by intro t c h; simp [ops] at h; omega) hrun,
    by decide +kernel, rfl, ?_, ?_⟩
  · intro h
    have := (h 1 (by decide)).2
    revert this; decide +kernel
  · intro h
    have := h 0 1 (by decide) (by decide) (by decide +kernel)
    revert this; decide +kernel

/-- A bin type that must be used may be missing from a solution that reports
`feasible()`. -/
theorem feasible_ignores_bin_copies_min : ∃ (inst : Instance) (s : Solution),
    Reachable inst s ∧ s.feasible = true
      ∧ ∃ t, t < inst.numberOfBinTypes ∧ Spec.binCopies (packingOf s) t < (inst.binType t).copiesMin := by
  let inst : Instance := {
    objective := .variableSizedBinPacking
    itemTypes := [{ length := 1, profit := 1, copies := 1, copiesMin := 1, resourceIds := [[], []] }]
    binTypes := [{ length := 5, cost := 1, copies := 1, copiesMin := 0 },
      { length := 5, cost := 1, copies := 1, copiesMin := 1 }] }
  let ops : List BuilderOp := [.addBin 0 1, .addItem 0 0]
  let s := Examples.okD {} (SolutionBuilder.runOps inst ops)
  have hrun : SolutionBuilder.runOps inst ops = .ok s := by decide +kernel
  exact ⟨inst, s, .built ops s (by intro t c h; simp [ops] at h; omega) hrun,
    by decide +kernel, 1, by decide, by decide +kernel⟩

/-- **C11**, the part that holds: when `bin_type_order_feasible()` is true for a
bin packing solution, the bin types are used in order.  Missing: the limits on
bin copies, and `feasible()` implying the order. -/
theorem order_flag_sound_partial (h : Reachable inst s) (ho : inst.objective = .binPacking)
    (hf : s.binTypeOrderFeasible = true) : Spec.OrderOk inst (packingOf s) :=
  h.good.order ho hf

/-- For other objectives the order flag is always true. -/
theorem order_flag_other (h : Reachable inst s) (ho : inst.objective ≠ .binPacking) :
    s.binTypeOrderFeasible = true :=
  h.good.order_other ho

/-- For solutions made by the builder the order flag is exact. -/
theorem builder_order_flag_exact_partial (ops : List BuilderOp)
    (hc : ∀ t c, BuilderOp.addBin t c ∈ ops → 0 ≤ c)
    (h : SolutionBuilder.runOps inst ops = .ok s) (ho : inst.objective = .binPacking) :
    s.binTypeOrderFeasible = true ↔ Spec.OrderOk inst (packingOf s) := by
  have hb := build_ok ops s (opsPacking_copies ops hc) h
  have := hb.2 ho
  rwa [← hb.1.2] at this

example : Reachable Examples.ex Examples.exSol ∧ Examples.ex.objective = .binPacking
    ∧ Examples.exSol.binTypeOrderFeasible = true :=
  ⟨Examples.exSol_reachable, rfl, by decide +kernel⟩

/-- The order flag is sticky when bins are appended one by one: adding bins of
type 1 and then of type 0 leaves it false although the final packing uses the
types in order. -/
theorem order_flag_sticky : ∃ (inst : Instance) (s : Solution), Reachable inst s ∧
    inst.objective = .binPacking ∧ Spec.OrderOk inst (packingOf s)
      ∧ s.binTypeOrderFeasible = false := by
  let inst : Instance := {
    objective := .binPacking
    itemTypes := []
    binTypes := [{ length := 5, cost := 1, copies := 1, copiesMin := 0 },
      { length := 5, cost := 1, copies := 1, copiesMin := 0 }] }
  let s1 := Examples.okD {} ((Solution.init inst).appendEmptyBin inst 1 1)
  let s2 := Examples.okD {} (s1.appendEmptyBin inst 0 1)
  have h1 : (Solution.init inst).appendEmptyBin inst 1 1 = .ok s1 := by decide +kernel
  have h2 : s1.appendEmptyBin inst 0 1 = .ok s2 := by decide +kernel
  refine ⟨inst, s2, .appendEmptyBin _ _ _ _ (.appendEmptyBin _ _ _ _ .init (by decide) h1)
    (by decide) h2, rfl, ?_, by decide +kernel⟩
  intro t u htu hu _
  have hu' : u < 2 := hu
  have : t = 0 := by omega
  subst this
  decide +kernel

/-! ## C12 -/

theorem sum_map_perm_int {p q : Packing} (h : p.Perm q) (f : PackedBin → Int) :
    (p.map f).sum = (q.map f).sum := (h.map f).sum_eq

theorem sum_map_perm_rat {p q : Packing} (h : p.Perm q) (f : PackedBin → ℚ) :
    (p.map f).sum = (q.map f).sum := (h.map f).sum_eq

/-- **C12** (totals): two solutions with the same bins in a different order report
the same totals. -/
theorem bin_order_irrelevant_totals {s' : Solution} (h : Reachable inst s)
    (h' : Reachable inst s') (hp : (packingOf s).Perm (packingOf s')) :
    s.numberOfBins = s'.numberOfBins ∧ s.numberOfItems = s'.numberOfItems
    ∧ s.binLength = s'.binLength ∧ s.itemLength = s'.itemLength ∧ s.binCost = s'.binCost
    ∧ s.binCopies = s'.binCopies ∧ s.itemCopies = s'.itemCopies
    ∧ s.numberOfInfeasibleItemCopiesMin = s'.numberOfInfeasibleItemCopiesMin := by
  have hi := h.good.indic
  have hi' := h'.good.indic
  have hp' : (binsView s.bins).Perm (binsView s'.bins) := hp
  have hic : ∀ i, Spec.itemCopies (binsView s.bins) i = Spec.itemCopies (binsView s'.bins) i :=
    fun i => sum_map_perm_int hp' _
  refine ⟨?_, ?_, ?_, ?_, ?_, ?_, ?_, ?_⟩
  · rw [hi.numberOfBins, hi'.numberOfBins]; exact sum_map_perm_int hp' _
  · rw [hi.numberOfItems, hi'.numberOfItems]; exact sum_map_perm_int hp' _
  · rw [hi.binLength, hi'.binLength]; exact sum_map_perm_int hp' _
  · rw [hi.itemLength, hi'.itemLength]; exact sum_map_perm_int hp' _
  · rw [hi.cost, hi'.cost]; exact sum_map_perm_rat hp' _
  · apply List.ext_getElem (by rw [hi.binCopiesLen, hi'.binCopiesLen])
    intro n h1 h2
    rw [← List.getD_eq_getElem _ 0 h1, ← List.getD_eq_getElem _ 0 h2,
      hi.binCopies n (by rw [← hi.binCopiesLen]; exact h1),
      hi'.binCopies n (by rw [← hi'.binCopiesLen]; exact h2)]
    exact sum_map_perm_int hp' _
  · apply List.ext_getElem (by rw [hi.itemCopiesLen, hi'.itemCopiesLen])
    intro n h1 h2
    rw [← List.getD_eq_getElem _ 0 h1, ← List.getD_eq_getElem _ 0 h2,
      hi.itemCopies n (by rw [← hi.itemCopiesLen]; exact h1),
      hi'.itemCopies n (by rw [← hi'.itemCopiesLen]; exact h2)]
    exact hic n
  · rw [hi.missing, hi'.missing]
    unfold Spec.missing
    simp only [hic]

/-- **C12** (profit). -/
theorem bin_order_irrelevant_profit {s' : Solution} (h : Reachable inst s)
    (h' : Reachable inst s') (hp : (packingOf s).Perm (packingOf s')) (hR : ResourceIdsOk inst)
    (hcap : CapacitiesNonneg inst) (hnn : ConsumptionsNonneg inst) :
    s.itemProfit = s'.itemProfit := by
  rw [profit_exact h hR hcap hnn, profit_exact h' hR hcap hnn]
  exact sum_map_perm_rat hp _

/-- **C12** (feasibility), for a callback that does not depend on the order of the
bins. -/
theorem bin_order_irrelevant_feasible {s' : Solution} (h : Reachable inst s)
    (h' : Reachable inst s') (hp : (packingOf s).Perm (packingOf s')) (hR : ResourceIdsOk inst)
    (hcap : CapacitiesNonneg inst)
    (hcb : ∀ p q : Packing, p.Perm q → inst.callback p = inst.callback q) :
    s.feasible = s'.feasible := by
  have hi := h.good.indic
  have hi' := h'.good.indic
  have hp' : (binsView s.bins).Perm (binsView s'.bins) := hp
  have hic : ∀ i, Spec.itemCopies (binsView s.bins) i = Spec.itemCopies (binsView s'.bins) i :=
    fun i => sum_map_perm_int hp' _
  have htot := (bin_order_irrelevant_totals h h' hp).2.2.2.2.2.2.2
  have hmem : ∀ P : PackedBin → Prop,
      (∀ b ∈ binsView s.bins, P b) ↔ ∀ b ∈ binsView s'.bins, P b := by
    intro P
    exact ⟨fun H b hb => H b (hp'.mem_iff.mpr hb), fun H b hb => H b (hp'.mem_iff.mp hb)⟩
  have hcall : s.callbackFeasible = s'.callbackFeasible := by
    have hlen : s.bins.length = s'.bins.length := by
      have := hp'.length_eq
      simpa [binsView] using this
    by_cases he : s.bins = []
    · have he' : s'.bins = [] := by
        apply List.length_eq_zero_iff.mp
        rw [← hlen, he]; rfl
      rw [h.good.callback_nil he, h'.good.callback_nil he']
    · have he' : s'.bins ≠ [] := by
        intro e
        apply he
        apply List.length_eq_zero_iff.mp
        rw [hlen, e]; rfl
      rw [h.good.callback he, h'.good.callback he', hcb _ _ hp']
  rw [Bool.eq_iff_iff, hi.feasible, hi'.feasible]
  simp only [Bool.and_eq_true, decide_eq_true_eq]
  rw [hi.capacity, hi.weight, hi.stack, hi.weightAfter, hi.itemCopiesFeasible,
    hi.resources hR hcap, hi.eligible, hi'.capacity, hi'.weight, hi'.stack, hi'.weightAfter,
    hi'.itemCopiesFeasible, hi'.resources hR hcap, hi'.eligible, hcall, htot]
  simp only [hmem, hic]

/-- The same two bins, listed in the other order. -/
def Examples.exSol' : Solution := okD {} (SolutionBuilder.runOps ex
  [.addBin 1 1, .addItem 0 0, .addBin 0 1, .addItem 1 0, .addItem 1 0, .addItem 1 1])

example : Reachable Examples.ex Examples.exSol'
    ∧ (packingOf Examples.exSol).Perm (packingOf Examples.exSol')
    ∧ packingOf Examples.exSol ≠ packingOf Examples.exSol' := by
  refine ⟨.built [.addBin 1 1, .addItem 0 0, .addBin 0 1, .addItem 1 0, .addItem 1 0,
    .addItem 1 1] _ (by intro t c h; simp at h; omega) (by decide +kernel), ?_, by decide +kernel⟩
  have h1 : packingOf Examples.exSol = [⟨0, 1, [0, 0, 1]⟩, ⟨1, 1, [0]⟩] := by decide +kernel
  have h2 : packingOf Examples.exSol' = [⟨1, 1, [0]⟩, ⟨0, 1, [0, 0, 1]⟩] := by decide +kernel
  rw [h1, h2]
  exact List.Perm.swap _ _ _

/-! ## C13 -/

/-- **C13** (structure): `append_bins` appends exactly the relabelled bins of the
other solution. -/
theorem appendBins_packing {s' other : Solution} {mb mi : List Nat} (h : Reachable inst s)
    (hc : ∀ b ∈ other.bins, 0 ≤ b.copies) (ha : s.appendBins inst other mb mi = .ok s') :
    packingOf s' = packingOf s ++ (packingOf other).map (relabelBin mb mi) := by
  have := (appendBins_ok h.good hc ha).2
  have h2 : packingOf s' = binsView s'.bins := rfl
  rw [h2, this]
  simp [packingOf, binsView, viewBin, ids]

theorem count_map_eq_sum (l : List Nat) (f : Nat → Nat) (n j : Nat) (hl : ∀ i ∈ l, i < n) :
    ((l.map f).count j : Int)
      = ∑ i ∈ (Finset.range n).filter (fun i => f i = j), (l.count i : Int) := by
  induction l with
  | nil => simp
  | cons a l ih =>
    have ih' := ih (fun i hi => hl i (by simp [hi]))
    have ha := hl a (by simp)
    simp only [List.map_cons, List.count_cons, Nat.cast_add]
    rw [Finset.sum_add_distrib, ← ih']
    congr 1
    simp only [beq_iff_eq, Nat.cast_ite, Nat.cast_one, Nat.cast_zero]
    rw [Finset.sum_ite_eq]
    by_cases hfa : f a = j
    · simp [hfa, ha]
    · simp [hfa]

/-- **C13** (counts): after `append_bins`, the reported number of copies of item
type `j` is the previous one plus the copies, in the other solution, of all the
item types mapped to `j`. -/
theorem appendBins_itemCopies {s' other : Solution} {mb mi : List Nat} (h : Reachable inst s)
    (hc : ∀ b ∈ other.bins, 0 ≤ b.copies) (ha : s.appendBins inst other mb mi = .ok s')
    (n : Nat) (hn : ∀ b ∈ packingOf other, ∀ i ∈ b.items, i < n)
    (j : Nat) (hj : j < inst.numberOfItemTypes) :
    s'.itemCopies.getD j 0 = s.itemCopies.getD j 0
      + ∑ i ∈ (Finset.range n).filter (fun i => mapId mi i = j),
          Spec.itemCopies (packingOf other) i := by
  have hg' : Reachable inst s' := .appendBins s s' other mb mi h hc ha
  rw [(indicators_exact hg').2.2.2.2.2.2.2.1 j hj, (indicators_exact h).2.2.2.2.2.2.2.1 j hj,
    appendBins_packing h hc ha]
  unfold Spec.itemCopies
  rw [List.map_append, List.sum_append]
  congr 1
  rw [List.map_map]
  generalize packingOf other = p at hn
  induction p with
  | nil => simp
  | cons b p ih =>
    simp only [List.map_cons, List.sum_cons]
    rw [Finset.sum_add_distrib, ih (fun b hb => hn b (by simp [hb]))]
    congr 1
    simp only [Function.comp, relabelBin]
    rw [count_map_eq_sum _ _ n j (hn b (by simp)), Finset.mul_sum]

/-- **C13** (other totals): bins, items, lengths and cost are added; bin costs and
lengths are those of the mapped types. -/
theorem appendBins_totals {s' other : Solution} {mb mi : List Nat} (h : Reachable inst s)
    (hc : ∀ b ∈ other.bins, 0 ≤ b.copies) (ha : s.appendBins inst other mb mi = .ok s') :
    s'.numberOfBins = s.numberOfBins + Spec.numberOfBins (packingOf other)
    ∧ s'.numberOfItems = s.numberOfItems + Spec.numberOfItems (packingOf other)
    ∧ s'.binCost = s.binCost
        + Spec.cost inst ((packingOf other).map (relabelBin mb mi))
    ∧ s'.itemLength = s.itemLength
        + Spec.itemLength inst ((packingOf other).map (relabelBin mb mi)) := by
  have hg' : Reachable inst s' := .appendBins s s' other mb mi h hc ha
  obtain ⟨a1, a2, -, a4, -, a6, -, -, -⟩ := indicators_exact hg'
  obtain ⟨b1, b2, -, b4, -, b6, -, -, -⟩ := indicators_exact h
  rw [a1, a2, a4, a6, b1, b2, b4, b6, appendBins_packing h hc ha]
  refine ⟨?_, ?_, ?_, ?_⟩
  · simp [Spec.numberOfBins, List.map_append, List.sum_append, Function.comp_def, relabelBin]
  · simp [Spec.numberOfItems, List.map_append, List.sum_append, Function.comp_def, relabelBin]
  · simp [Spec.cost, List.map_append, List.sum_append]
  · simp [Spec.itemLength, List.map_append, List.sum_append]

example : ∃ s', Examples.exSol.appendBins Examples.ex Examples.exSol [1, 1] [1, 0] = .ok s'
    ∧ s'.itemCopies = [4, 4] ∧ s'.numberOfBins = 4 :=
  ⟨Examples.okD {} (Examples.exSol.appendBins Examples.ex Examples.exSol [1, 1] [1, 0]),
    by decide +kernel, by decide +kernel, by decide +kernel⟩

/-! ## C44 -/

/-- **C44** holds when no resource is penalized: a bin listed with `k` copies
contributes `k` times the profit of its items. Missing: penalized resources. -/
theorem copies_scale_profit_partial (h : Reachable inst s) (hR : ResourceIdsOk inst)
    (hcap : CapacitiesNonneg inst) (hnn : ConsumptionsNonneg inst)
    (hp : ∀ b ∈ inst.binTypes, ∀ r ∈ b.resources, r.penalize = false) :
    s.itemProfit
      = ((packingOf s).map fun b => (b.copies : ℚ)
          * (itemsProfit inst b.items - penalties inst b.binTypeId b.items)).sum := by
  rw [profit_exact h hR hcap hnn]
  unfold Spec.profit
  congr 1
  refine List.map_congr_left fun b hb => ?_
  have hpz : penalties inst b.binTypeId b.items = 0 := by
    unfold penalties
    apply List.sum_eq_zero
    intro x hx
    obtain ⟨r, hr, rfl⟩ := List.mem_map.mp hx
    rw [hp _ (binType_mem inst ((h.good.typed b hb).1)) r hr]
    simp
  rw [hpz]; ring

/-- **C44** fails with penalized resources: the same two bins listed as one entry
with two copies or as two entries have different profits. -/
theorem copies_do_not_scale_penalties : ∃ (inst : Instance) (s s' : Solution),
    Reachable inst s ∧ Reachable inst s' ∧ ResourceIdsOk inst ∧ CapacitiesNonneg inst
      ∧ ConsumptionsNonneg inst
      ∧ packingOf s = [⟨0, 2, [1]⟩] ∧ packingOf s' = [⟨0, 1, [1]⟩, ⟨0, 1, [1]⟩]
      ∧ s.itemProfit = 0 ∧ s'.itemProfit = -4 := by
  refine ⟨Examples.ex,
    Examples.okD {} (SolutionBuilder.runOps Examples.ex [.addBin 0 2, .addItem 0 1]),
    Examples.okD {} (SolutionBuilder.runOps Examples.ex
      [.addBin 0 1, .addItem 0 1, .addBin 0 1, .addItem 1 1]),
    .built [.addBin 0 2, .addItem 0 1] _ (by intro t c h; simp at h; omega) (by decide +kernel),
    .built [.addBin 0 1, .addItem 0 1, .addBin 0 1, .addItem 1 1] _
      (by intro t c h; simp at h; omega) (by decide +kernel),
    Examples.ex_resourceIds, Examples.ex_capacities, Examples.ex_consumptions,
    by decide +kernel, by decide +kernel, by decide +kernel, by decide +kernel⟩

end PackingSolver.OneDim
