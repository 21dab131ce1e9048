import Verif.Lemmas.OneDim.TrivialBound
import Verif.Spec.Output
import Verif.Props.OneDim.Solution

/-!
# C21, C22, C23: validity of the trivial bounds
-/

namespace PackingSolver.OneDim

open OneDim.Spec PackingSolver.Spec PackingLemmas BoundLemmas

variable {inst : Instance}

/-! ## C21 -/

/-- **C21**: the trivial bin packing bound is at most the number of bins of every feasible
packing of all the items that respects the bin limits and the order of the bin types. -/
theorem trivial_bin_packing_bound_valid (ho : inst.objective = .binPacking) {p : Packing}
    (hp : Admissible inst p) : trivialBinPackingBound inst ≤ numberOfBins p := by
  have hload := total_load_le hp.typed fun b hb => (hp.feasible.bins b hb).fits
  have hall := hp.complete (by rw [ho]; decide)
  have hord := hp.order ho
  have hlen : inst.numberOfBinTypes = inst.binTypes.length := rfl
  let c : List Int := (List.range inst.binTypes.length).map fun t => binCopies p t
  have hc : ∀ k, k < inst.binTypes.length → c.getD k 0 = binCopies p k := by
    intro k hk
    rw [List.getD_eq_getElem _ _ (by simpa [c] using hk)]
    simp [c]
  have hsum : c.sum = numberOfBins p := by
    rw [numberOfBins_eq hp.typed, hlen, ← foldl_range, foldl_add, zero_add]
  have hz : (List.zipWith (fun (b : BinType) x => x * max b.length 0) inst.binTypes c).sum
      = ∑ t ∈ Finset.range inst.numberOfBinTypes,
        binCopies p t * max (inst.binType t).length 0 := by
    have hzl : List.zipWith (fun (b : BinType) x => x * max b.length 0) inst.binTypes c
        = (List.range inst.binTypes.length).map fun t =>
          binCopies p t * max (inst.binType t).length 0 := by
      apply List.ext_getElem
      · simp [c]
      · intro k h1 h2
        have hk : k < inst.binTypes.length := by simpa using h2
        simp [c, Instance.binType, hk]
    rw [hzl, hlen, ← foldl_range, foldl_add, zero_add]
  have htot : totalReducedLength inst = ∑ i ∈ Finset.range inst.numberOfItemTypes,
      itemCopies p i * reducedLength (inst.itemType i) := by
    unfold totalReducedLength
    rw [foldl_range]
    refine Finset.sum_congr rfl fun i hi => ?_
    rw [hall i (Finset.mem_range.mp hi)]
  have := binPackingFill_le inst.binTypes c (by simp [c])
    (fun x hx => by
      obtain ⟨t, -, rfl⟩ := List.mem_map.mp hx
      exact binCopies_nonneg hp.typed t)
    (fun k hk => by rw [hc k hk]; exact (hp.limits k hk).2)
    (fun j k hjk hk hpos => by
      rw [hc j (by omega)]
      rw [hc k hk] at hpos
      exact hord j k hjk hk hpos)
    (totalReducedLength inst) 0 (by rw [hz, htot]; exact hload)
  rw [hsum, zero_add] at this
  exact this

/-- The update made by the code is valid in the sense of C20. -/
theorem trivial_bin_packing_update_valid (ho : inst.objective = .binPacking)
    (prof : {p : Packing // Admissible inst p} → ℚ)
    (cst : {p : Packing // Admissible inst p} → ℚ) :
    ValidUpdate (σ := Solution) inst.objective prof (fun p => numberOfBins p.1) cst
      (.binPacking (trivialBinPackingBound inst)) :=
  fun p => trivial_bin_packing_bound_valid ho p.2

/-- Two bin types (2 × 10, 3 × 7), five items of length 6 with nesting length 1: the bound
is 3. -/
def tbInst : Instance := {
  objective := .binPacking
  itemTypes := [
    { length := 6, profit := 6, copies := 5, copiesMin := 5, nestingLength := 1,
      resourceIds := [[], []] }]
  binTypes := [{ length := 10, cost := 10, copies := 2, copiesMin := 0 },
    { length := 7, cost := 7, copies := 3, copiesMin := 0 }] }

def tbPacking : Packing := [⟨0, 2, [0]⟩, ⟨1, 3, [0]⟩]

theorem tbPacking_admissible : Admissible tbInst tbPacking := by
  have pre : ∀ (p q : List Nat), p <+: [0] → p ≠ [] → p = [0] := by
    intro p q h hne
    rcases List.prefix_cons_iff.mp h with h | ⟨t, h, h'⟩
    · exact absurd h hne
    · rw [h, List.prefix_nil.mp h']
  have hbin : ∀ b, b < 2 → BinOk tbInst b [0] := by
    intro b hb
    have hb' : b = 0 ∨ b = 1 := by omega
    refine ⟨fun p hp hne => ?_, fun p hp hne => ?_, ?_, ?_, ?_, ?_⟩
    · rw [pre p [] hp hne]
      rcases hb' with rfl | rfl <;> decide
    · rcases hb' with rfl | rfl <;> trivial
    · intro i hi
      simp at hi; subst hi; exact .inl rfl
    · intro i hi
      simp at hi; subst hi; decide
    · intro p i q h
      have hi : i = 0 := by
        have : i ∈ ([0] : List Nat) := h.subset (by simp)
        simpa using this
      subst hi; trivial
    · intro r hr
      rcases hb' with rfl | rfl <;> simp [tbInst, Instance.binType] at hr
  refine ⟨?_, ⟨?_, ?_, rfl⟩, ?_, ?_, ?_⟩
  · intro b hb
    simp [tbPacking] at hb
    rcases hb with rfl | rfl <;> decide
  · intro b hb
    simp [tbPacking] at hb
    rcases hb with rfl | rfl
    · exact hbin 0 (by decide)
    · exact hbin 1 (by decide)
  · intro i hi
    have : i = 0 := by have : i < 1 := hi; omega
    subst this; decide
  · intro t ht
    have : t = 0 ∨ t = 1 := by have : t < 2 := ht; omega
    rcases this with rfl | rfl <;> decide
  · intro _ i hi
    have : i = 0 := by have : i < 1 := hi; omega
    subst this; decide
  · intro _ t u htu hu _
    have : t = 0 := by have : u < 2 := hu; omega
    subst this; decide

example : tbInst.objective = .binPacking ∧ Admissible tbInst tbPacking
    ∧ trivialBinPackingBound tbInst = 3 ∧ numberOfBins tbPacking = 5 :=
  ⟨rfl, tbPacking_admissible, by decide +kernel, by decide⟩

/-! ## C22 -/

/-- **C22** (`_partial`: the code's bound is wrong when an item has a negative profit, when
the nesting length of an item reaches its length, or when an item nests by more than the
length of another one, see the theorems below): the trivial knapsack bound is at least the
profit of every feasible packing, whatever the order in which the sort leaves ties. -/
theorem trivial_knapsack_bound_valid_partial
    (hlen : ∀ b ∈ inst.binTypes, 0 ≤ b.length)
    (hprof : ∀ i, i < inst.numberOfItemTypes → 0 ≤ (inst.itemType i).profit)
    (hred : ∀ i, i < inst.numberOfItemTypes → 0 < reducedLength (inst.itemType i))
    (hnest : ∀ i, i < inst.numberOfItemTypes → ∀ j, j < inst.numberOfItemTypes →
      (inst.itemType i).nestingLength ≤ (inst.itemType j).length)
    {order : List Nat} (hs : IsSortOf (knapsackLt inst) (knapsackItemTypes inst) order)
    {p : Packing} (hp : Admissible inst p) (hpos : ∀ b ∈ p, 0 < b.copies) :
    profit inst p ≤ trivialKnapsackBound inst order := by
  refine (profit_le hp.typed hp.limits hpos).trans (add_le_add ?_ (le_refl _))
  have hmem : ∀ i, i ∈ order ↔ i < inst.numberOfItemTypes ∧ fitsSomeBin inst i = true := by
    intro i
    rw [hs.perm.mem_iff]
    simp [knapsackItemTypes]
  have hnot : ∀ i, i < inst.numberOfItemTypes → fitsSomeBin inst i = false → itemCopies p i = 0 := by
    intro i hi hf
    unfold itemCopies
    refine List.sum_eq_zero fun x hx => ?_
    obtain ⟨b, hb, rfl⟩ := List.mem_map.mp hx
    have hni : i ∉ b.items := by
      intro hin
      obtain ⟨hbt, -, hty⟩ := hp.typed b hb
      have hok := hp.feasible.bins b hb
      have h1 := packed_fits hok.fits
        (fun a ha c hc => hnest a (hty a ha) c (hty c hc)) i hin
      have h2 : eligible (inst.itemType i) (inst.binType b.binTypeId) = true := by
        have := hok.eligible i hin
        unfold EligibleIn at this
        unfold eligible
        rcases this with h | h
        · simp [h]
        · simp [h]
      have : fitsSomeBin inst i = true := by
        unfold fitsSomeBin
        rw [List.any_eq_true]
        refine ⟨b.binTypeId, List.mem_range.mpr hbt, ?_⟩
        unfold itemTypeFitsBinType
        rw [if_neg (by omega), h2]
      rw [hf] at this
      exact absurd this (by decide)
    rw [List.count_eq_zero_of_not_mem hni]
    simp
  have hsumord : ∀ f : Nat → ℚ, (∀ i, itemCopies p i = 0 → f i = 0) →
      (order.map f).sum = ∑ i ∈ Finset.range inst.numberOfItemTypes, f i := by
    intro f hf0
    rw [(hs.perm.map f).sum_eq, ← foldl_range, foldl_add, zero_add]
    unfold knapsackItemTypes
    have : ∀ l : List Nat, (∀ i ∈ l, i < inst.numberOfItemTypes) →
        ((l.filter (fitsSomeBin inst)).map f).sum = (l.map f).sum := by
      intro l
      induction l with
      | nil => simp
      | cons i l ih =>
        intro hl
        have IH := ih fun j hj => hl j (by simp [hj])
        cases hfi : fitsSomeBin inst i with
        | true =>
          rw [List.filter_cons_of_pos hfi, List.map_cons, List.sum_cons, IH, List.map_cons,
            List.sum_cons]
        | false =>
          rw [List.filter_cons_of_neg (by simp [hfi]), IH, List.map_cons, List.sum_cons,
            hf0 i (hnot i (hl i (by simp)) hfi), zero_add]
    exact this _ (fun i hi => List.mem_range.mp hi)
  have hcap0 : 0 ≤ totalCapacity inst := by
    unfold totalCapacity
    rw [foldl_range]
    refine Finset.sum_nonneg fun t ht => ?_
    have ht := Finset.mem_range.mp ht
    have h1 : 0 ≤ (inst.binType t).length := by
      apply hlen
      unfold Instance.binType
      rw [List.getD_eq_getElem _ _ ht]
      exact List.getElem_mem _
    have h2 := binCopies_nonneg hp.typed t
    have h3 := (hp.limits t ht).2
    exact mul_nonneg h1 (by omega)
  have hload := total_load_le hp.typed fun b hb => (hp.feasible.bins b hb).fits
  have hcap : ∑ i ∈ Finset.range inst.numberOfItemTypes,
      itemCopies p i * reducedLength (inst.itemType i) ≤ totalCapacity inst := by
    refine hload.trans ?_
    unfold totalCapacity
    rw [foldl_range]
    refine Finset.sum_le_sum fun t ht => ?_
    have ht := Finset.mem_range.mp ht
    have h1 : 0 ≤ (inst.binType t).length := by
      apply hlen
      unfold Instance.binType
      rw [List.getD_eq_getElem _ _ ht]
      exact List.getElem_mem _
    rw [max_eq_left h1, mul_comm]
    exact mul_le_mul_of_nonneg_left (hp.limits t ht).2 h1
  rw [knapsackFill_eq order fun i hi => hred i ((hmem i).mp hi).1, zero_add]
  have hg := greedyFill_bound
    (fun i => (reducedLength (inst.itemType i) : ℚ)) (fun i => ((inst.itemType i).copies : ℚ))
    (fun i => (inst.itemType i).profit) (fun i => (itemCopies p i : ℚ)) order
    (fun i hi => by
      have := hred i ((hmem i).mp hi).1
      show (0 : ℚ) < (reducedLength (inst.itemType i) : ℚ)
      exact_mod_cast this)
    (fun i hi => by
      have h1 := itemCopies_nonneg hp.typed i
      have h2 := (hp.feasible.copies i ((hmem i).mp hi).1).2
      exact ⟨by exact_mod_cast h1, by exact_mod_cast h2⟩)
    (fun i hi => hprof i ((hmem i).mp hi).1)
    (hs.sorted.imp (by
      intro a b hab
      unfold knapsackLt at hab
      simp only [gt_iff_lt, decide_eq_false_iff_not, not_lt] at hab
      exact hab))
    (totalCapacity inst : ℚ) (by exact_mod_cast hcap0)
    (by
      rw [hsumord _ (fun i hi => by simp [hi])]
      have h2 : (∑ i ∈ Finset.range inst.numberOfItemTypes,
          (reducedLength (inst.itemType i) : ℚ) * (itemCopies p i : ℚ))
          = ((∑ i ∈ Finset.range inst.numberOfItemTypes,
            itemCopies p i * reducedLength (inst.itemType i) : Int) : ℚ) := by
        push_cast
        exact Finset.sum_congr rfl fun i _ => mul_comm _ _
      rw [h2]
      exact_mod_cast hcap)
  rw [hsumord _ (fun i hi => by simp [hi])] at hg
  refine le_trans (le_of_eq ?_) hg
  exact Finset.sum_congr rfl fun i _ => mul_comm _ _

/-- A knapsack instance: bins 2 × 10, item types of lengths 4 and 7. -/
def tkInst (length2 nesting2 : Int) (profit2 : ℚ) : Instance := {
  objective := .knapsack
  itemTypes := [
    { length := 4, profit := 5, copies := 2, copiesMin := 0, resourceIds := [[]] },
    { length := length2, profit := profit2, copies := 1, copiesMin := 0,
      nestingLength := nesting2, resourceIds := [[]] }]
  binTypes := [{ length := 10, cost := 10, copies := 1, copiesMin := 0 }] }

theorem tkInst_binOk (a c : Int) (q : ℚ) (l : List Nat) (hl : ∀ i ∈ l, i < 2)
    (hn : l.length ≤ 2147483647) (hf : Fits (tkInst a c q) 0 l) : BinOk (tkInst a c q) 0 l := by
  have hlt : ∀ i, i < 2 → (i = 0 ∨ i = 1) := fun i hi => by omega
  refine ⟨hf, fun p hp hne => trivial, fun i hi => ?_, fun i hi => ?_, fun p i q' h => ?_,
    fun r hr => ?_⟩
  · rcases hlt i (hl i hi) with rfl | rfl <;> exact .inl rfl
  · rcases hlt i (hl i hi) with rfl | rfl <;>
      (show (l.length : Int) ≤ 2147483647; omega)
  · rcases hlt i (hl i (h.subset (by simp))) with rfl | rfl <;> trivial
  · simp [tkInst, Instance.binType] at hr

theorem prefixes_two {a b : Nat} {p : List Nat} (h : p <+: [a, b]) (hne : p ≠ []) :
    p = [a] ∨ p = [a, b] := by
  rcases List.prefix_cons_iff.mp h with h | ⟨t, h, h'⟩
  · exact absurd h hne
  · rcases List.prefix_cons_iff.mp h' with h'' | ⟨u, h'', h3⟩
    · left; rw [h, h'']
    · right; rw [h, h'', List.prefix_nil.mp h3]

theorem tkInst_admissible (a c : Int) (q : ℚ) (ha : 4 + a - c ≤ 10) :
    Admissible (tkInst a c q) [⟨0, 1, [0, 1]⟩] := by
  refine ⟨?_, ⟨?_, ?_, rfl⟩, ?_, by simp [tkInst], by simp [tkInst]⟩
  · intro b hb
    simp at hb; subst hb
    refine ⟨by simp [tkInst, Instance.numberOfBinTypes], by decide, fun i hi => ?_⟩
    show i < 2
    simp at hi; omega
  · intro b hb
    simp at hb; subst hb
    refine tkInst_binOk a c q _ (fun i hi => by simp at hi; omega) (by simp) fun p hp hne => ?_
    rcases prefixes_two hp hne with rfl | rfl
    · simp [binEnd, tkInst, Instance.itemType, Instance.binType]
    · simp [binEnd, tkInst, Instance.itemType, Instance.binType]; omega
  · intro i hi
    have : i = 0 ∨ i = 1 := by have : i < 2 := hi; omega
    rcases this with rfl | rfl <;> simp [itemCopies, tkInst, Instance.itemType]
  · intro t ht
    have : t = 0 := by have : t < 1 := ht; omega
    subst this
    simp [binCopies, tkInst, Instance.binType]

example : (tkInst 6 0 6).objective = .knapsack
    ∧ (∀ i, i < (tkInst 6 0 6).numberOfItemTypes →
        0 ≤ ((tkInst 6 0 6).itemType i).profit ∧ 0 < reducedLength ((tkInst 6 0 6).itemType i)
        ∧ ∀ j, j < (tkInst 6 0 6).numberOfItemTypes →
          ((tkInst 6 0 6).itemType i).nestingLength ≤ ((tkInst 6 0 6).itemType j).length)
    ∧ IsSortOf (knapsackLt (tkInst 6 0 6)) (knapsackItemTypes (tkInst 6 0 6)) [0, 1]
    ∧ Admissible (tkInst 6 0 6) [⟨0, 1, [0, 1]⟩]
    ∧ profit (tkInst 6 0 6) [⟨0, 1, [0, 1]⟩] = 11
    ∧ trivialKnapsackBound (tkInst 6 0 6) [0, 1] = 12 := by
  refine ⟨rfl, ?_, ⟨?_, ?_⟩, tkInst_admissible 6 0 6 (by decide), by decide +kernel,
    by decide +kernel⟩
  · decide +kernel
  · have : knapsackItemTypes (tkInst 6 0 6) = [0, 1] := by decide +kernel
    rw [this]
  · simp only [List.pairwise_cons, List.mem_cons, List.not_mem_nil, or_false]
    refine ⟨fun b hb => ?_, by simp⟩
    subst hb; decide +kernel

/-- **C22** fails when an item has a nesting length equal to its length: the item is
skipped by the bound although it can be packed. -/
theorem trivial_knapsack_bound_full_nesting : ∃ (inst : Instance) (order : List Nat) (p : Packing),
    inst.objective = .knapsack
    ∧ IsSortOf (knapsackLt inst) (knapsackItemTypes inst) order ∧ Admissible inst p
    ∧ trivialKnapsackBound inst order < profit inst p := by
  refine ⟨tkInst 6 6 100, [1, 0], [⟨0, 1, [0, 1]⟩], rfl, ⟨?_, ?_⟩,
    tkInst_admissible 6 6 100 (by decide), by decide +kernel⟩
  · have : knapsackItemTypes (tkInst 6 6 100) = [0, 1] := by decide +kernel
    rw [this]; exact List.Perm.swap 0 1 []
  · simp only [List.pairwise_cons, List.mem_cons, List.not_mem_nil, or_false]
    refine ⟨fun b hb => ?_, by simp⟩
    subst hb; decide +kernel

/-- **C22** fails when an item is longer than every bin but nests in a shorter item: it
is excluded from the bound although the solution counts it as packed. -/
theorem trivial_knapsack_bound_foreign_nesting :
    ∃ (inst : Instance) (order : List Nat) (p : Packing), inst.objective = .knapsack
    ∧ (∀ i, i < inst.numberOfItemTypes → 0 < reducedLength (inst.itemType i))
    ∧ IsSortOf (knapsackLt inst) (knapsackItemTypes inst) order ∧ Admissible inst p
    ∧ trivialKnapsackBound inst order < profit inst p := by
  refine ⟨tkInst 11 7 100, [0], [⟨0, 1, [0, 1]⟩], rfl, by decide +kernel, ⟨?_, by simp⟩,
    tkInst_admissible 11 7 100 (by decide), by decide +kernel⟩
  have : knapsackItemTypes (tkInst 11 7 100) = [0] := by decide +kernel
  rw [this]

/-- **C22** fails with negative profits: the bound packs the unprofitable items too. -/
theorem trivial_knapsack_bound_negative_profit :
    ∃ (inst : Instance) (order : List Nat) (p : Packing), inst.objective = .knapsack
    ∧ IsSortOf (knapsackLt inst) (knapsackItemTypes inst) order ∧ Admissible inst p
    ∧ trivialKnapsackBound inst order < profit inst p := by
  refine ⟨tkInst 2 0 (-20), [0, 1], [], rfl, ⟨?_, ?_⟩, ⟨by simp [WellTyped], ⟨by simp, ?_, rfl⟩,
    ?_, by simp [tkInst], by simp [tkInst]⟩, ?_⟩
  · have : knapsackItemTypes (tkInst 2 0 (-20)) = [0, 1] := by decide +kernel
    rw [this]
  · simp only [List.pairwise_cons, List.mem_cons, List.not_mem_nil, or_false]
    refine ⟨fun b hb => ?_, by simp⟩
    subst hb; decide +kernel
  · intro i hi
    have : i = 0 ∨ i = 1 := by have : i < 2 := hi; omega
    rcases this with rfl | rfl <;> decide
  · intro t ht
    have : t = 0 := by have : t < 1 := ht; omega
    subst this; decide
  · decide +kernel

/-! ## C23 -/

/-- Number of unused copies of a bin type. -/
def unusedCopies (inst : Instance) (p : Packing) (t : Nat) : Int :=
  (inst.binType t).copies - binCopies p t

/-- The knapsack packing made of the unused bins. -/
def unusedPacking (inst : Instance) (p : Packing) : Packing :=
  [⟨0, 1, (List.range (kpBinTypes inst).length).flatMap fun k =>
    List.replicate (unusedCopies inst p ((kpBinTypes inst).getD k 0)).toNat k⟩]

theorem count_flatMap_replicate (n : Nat) (x : Nat → Nat) (k : Nat) :
    ((List.range n).flatMap fun k => List.replicate (x k) k).count k
      = if k < n then x k else 0 := by
  induction n with
  | zero => simp
  | succ n ih =>
    rw [List.range_succ, List.flatMap_append, List.count_append, ih]
    simp only [List.flatMap_cons, List.flatMap_nil, List.append_nil, List.count_replicate]
    by_cases h : k = n
    · subst h; simp
    · have h' : ¬ n = k := fun e => h e.symm
      simp only [beq_iff_eq, h', if_false]
      by_cases h2 : k < n
      · rw [if_pos h2, if_pos (by omega)]; omega
      · rw [if_neg h2, if_neg (by omega)]

/-- A sum over the knapsack item types is a sum over the bin types. -/
theorem sum_kp (inst : Instance) (f : Nat → ℚ)
    (hf : ∀ t, t < inst.numberOfBinTypes → t ∉ kpBinTypes inst → f t = 0) :
    ∑ k ∈ Finset.range (kpBinTypes inst).length, f ((kpBinTypes inst).getD k 0)
      = ∑ t ∈ Finset.range inst.numberOfBinTypes, f t := by
  rw [← sum_types (kpBinTypes inst) 0 f, ← foldl_range f, foldl_add, zero_add]
  unfold kpBinTypes at hf ⊢
  generalize hP : (fun b => !(decide ((inst.binType b).copies - (inst.binType b).copiesMin ≤ 0)
      || decide ((inst.binType b).length ≤ 0)
      || decide ((inst.binType b).length > kpCapacity inst))) = P at hf ⊢
  have : ∀ l : List Nat, (∀ i ∈ l, i < inst.numberOfBinTypes) →
      ((l.filter P).map f).sum = (l.map f).sum := by
    intro l
    induction l with
    | nil => simp
    | cons i l ih =>
      intro hl
      have IH := ih fun j hj => hl j (by simp [hj])
      cases hfi : P i with
      | true =>
        rw [List.filter_cons_of_pos hfi, List.map_cons, List.sum_cons, IH, List.map_cons,
          List.sum_cons]
      | false =>
        rw [List.filter_cons_of_neg (by simp [hfi]), IH, List.map_cons, List.sum_cons,
          hf i (hl i (by simp)) (by simp [hfi]), zero_add]
  exact this _ fun i hi => List.mem_range.mp hi

/-- The conditions under which the code's bound is right: no bin type has a minimum number
of copies; lengths, costs and copies are as the builder accepts them. -/
structure NoBinMinimum (inst : Instance) : Prop where
  copiesMin : ∀ t, t < inst.numberOfBinTypes → (inst.binType t).copiesMin = 0
  length : ∀ t, t < inst.numberOfBinTypes → 0 < (inst.binType t).length
  cost : ∀ t, t < inst.numberOfBinTypes → 0 ≤ (inst.binType t).cost
  copies : ∑ t ∈ Finset.range inst.numberOfBinTypes, (inst.binType t).copies ≤ 2147483647

theorem unused_nonneg {p : Packing} (hp : Admissible inst p) {t : Nat}
    (ht : t < inst.numberOfBinTypes) : 0 ≤ unusedCopies inst p t := by
  have := (hp.limits t ht).2
  unfold unusedCopies
  omega

theorem unused_length {p : Packing} (hb : NoBinMinimum inst)
    (ho : inst.objective = .variableSizedBinPacking) (hp : Admissible inst p) :
    ∑ t ∈ Finset.range inst.numberOfBinTypes, unusedCopies inst p t * (inst.binType t).length
      ≤ kpCapacity inst := by
  have hload := total_load_le hp.typed fun b hb => (hp.feasible.bins b hb).fits
  have hall := hp.complete (by rw [ho]; decide)
  have htot : totalReducedLength inst = ∑ i ∈ Finset.range inst.numberOfItemTypes,
      itemCopies p i * reducedLength (inst.itemType i) := by
    unfold totalReducedLength
    rw [foldl_range]
    refine Finset.sum_congr rfl fun i hi => ?_
    rw [hall i (Finset.mem_range.mp hi)]
  have hmin : binMinLength inst = 0 := by
    unfold binMinLength
    rw [foldl_range]
    refine Finset.sum_eq_zero fun t ht => ?_
    rw [hb.copiesMin t (Finset.mem_range.mp ht), mul_zero]
  have hmax : ∑ t ∈ Finset.range inst.numberOfBinTypes,
        binCopies p t * max (inst.binType t).length 0
      = ∑ t ∈ Finset.range inst.numberOfBinTypes, binCopies p t * (inst.binType t).length := by
    refine Finset.sum_congr rfl fun t ht => ?_
    rw [max_eq_left (hb.length t (Finset.mem_range.mp ht)).le]
  unfold kpCapacity
  rw [hmin, htot]
  rw [hmax] at hload
  have : ∑ t ∈ Finset.range inst.numberOfBinTypes,
      unusedCopies inst p t * (inst.binType t).length
      = totalCapacity inst - ∑ t ∈ Finset.range inst.numberOfBinTypes,
        binCopies p t * (inst.binType t).length := by
    unfold totalCapacity unusedCopies
    rw [foldl_range, ← Finset.sum_sub_distrib]
    exact Finset.sum_congr rfl fun t _ => by ring
  omega

theorem unused_not_kp {p : Packing} (hb : NoBinMinimum inst)
    (ho : inst.objective = .variableSizedBinPacking) (hp : Admissible inst p)
    {t : Nat} (ht : t < inst.numberOfBinTypes) (hk : t ∉ kpBinTypes inst) :
    unusedCopies inst p t = 0 := by
  have h0 := unused_nonneg hp ht
  have hlen := hb.length t ht
  have hle : unusedCopies inst p t * (inst.binType t).length ≤ kpCapacity inst := by
    refine le_trans ?_ (unused_length hb ho hp)
    exact Finset.single_le_sum (f := fun t => unusedCopies inst p t * (inst.binType t).length)
      (fun u hu => mul_nonneg (unused_nonneg hp (Finset.mem_range.mp hu))
        (hb.length u (Finset.mem_range.mp hu)).le) (Finset.mem_range.mpr ht)
  simp only [kpBinTypes, List.mem_filter, List.mem_range, Bool.not_eq_true', Bool.or_eq_false_iff,
    decide_eq_false_iff_not, not_le, not_lt, gt_iff_lt, not_and] at hk
  have hk := hk ht
  by_contra hne
  have hpos : 1 ≤ unusedCopies inst p t := by omega
  have h1 : 0 < (inst.binType t).copies - (inst.binType t).copiesMin := by
    rw [hb.copiesMin t ht]
    have := binCopies_nonneg hp.typed t
    unfold unusedCopies at hpos
    omega
  have := hk ⟨h1, hlen⟩
  nlinarith

theorem kp_itemType (inst : Instance) {k : Nat} (hk : k < (kpBinTypes inst).length) :
    (kpInstance inst).itemType k =
      ⟨(inst.binType ((kpBinTypes inst).getD k 0)).length,
        (inst.binType ((kpBinTypes inst).getD k 0)).cost,
        (inst.binType ((kpBinTypes inst).getD k 0)).copies
          - (inst.binType ((kpBinTypes inst).getD k 0)).copiesMin,
        0, 0, 0, 2147483647, .inf, -1, [], [], 0, [[]]⟩ := by
  unfold Instance.itemType kpInstance
  dsimp only
  rw [List.getD_eq_getElem _ _ (by simpa using hk), List.getElem_map,
    List.getD_eq_getElem _ _ hk]

theorem kp_mem_lt (inst : Instance) {k : Nat} (hk : k < (kpBinTypes inst).length) :
    (kpBinTypes inst).getD k 0 < inst.numberOfBinTypes := by
  rw [List.getD_eq_getElem _ _ hk]
  have := List.getElem_mem hk
  unfold kpBinTypes at this
  exact List.mem_range.mp (List.mem_filter.mp this).1

/-- The unused bins are a feasible packing of the knapsack instance. -/
theorem unusedPacking_admissible {p : Packing} (hb : NoBinMinimum inst)
    (ho : inst.objective = .variableSizedBinPacking) (hp : Admissible inst p) :
    Admissible (kpInstance inst) (unusedPacking inst p)
    ∧ profit (kpInstance inst) (unusedPacking inst p)
      = ∑ t ∈ Finset.range inst.numberOfBinTypes,
        (unusedCopies inst p t : ℚ) * (inst.binType t).cost := by
  set ids := kpBinTypes inst with hids
  set items := (List.range ids.length).flatMap fun k =>
    List.replicate (unusedCopies inst p (ids.getD k 0)).toNat k with hitems
  have hup : unusedPacking inst p = [⟨0, 1, items⟩] := rfl
  have hn : (kpInstance inst).numberOfItemTypes = ids.length := by
    simp [Instance.numberOfItemTypes, kpInstance, ids]
  have hlt : ∀ i ∈ items, i < ids.length := by
    intro i hi
    rw [hitems] at hi
    obtain ⟨k, hk, hi⟩ := List.mem_flatMap.mp hi
    rw [(List.mem_replicate.mp hi).2]
    exact List.mem_range.mp hk
  have hnn : ∀ k, k < ids.length → 0 ≤ unusedCopies inst p (ids.getD k 0) :=
    fun k hk => unused_nonneg hp (kp_mem_lt inst hk)
  have hcount : ∀ k, k < ids.length →
      ((items.count k : Nat) : Int) = unusedCopies inst p (ids.getD k 0) := by
    intro k hk
    rw [hitems, count_flatMap_replicate, if_pos hk]
    exact Int.toNat_of_nonneg (hnn k hk)
  have htyped : WellTyped (kpInstance inst) (unusedPacking inst p) := by
    intro b hb'
    rw [hup, List.mem_singleton] at hb'
    subst hb'
    exact ⟨by simp [Instance.numberOfBinTypes, kpInstance], Int.one_nonneg, fun i hi => by
      rw [hn]; exact hlt i hi⟩
  -- sums over the items
  have hsum : ∀ f : Nat → ℚ, (items.map f).sum
      = ∑ k ∈ Finset.range ids.length, (unusedCopies inst p (ids.getD k 0) : ℚ) * f k := by
    intro f
    rw [sum_map_count f ids.length items hlt]
    refine Finset.sum_congr rfl fun k hk => ?_
    rw [← hcount k (Finset.mem_range.mp hk)]
    push_cast
    rfl
  have hkp : ∀ g : Nat → ℚ, ∑ k ∈ Finset.range ids.length,
      (unusedCopies inst p (ids.getD k 0) : ℚ) * g (ids.getD k 0)
      = ∑ t ∈ Finset.range inst.numberOfBinTypes, (unusedCopies inst p t : ℚ) * g t := by
    intro g
    exact sum_kp inst (fun t => (unusedCopies inst p t : ℚ) * g t) fun t ht hk => by
      rw [unused_not_kp hb ho hp ht hk]; simp
  have hlens : ((items.map fun i => ((kpInstance inst).itemType i).length).sum : Int)
      ≤ kpCapacity inst := by
    refine le_trans (le_of_eq ?_) (unused_length hb ho hp)
    have h1 := hsum fun i => (((kpInstance inst).itemType i).length : ℚ)
    have h2 := hkp fun t => ((inst.binType t).length : ℚ)
    have h3 : ∑ k ∈ Finset.range ids.length, (unusedCopies inst p (ids.getD k 0) : ℚ)
          * (((kpInstance inst).itemType k).length : ℚ)
        = ∑ k ∈ Finset.range ids.length, (unusedCopies inst p (ids.getD k 0) : ℚ)
          * ((inst.binType (ids.getD k 0)).length : ℚ) :=
      Finset.sum_congr rfl fun k hk => by rw [kp_itemType inst (Finset.mem_range.mp hk)]
    rw [h3, h2] at h1
    have h4 : ((items.map fun i => ((kpInstance inst).itemType i).length).sum : ℚ)
        = (items.map fun i => (((kpInstance inst).itemType i).length : ℚ)).sum := by
      generalize items = l
      induction l with
      | nil => simp
      | cons a l ih => simp [ih]
    rw [← h4] at h1
    exact_mod_cast h1
  have hlenitems : (items.length : Int) ≤ 2147483647 := by
    have h1 := hsum fun _ => 1
    have h2 := hkp fun _ => 1
    rw [h2] at h1
    have h3 : (items.length : ℚ) = (items.map fun _ => (1 : ℚ)).sum := by simp
    have h4 : ∑ t ∈ Finset.range inst.numberOfBinTypes, (unusedCopies inst p t : ℚ) * 1
        ≤ 2147483647 := by
      have h5 : ∑ t ∈ Finset.range inst.numberOfBinTypes, unusedCopies inst p t
          ≤ 2147483647 := by
        refine le_trans (Finset.sum_le_sum fun t ht => ?_) hb.copies
        have := binCopies_nonneg hp.typed t
        unfold unusedCopies
        omega
      simp only [mul_one]
      exact_mod_cast h5
    rw [← h1, ← h3] at h4
    exact_mod_cast h4
  refine ⟨⟨htyped, ⟨?_, ?_, rfl⟩, ?_, by simp [kpInstance], by simp [kpInstance]⟩, ?_⟩
  · intro b hb'
    rw [hup, List.mem_singleton] at hb'
    subst hb'
    refine ⟨fun q hq hne => ?_, fun q hq hne => trivial, fun i hi => ?_, fun i hi => ?_,
      fun q i q' h => ?_, fun r hr => ?_⟩
    · show binEnd (kpInstance inst) q ≤ kpCapacity inst
      refine le_trans ?_ hlens
      obtain ⟨q', hq'⟩ := hq
      have hq' : q ++ q' = items := hq'
      unfold binEnd
      have hnest : (q.tail.map fun i => ((kpInstance inst).itemType i).nestingLength).sum = 0 := by
        refine List.sum_eq_zero fun x hx => ?_
        obtain ⟨i, hi, rfl⟩ := List.mem_map.mp hx
        have hi' : i ∈ items := by
          rw [← hq']; exact List.mem_append_left _ (List.mem_of_mem_tail hi)
        rw [kp_itemType inst (hlt i hi')]
      rw [hnest, sub_zero, ← hq', List.map_append, List.sum_append]
      have : 0 ≤ (q'.map fun i => ((kpInstance inst).itemType i).length).sum := by
        refine List.sum_nonneg fun x hx => ?_
        obtain ⟨i, hi, rfl⟩ := List.mem_map.mp hx
        have hi' : i ∈ items := by rw [← hq']; exact List.mem_append_right _ hi
        rw [kp_itemType inst (hlt i hi')]
        exact (hb.length _ (kp_mem_lt inst (hlt i hi'))).le
      omega
    · left; rw [kp_itemType inst (hlt i hi)]
    · rw [kp_itemType inst (hlt i hi)]; exact hlenitems
    · have hi : i ∈ items := h.subset (by simp)
      rw [kp_itemType inst (hlt i hi)]; trivial
    · simp [kpInstance, Instance.binType] at hr
  · intro k hk
    rw [hn] at hk
    have hc : itemCopies (unusedPacking inst p) k = unusedCopies inst p (ids.getD k 0) := by
      rw [hup]
      simp only [itemCopies, List.map_cons, List.map_nil, List.sum_cons, List.sum_nil, add_zero,
        one_mul]
      exact hcount k hk
    rw [hc, kp_itemType inst hk]
    refine ⟨hnn k hk, ?_⟩
    have h1 := kp_mem_lt inst hk
    show unusedCopies inst p (ids.getD k 0) ≤ (inst.binType (ids.getD k 0)).copies
      - (inst.binType (ids.getD k 0)).copiesMin
    rw [hb.copiesMin _ h1]
    have := binCopies_nonneg hp.typed (ids.getD k 0)
    unfold unusedCopies
    omega
  · intro t ht
    have : t = 0 := by
      have : t < 1 := by simpa [Instance.numberOfBinTypes, kpInstance] using ht
      omega
    subst this
    rw [hup]
    simp [binCopies, kpInstance, Instance.binType]
  · have hpen : penalties (kpInstance inst) 0 items = 0 := by
      simp [penalties, kpInstance, Instance.binType]
    rw [hup]
    simp only [profit, List.map_cons, List.map_nil, List.sum_cons, List.sum_nil, add_zero, hpen,
      sub_zero, Int.cast_one, one_mul]
    unfold itemsProfit
    rw [hsum, ← hkp]
    refine Finset.sum_congr rfl fun k hk => ?_
    rw [kp_itemType inst (Finset.mem_range.mp hk)]

/-- **C23** (`_partial`: requires that no bin type has a minimum number of copies and that
the knapsack subproblem is solved to optimality, see the theorems below): the trivial
variable-sized bin packing bound is at most the cost of every feasible packing of all the
items within the bin limits. -/
theorem trivial_variable_sized_bound_valid_partial
    (ho : inst.objective = .variableSizedBinPacking) (hb : NoBinMinimum inst)
    {kpProfit : ℚ} (hkp : ∀ q, Admissible (kpInstance inst) q → profit (kpInstance inst) q ≤ kpProfit)
    {p : Packing} (hp : Admissible inst p) :
    trivialVariableSizedBound inst kpProfit ≤ cost inst p := by
  have hc : cost inst p = totalCost inst - ∑ t ∈ Finset.range inst.numberOfBinTypes,
      (unusedCopies inst p t : ℚ) * (inst.binType t).cost := by
    rw [cost_eq hp.typed]
    unfold totalCost unusedCopies
    rw [foldl_range, ← Finset.sum_sub_distrib]
    refine Finset.sum_congr rfl fun t _ => ?_
    push_cast
    ring
  obtain ⟨h1, h2⟩ := unusedPacking_admissible hb ho hp
  unfold trivialVariableSizedBound
  split_ifs with hcap
  · have h3 := unused_length hb ho hp
    have hz : ∀ t ∈ Finset.range inst.numberOfBinTypes,
        (unusedCopies inst p t : ℚ) * (inst.binType t).cost = 0 := by
      intro t ht
      have hle : unusedCopies inst p t * (inst.binType t).length ≤ kpCapacity inst := by
        refine le_trans ?_ h3
        exact Finset.single_le_sum
          (f := fun t => unusedCopies inst p t * (inst.binType t).length)
          (fun u hu => mul_nonneg (unused_nonneg hp (Finset.mem_range.mp hu))
            (hb.length u (Finset.mem_range.mp hu)).le) ht
      have hl := hb.length t (Finset.mem_range.mp ht)
      have h0 := unused_nonneg hp (Finset.mem_range.mp ht)
      have : unusedCopies inst p t = 0 := by nlinarith
      rw [this]; simp
    rw [hc, Finset.sum_eq_zero hz, sub_zero]
  · have := hkp _ h1
    rw [h2] at this
    rw [hc]
    linarith

/-- Two bin types (lengths 10 and 5) and one item of length 8. -/
def tvInst (copiesMin : Int) : Instance := {
  objective := .variableSizedBinPacking
  itemTypes := [{ length := 8, profit := 8, copies := 1, copiesMin := 1, resourceIds := [[], []] }]
  binTypes := [{ length := 10, cost := 10, copies := 1, copiesMin := copiesMin },
    { length := 5, cost := 5, copies := 1, copiesMin := 0 }] }

theorem tvInst_admissible (c : Int) (hc : c ≤ 1) : Admissible (tvInst c) [⟨0, 1, [0]⟩] := by
  refine ⟨?_, ⟨?_, ?_, rfl⟩, ?_, ?_, by simp [tvInst]⟩
  · intro b hb
    simp at hb; subst hb
    exact ⟨by simp [tvInst, Instance.numberOfBinTypes], by decide, by
      simp [tvInst, Instance.numberOfItemTypes]⟩
  · intro b hb
    simp at hb; subst hb
    refine ⟨fun p hp hne => ?_, fun p hp hne => trivial, fun i hi => ?_, fun i hi => ?_,
      fun p i q' h => ?_, fun r hr => ?_⟩
    · rcases List.prefix_cons_iff.mp hp with h | ⟨t, h, h'⟩
      · exact absurd h hne
      · rw [h, List.prefix_nil.mp h']
        simp [binEnd, tvInst, Instance.itemType, Instance.binType]
    · simp at hi; subst hi; exact .inl rfl
    · simp at hi; subst hi; simp [tvInst, Instance.itemType]
    · have hi : i ∈ ([0] : List Nat) := h.subset (by simp)
      simp at hi; subst hi; trivial
    · simp [tvInst, Instance.binType] at hr
  · intro i hi
    have : i = 0 := by have : i < 1 := hi; omega
    subst this
    simp [itemCopies, tvInst, Instance.itemType]
  · intro t ht
    have : t = 0 ∨ t = 1 := by have : t < 2 := ht; omega
    rcases this with rfl | rfl <;> simp [binCopies, tvInst, Instance.binType, hc]
  · intro _ i hi
    have : i = 0 := by have : i < 1 := hi; omega
    subst this
    simp [itemCopies, tvInst, Instance.itemType]

example : (tvInst 0).objective = .variableSizedBinPacking ∧ NoBinMinimum (tvInst 0)
    ∧ Admissible (tvInst 0) [⟨0, 1, [0]⟩] ∧ kpCapacity (tvInst 0) = 7
    ∧ trivialVariableSizedBound (tvInst 0) 5 = 10 ∧ cost (tvInst 0) [⟨0, 1, [0]⟩] = 10 := by
  refine ⟨rfl, ⟨by decide, by decide, ?_, by decide⟩, tvInst_admissible 0 (by decide),
    by decide, by decide +kernel, by decide +kernel⟩
  decide +kernel

/-- **C23** fails with a minimum number of copies: the length of the mandatory bins is
subtracted as if it could not hold items. -/
theorem trivial_variable_sized_bound_copies_min : ∃ (inst : Instance) (p : Packing),
    inst.objective = .variableSizedBinPacking ∧ Admissible inst p
    ∧ ∀ kpProfit, cost inst p < trivialVariableSizedBound inst kpProfit := by
  refine ⟨tvInst 1, [⟨0, 1, [0]⟩], rfl, tvInst_admissible 1 (by decide), fun k => ?_⟩
  have h : kpCapacity (tvInst 1) ≤ 0 := by decide
  unfold trivialVariableSizedBound
  rw [if_pos h]
  decide +kernel

/-- **C23** fails when the knapsack solver stops before it finds an optimal solution (the
code uses the profit of its best solution, not its bound). -/
theorem trivial_variable_sized_bound_early_stop : ∃ (inst : Instance) (p q : Packing),
    inst.objective = .variableSizedBinPacking ∧ Admissible inst p
    ∧ Admissible (kpInstance inst) q
    ∧ cost inst p < trivialVariableSizedBound inst (profit (kpInstance inst) q) := by
  refine ⟨tvInst 0, [⟨0, 1, [0]⟩], [], rfl, tvInst_admissible 0 (by decide),
    ⟨by simp [WellTyped], ⟨by simp, ?_, rfl⟩, ?_, by simp [kpInstance], by simp [kpInstance]⟩,
    by decide +kernel⟩
  · intro i hi
    have : i = 0 := by
      have h2 : (kpInstance (tvInst 0)).numberOfItemTypes = 1 := by decide +kernel
      omega
    subst this; decide +kernel
  · intro t ht
    have : t = 0 := by
      have : t < 1 := by simpa [Instance.numberOfBinTypes, kpInstance] using ht
      omega
    subst this; simp [binCopies, kpInstance, Instance.binType]

end PackingSolver.OneDim
