import Verif.Lemmas.OneDim.Scheme
import Mathlib.Tactic.NormNum

/-!
# Nodes of the one-dimensional tree search describe packings
-/

namespace PackingSolver.OneDim.TreeSearchLemmas

open PackingSolver.OneDim OneDim.Spec Scheme

variable {inst : Instance}

/-! ### The tolerance -/

theorem int_tol {w z : Int} (h : (w : ℚ) ≤ (z : ℚ) * pstol) (hz : z < 1000000000) : w ≤ z := by
  have hz' : (z : ℚ) < 1000000000 := by exact_mod_cast hz
  have h2 : (w : ℚ) < (z : ℚ) + 1 := by
    unfold pstol at h
    linarith
  have h3 : w < z + 1 := by exact_mod_cast h2
  omega

theorem limit_tol {e : ExtQ} {w : Int} (he : SmallLimit e)
    (h : ExtQ.gtBy (w : ℚ) (ExtQ.scale e pstol) = false) : e.Ge (w : ℚ) := by
  rcases he with rfl | ⟨z, h0, h1, rfl⟩
  · trivial
  · rw [gtBy_false] at h
    simp only [ExtQ.scale, ExtQ.Ge] at h ⊢
    exact_mod_cast int_tol h h1

theorem weight_int (hI : IntegralData inst) (l : List Nat) (hl : InTypes inst l) :
    ∃ z : Int, 0 ≤ z ∧ weight inst l = z := by
  induction l with
  | nil => exact ⟨0, le_refl _, by simp [weight]⟩
  | cons a l ih =>
    obtain ⟨z, hz0, hz⟩ := ih fun i hi => hl i (by simp [hi])
    obtain ⟨y, hy0, hy⟩ := hI.weight a (hl a (by simp))
    refine ⟨y + z, by omega, ?_⟩
    unfold weight at hz ⊢
    rw [List.map_cons, List.sum_cons, hz, hy]
    push_cast
    rfl

theorem itemConsumption_int {r : Resource}
    (h : ∀ s ∈ r.itemConsumptions, ∀ q ∈ s, ∃ z : Int, q = z) (i c : Nat) :
    ∃ z : Int, r.itemConsumption i c = z := by
  unfold Resource.itemConsumption
  dsimp only
  split_ifs with h1 h2 h3
  · exact ⟨0, by simp⟩
  · exact ⟨0, by simp⟩
  · push Not at h1
    have hm : r.itemConsumptions.getD i [] ∈ r.itemConsumptions := by
      rw [List.getD_eq_getElem _ _ h1]; exact List.getElem_mem h1
    rw [List.getD_eq_getElem _ _ h3]
    exact h _ hm _ (List.getElem_mem h3)
  · push Not at h1 h3
    have hm : r.itemConsumptions.getD i [] ∈ r.itemConsumptions := by
      rw [List.getD_eq_getElem _ _ h1]; exact List.getElem_mem h1
    have hlen : 0 < (r.itemConsumptions.getD i []).length := by
      rcases Nat.eq_zero_or_pos (r.itemConsumptions.getD i []).length with h | h
      · exact absurd (by simpa using h) h2
      · exact h
    rw [List.getLastD_eq_getLast?, List.getLast?_eq_getElem?,
      List.getElem?_eq_getElem (by omega)]
    exact h _ hm _ (List.getElem_mem _)

theorem consumption_int {r : Resource}
    (h : ∀ s ∈ r.itemConsumptions, ∀ q ∈ s, ∃ z : Int, q = z) (l : List Nat) :
    ∃ z : Int, consumption inst r l = z := by
  have hadd : ∀ a b : ℚ, (∃ z : Int, a = z) → (∃ z : Int, b = z) → ∃ z : Int, a + b = z := by
    rintro a b ⟨x, rfl⟩ ⟨y, rfl⟩
    exact ⟨x + y, by push_cast; rfl⟩
  unfold consumption
  refine Finset.sum_induction _ (fun q : ℚ => ∃ z : Int, q = z) hadd ⟨0, by simp⟩ fun i _ => ?_
  exact Finset.sum_induction _ (fun q : ℚ => ∃ z : Int, q = z) hadd ⟨0, by simp⟩
    fun c _ => itemConsumption_int h i c

/-! ### Extending a bin -/

theorem binOk_nil (t : Nat) (hcap : ∀ r ∈ (inst.binType t).resources, 0 ≤ r.capacity) :
    BinOk inst t [] := by
  refine ⟨fun p hp hne => ?_, fun p hp hne => ?_, fun i hi => ?_, fun i hi => ?_,
    fun p i q h => ?_, fun r hr _ p hp => ?_⟩
  · exact absurd (List.prefix_nil.mp hp) hne
  · exact absurd (List.prefix_nil.mp hp) hne
  · simp at hi
  · simp at hi
  · have := List.prefix_nil.mp h
    simp at this
  · rw [List.prefix_nil.mp hp, consumption_nil]
    exact hcap r hr

theorem binOk_snoc {t i : Nat} {l : List Nat} (h : BinOk inst t l)
    (hfit : binEnd inst (l ++ [i]) ≤ (inst.binType t).length)
    (hw : (inst.binType t).maximumWeight.Ge (weight inst (l ++ [i])))
    (he : EligibleIn inst i t)
    (hs : ∀ j ∈ l ++ [i], ((l ++ [i]).length : Int) ≤ (inst.itemType j).maximumStackability)
    (ha : ∀ p j q, l ++ [i] = p ++ j :: q →
      (inst.itemType j).maximumWeightAfter.Ge (weight inst q))
    (hr : ∀ r ∈ (inst.binType t).resources, r.penalize = false →
      consumption inst r (l ++ [i]) ≤ r.capacity) : BinOk inst t (l ++ [i]) := by
  refine ⟨fun p hp hne => ?_, fun p hp hne => ?_, fun j hj => ?_, hs,
    fun p j q hp => ?_, fun r hr' hpen p hp => ?_⟩
  · rcases prefix_snoc.mp hp with hp | rfl
    · exact h.fits p hp hne
    · exact hfit
  · rcases prefix_snoc.mp hp with hp | rfl
    · exact h.weight p hp hne
    · exact hw
  · rcases List.mem_append.mp hj with hj | hj
    · exact h.eligible j hj
    · rw [List.mem_singleton.mp hj]; exact he
  · rcases prefix_snoc.mp hp with hp | hp
    · exact h.weightAfter p j q hp
    · exact ha p j q hp.symm
  · rcases prefix_snoc.mp hp with hp | rfl
    · exact h.resources r hr' hpen p hp
    · exact hr r hr' hpen

/-! ### The resource loops -/

theorem sameBinStep_eq (bt : BinType) (i c : Nat) (s : ResourceLoop) (r : Nat) :
    sameBinResourceStep bt i c (s.consumption, s.itemProfit) r
      = ((resourceStep bt i c s r).consumption, (resourceStep bt i c s r).itemProfit) := by
  unfold sameBinResourceStep resourceStep
  dsimp only
  by_cases h1 : (addAtQ s.consumption r ((bt.resources.getD r {}).itemConsumption i c)).getD r 0
      > (bt.resources.getD r {}).capacity
  · by_cases h2 : (bt.resources.getD r {}).penalize = true
    · by_cases h3 : s.consumption.getD r 0 ≤ (bt.resources.getD r {}).capacity
      · rw [if_pos ⟨h2, h1, h3⟩, if_pos h1, if_pos h2, if_pos h3]
      · rw [if_neg (fun h => h3 h.2.2), if_pos h1, if_pos h2, if_neg h3]
    · rw [if_neg (fun h => h2 h.1), if_pos h1, if_neg h2]
  · rw [if_neg (fun h => h1 h.2.1), if_neg h1]

theorem sameBinFold_eq (bt : BinType) (i c : Nat) (ids : List Nat) (s : ResourceLoop) :
    ids.foldl (sameBinResourceStep bt i c) (s.consumption, s.itemProfit)
      = ((ids.foldl (resourceStep bt i c) s).consumption,
        (ids.foldl (resourceStep bt i c) s).itemProfit) := by
  induction ids generalizing s with
  | nil => rfl
  | cons r ids ih => rw [List.foldl_cons, sameBinStep_eq, ih, List.foldl_cons]

theorem newBinFold_eq (bt : BinType) (i : Nat) (ids : List Nat) (hnd : ids.Nodup)
    (s : List ℚ × ℚ) (hl : ∀ r ∈ ids, r < s.1.length) (h0 : ∀ r ∈ ids, s.1.getD r 0 = 0)
    (hcap : ∀ r ∈ ids, 0 ≤ (bt.resources.getD r {}).capacity) :
    ids.foldl (newBinResourceStep bt i) s = ids.foldl (sameBinResourceStep bt i 0) s := by
  induction ids generalizing s with
  | nil => rfl
  | cons r ids ih =>
    rw [List.nodup_cons] at hnd
    have hr := hl r (by simp)
    have hr0 := h0 r (by simp)
    have hset : s.1.set r ((bt.resources.getD r {}).itemConsumption i 0)
        = addAtQ s.1 r ((bt.resources.getD r {}).itemConsumption i 0) := by
      unfold addAtQ
      rw [List.modify_eq_set_getElem?, List.getElem?_eq_getElem hr]
      rw [List.getD_eq_getElem _ _ hr] at hr0
      simp [hr0]
    have hstep : newBinResourceStep bt i s r = sameBinResourceStep bt i 0 s r := by
      unfold newBinResourceStep sameBinResourceStep
      dsimp only
      rw [hset, addAtQ_getD _ _ _ _ hr, if_pos rfl, hr0, zero_add]
      have := hcap r (by simp)
      simp only [this, and_true]
    rw [List.foldl_cons, List.foldl_cons, hstep]
    refine ih hnd.2 _ (fun q hq => ?_) (fun q hq => ?_) fun q hq => hcap q (by simp [hq])
    · simp only [sameBinResourceStep, addAtQ_length]
      exact hl q (by simp [hq])
    · simp only [sameBinResourceStep]
      rw [addAtQ_getD _ _ _ _ (hl q (by simp [hq])), h0 q (by simp [hq]),
        if_neg (fun e : r = q => hnd.1 (e ▸ hq)), add_zero]

/-! ### The calls of a node -/

theorem historyOps_snoc (h : List (Nat × Nat)) (nb i k : Nat) :
    historyOps inst nb (h ++ [(i, k)]) = historyOps inst nb h
      ++ (((List.range' (h.foldl (fun a x => max a x.2) nb)
            (k - h.foldl (fun a x => max a x.2) nb)).map
              fun j => BuilderOp.addBin ((schemeBins inst).getD j 0) 1)
        ++ [BuilderOp.addItem (max (h.foldl (fun a x => max a x.2) nb) k - 1) i]) := by
  induction h generalizing nb with
  | nil => simp [historyOps]
  | cons x h ih =>
    obtain ⟨a, b⟩ := x
    simp only [List.cons_append, historyOps, List.foldl_cons]
    rw [ih]
    simp

theorem opStep_addBins (L : List Nat) (p : Packing) :
    (L.map fun j => BuilderOp.addBin ((schemeBins inst).getD j 0) 1).foldl opStep p
      = p ++ L.map fun j => ⟨(schemeBins inst).getD j 0, 1, []⟩ := by
  induction L generalizing p with
  | nil => simp
  | cons j L ih =>
    rw [List.map_cons, List.foldl_cons, ih]
    simp [opStep]

theorem opStep_addItem (q : Packing) (b : PackedBin) (k i : Nat) (hk : k = q.length) :
    opStep (q ++ [b]) (.addItem k i) = q ++ [{ b with items := b.items ++ [i] }] := by
  subst hk
  simp only [opStep]
  induction q with
  | nil => simp
  | cons a q ih => simpa using ih

/-- What a node records about its current bin: type `t`, items `l`. -/
structure LastInv (inst : Instance) (n : Node) (t : Nat) (l : List Nat) : Prop where
  length : n.lastBinLength = binEnd inst l
  weight : n.lastBinWeight = weight inst l
  number : n.lastBinNumberOfItems = l.length
  stack : ∀ m, m ≤ n.lastBinMaximumNumberOfItems ↔
    ∀ i ∈ l, m ≤ (inst.itemType i).maximumStackability
  remaining : ∀ w, n.lastBinRemainingWeight.Ge w ↔ ∀ p i q, l = p ++ i :: q →
    (inst.itemType i).maximumWeightAfter.Ge (w + Spec.weight inst q)
  resources : 0 < (inst.binType t).resources.length →
    n.lastBinResourceConsumption.length = (inst.binType t).resources.length
    ∧ (∀ r, r < (inst.binType t).resources.length → n.lastBinResourceConsumption.getD r 0
        = consumption inst (resAt (inst.binType t) r) l)
    ∧ n.lastBinItemNumberOfCopies.length = inst.numberOfItemTypes
    ∧ ∀ i, i < inst.numberOfItemTypes → n.lastBinItemNumberOfCopies.getD i 0 = l.count i
  noResources : (inst.binType t).resources.length = 0 → n.lastBinResourceConsumption = []

/-- What a node records about its packing. -/
structure Inv (inst : Instance) (n : Node) (p : Packing) : Prop where
  packing : nodePacking inst n = p
  history : n.history.foldl (fun a x => max a x.2) 0 = n.numberOfBins
  valid : ValidOps inst 0 (historyOps inst 0 n.history)
  count : n.numberOfBins = (historyOps inst 0 n.history).countP
    fun op => match op with | .addBin _ _ => true | _ => false
  bound : ∀ h ∈ n.history, h.2 ≤ (schemeBins inst).length
  le : n.numberOfBins ≤ (schemeBins inst).length
  types : p.map (·.binTypeId) = (schemeBins inst).take n.numberOfBins
  ones : ∀ b ∈ p, b.copies = 1
  items : ∀ b ∈ p, ∀ i ∈ b.items, i < inst.numberOfItemTypes
  fits : ∀ b ∈ p, Fits inst b.binTypeId b.items
  eligible : ∀ b ∈ p, EligibleAll inst b.binTypeId b.items
  copiesLen : n.itemNumberOfCopies.length = inst.numberOfItemTypes
  copies : ∀ i, i < inst.numberOfItemTypes → n.itemNumberOfCopies.getD i 0 = itemCopies p i
  within : ∀ i, i < inst.numberOfItemTypes → itemCopies p i ≤ (inst.itemType i).copies
  number : n.numberOfItems = numberOfItems p
  itemLength : n.itemLength = itemLength inst p
  profit : n.profit = profit inst p
  current : n.currentLength = Spec.length inst p
  waste : n.waste = n.currentLength - n.itemLength
  last : (p = [] ∧ n.numberOfBins = 0) ∨ ∃ q t l, p = q ++ [⟨t, 1, l⟩] ∧ l ≠ []
    ∧ 0 < n.numberOfBins ∧ t = (schemeBins inst).getD (n.numberOfBins - 1) 0
    ∧ n.itemTypeId = l.getLast? ∧ LastInv inst n t l

theorem Inv.length {n : Node} {p : Packing} (h : Inv inst n p) : p.length = n.numberOfBins := by
  have := congrArg List.length h.types
  rw [List.length_map, List.length_take] at this
  have := h.le
  omega

theorem Inv.wellTyped {n : Node} {p : Packing} (h : Inv inst n p) : WellTyped inst p := by
  intro b hb
  refine ⟨?_, by rw [h.ones b hb]; decide, h.items b hb⟩
  have : b.binTypeId ∈ (schemeBins inst).take n.numberOfBins := by
    rw [← h.types]; exact List.mem_map_of_mem hb
  exact schemeBins_mem (List.mem_of_mem_take this)

theorem inv_root (hS : Sound inst) : Inv inst (Node.root inst) [] := by
  constructor
  case copies =>
    intro i hi
    simp [Node.root, List.getD_eq_getElem?_getD, hi, Spec.itemCopies]
  case within => intro i hi; simpa [Spec.itemCopies] using hS.itemCopies i hi
  all_goals simp [Node.root, nodePacking, historyOps, opsPacking, ValidOps, Spec.numberOfItems,
    Spec.itemLength, Spec.profit, Spec.length]

/-! ### Insertions -/

theorem mem_newBinInsertions {n : Node} {L : List Nat} {ins : Insertion}
    (h : ins ∈ newBinInsertions inst n L) :
    ∃ k ∈ L, ins ∈ newBinInsertionsAt inst n k := by
  induction L with
  | nil => simp [newBinInsertions] at h
  | cons k L ih =>
    simp only [newBinInsertions] at h
    split_ifs at h
    · obtain ⟨k', hk', h'⟩ := ih h
      exact ⟨k', by simp [hk'], h'⟩
    · exact ⟨k, by simp, h⟩

theorem mem_insertions {n : Node} {ins : Insertion} (h : ins ∈ insertions inst n) :
    (∃ i, ins = ⟨i, none⟩ ∧ 0 < n.numberOfBins
      ∧ i ∈ (inst.binType ((schemeBins inst).getD (n.numberOfBins - 1) 0)).itemTypeIds
      ∧ n.itemNumberOfCopies.getD i 0 ≠ (inst.itemType i).copies ∧ sameBinOk inst n i = true)
    ∨ ∃ i k, ins = ⟨i, some k⟩ ∧ n.numberOfBins ≤ k ∧ k < inst.numberOfBins
      ∧ i ∈ (inst.binType ((schemeBins inst).getD k 0)).itemTypeIds
      ∧ n.itemNumberOfCopies.getD i 0 ≠ (inst.itemType i).copies ∧ newBinOk inst i k = true
      ∧ sameBinInsertions inst n = [] := by
  unfold insertions at h
  dsimp only at h
  split_ifs at h with he
  · obtain ⟨k, hk, h⟩ := mem_newBinInsertions h
    unfold newBinInsertionsAt at h
    obtain ⟨i, hi, rfl⟩ := List.mem_map.mp h
    rw [List.mem_filter, Bool.and_eq_true, copyLeft, decide_eq_true_eq] at hi
    rw [List.mem_range'_1] at hk
    exact .inr ⟨i, k, rfl, hk.1, by omega, hi.1, hi.2.1, hi.2.2, by simpa using he⟩
  · unfold sameBinInsertions at h
    split_ifs at h with hb
    · obtain ⟨i, hi, rfl⟩ := List.mem_map.mp h
      rw [List.mem_filter, Bool.and_eq_true, copyLeft, decide_eq_true_eq] at hi
      exact .inl ⟨i, rfl, hb, hi.1, hi.2.1, hi.2.2⟩
    · simp at h

/-! ### Children -/

theorem _root_.PackingSolver.OneDim.Spec.Sound.cap (hS : Sound inst) {t : Nat} (ht : t < inst.numberOfBinTypes) :
    ∀ r ∈ (inst.binType t).resources, 0 ≤ r.capacity := hS.capacities _ (binType_mem inst ht)

theorem _root_.PackingSolver.OneDim.Spec.Sound.cons (hS : Sound inst) {t : Nat} (ht : t < inst.numberOfBinTypes) :
    ∀ r ∈ (inst.binType t).resources, ∀ s ∈ r.itemConsumptions, ∀ q ∈ s, 0 ≤ q :=
  hS.consumptions _ (binType_mem inst ht)

theorem resAt_mem {bt : BinType} {r : Nat} (h : r < bt.resources.length) :
    resAt bt r ∈ bt.resources := by
  rw [resAt, List.getD_eq_getElem _ _ h]; exact List.getElem_mem h

/-- The resource loop of a child in the same bin. -/
theorem res_same (hS : Sound inst) {t i : Nat} (ht : t < inst.numberOfBinTypes)
    (hi : i < inst.numberOfItemTypes) (l : List Nat) (cons : List ℚ) (copy : Nat) (profit : ℚ)
    (hcl : cons.length = (inst.binType t).resources.length)
    (hc : ∀ r, r < (inst.binType t).resources.length →
      cons.getD r 0 = consumption inst (resAt (inst.binType t) r) l)
    (hcopy : copy = l.count i) :
    (((inst.itemType i).resourceIds.getD t []).foldl
        (sameBinResourceStep (inst.binType t) i copy) (cons, profit)).2
      = profit - (penalties inst t (l ++ [i]) - penalties inst t l)
    ∧ (((inst.itemType i).resourceIds.getD t []).foldl
        (sameBinResourceStep (inst.binType t) i copy) (cons, profit)).1.length
      = (inst.binType t).resources.length
    ∧ ∀ r, r < (inst.binType t).resources.length →
      (((inst.itemType i).resourceIds.getD t []).foldl
        (sameBinResourceStep (inst.binType t) i copy) (cons, profit)).1.getD r 0
      = consumption inst (resAt (inst.binType t) r) (l ++ [i]) := by
  subst hcopy
  have hids := hS.agg.resourceIds i hi t ht
  have hf := sameBinFold_eq (inst.binType t) i (l.count i)
    ((inst.itemType i).resourceIds.getD t []) ⟨cons, profit, true⟩
  simp only at hf
  rw [hf]
  refine ⟨?_, ?_, fun r hr => ?_⟩
  · rw [resourceFold_profit _ _ _ _ hids.1 _ (fun r hr => by
      simp only [hcl]; exact ((hids.2 r).mp hr).1)]
    rw [penalties_snoc ht hS.agg.resourceIds (hS.cons ht) l i hi]
    simp only
    rw [add_sub_cancel_left]
    congr 2
    refine List.map_congr_left fun r hr => ?_
    rw [hc r ((hids.2 r).mp hr).1]
  · rw [resourceFold_length]; exact hcl
  · rw [resourceFold_consumption _ _ _ _ hids.1 _ r (by simp only [hcl]; exact hr),
      consumption_snoc _ _ _ _ hi]
    simp only
    rw [hc r hr]
    congr 1
    split_ifs with hm
    · rfl
    · have he : (resAt (inst.binType t) r).itemConsumptions.getD i [] = [] := by
        by_contra hne; exact hm ((hids.2 r).mpr ⟨hr, hne⟩)
      rw [itemConsumption_of_empty _ _ _ he]

/-- The resource loop of a child in a new bin. -/
theorem res_new (hS : Sound inst) {t i : Nat} (ht : t < inst.numberOfBinTypes)
    (hi : i < inst.numberOfItemTypes) (profit : ℚ) :
    ((inst.itemType i).resourceIds.getD t []).foldl (newBinResourceStep (inst.binType t) i)
        (List.replicate (inst.binType t).resources.length 0, profit)
      = ((inst.itemType i).resourceIds.getD t []).foldl
        (sameBinResourceStep (inst.binType t) i 0)
        (List.replicate (inst.binType t).resources.length 0, profit) := by
  have hids := hS.agg.resourceIds i hi t ht
  refine newBinFold_eq _ _ _ hids.1 _ (fun r hr => ?_) (fun r hr => ?_) fun r hr => ?_
  · simpa using ((hids.2 r).mp hr).1
  · have := ((hids.2 r).mp hr).1
    simp [List.getD_eq_getElem?_getD, this]
  · exact hS.cap ht _ (resAt_mem ((hids.2 r).mp hr).1)

theorem no_resources {t : Nat} (h0 : (inst.binType t).resources.length = 0) (l : List Nat) : penalties inst t l = 0 := by
  unfold penalties
  rw [List.length_eq_zero_iff.mp h0]
  rfl

theorem profit_snoc (p : Packing) (t : Nat) (l : List Nat) :
    Spec.profit inst (p ++ [⟨t, 1, l⟩]) = Spec.profit inst p + itemsProfit inst l
      - penalties inst t l := by
  simp only [Spec.profit, List.map_append, List.sum_append, List.map_cons, List.map_nil,
    List.sum_cons, List.sum_nil]
  push_cast
  ring

theorem profit_append_empty (hS : Sound inst) (p : Packing) (L : List Nat)
    (hL : ∀ j ∈ L, (schemeBins inst).getD j 0 < inst.numberOfBinTypes) :
    Spec.profit inst (p ++ L.map fun j => ⟨(schemeBins inst).getD j 0, 1, []⟩)
      = Spec.profit inst p := by
  simp only [Spec.profit, List.map_append, List.sum_append, List.map_map]
  rw [add_eq_left]
  apply List.sum_eq_zero
  intro x hx
  obtain ⟨j, hj, rfl⟩ := List.mem_map.mp hx
  have := penalties_nil (hS.cap (hL j hj))
  simp only [Function.comp, itemsProfit, List.map_nil, List.sum_nil, this]
  simp

theorem binEnd_snoc (l : List Nat) (i : Nat) (hl : l ≠ []) :
    binEnd inst (l ++ [i]) = binEnd inst l + (inst.itemType i).length
      - (inst.itemType i).nestingLength := by
  cases l with
  | nil => exact absurd rfl hl
  | cons a l =>
    simp only [binEnd, List.cons_append, List.map_cons, List.tail_cons, List.map_append,
      List.map_nil, List.sum_cons, List.sum_append, List.sum_nil]
    ring

theorem binEnd_single (i : Nat) : binEnd inst [i] = (inst.itemType i).length := by
  simp [binEnd]

theorem weight_snoc (l : List Nat) (i : Nat) :
    weight inst (l ++ [i]) = weight inst l + (inst.itemType i).weight := by
  simp [weight]

theorem remaining_snoc (e : ExtQ) (l : List Nat) (i : Nat)
    (h : ∀ w, e.Ge w ↔ ∀ p j q, l = p ++ j :: q →
      (inst.itemType j).maximumWeightAfter.Ge (w + weight inst q)) (w : ℚ) :
    (ExtQ.min (e.subQ (inst.itemType i).weight) (inst.itemType i).maximumWeightAfter).Ge w ↔
      ∀ p j q, l ++ [i] = p ++ j :: q →
        (inst.itemType j).maximumWeightAfter.Ge (w + weight inst q) := by
  rw [extQ_min_ge, extQ_sub_ge, h]
  constructor
  · rintro ⟨h1, h2⟩ p j q hq
    rcases snoc_eq_append_cons.mp hq with ⟨rfl, rfl, rfl⟩ | ⟨q', rfl, hl⟩
    · simpa [weight] using h2
    · have := h1 p j q' hl
      rw [weight_snoc]
      convert this using 1
      ring
  · intro h
    refine ⟨fun p j q hq => ?_, ?_⟩
    · have := h p j (q ++ [i]) (by rw [hq]; simp)
      rw [weight_snoc] at this
      convert this using 1
      ring
    · have := h l i [] rfl
      simpa [weight] using this

theorem fits_snoc {t i : Nat} {l : List Nat} (h : Fits inst t l)
    (hfit : binEnd inst (l ++ [i]) ≤ (inst.binType t).length) : Fits inst t (l ++ [i]) := by
  intro p hp hne
  rcases prefix_snoc.mp hp with hp | rfl
  · exact h p hp hne
  · exact hfit

theorem binLength_snoc (p : Packing) (t : Nat) (l : List Nat) :
    binLength inst (p ++ [⟨t, 1, l⟩]) = binLength inst p + (inst.binType t).length := by
  simp [binLength]

theorem length_snoc (p : Packing) (t : Nat) (l : List Nat) (hl : l ≠ []) :
    Spec.length inst (p ++ [⟨t, 1, l⟩]) = binLength inst p + binEnd inst l := by
  rw [length_append_nonempty _ _ _ hl, binLength_snoc]
  simp only
  ring

theorem Inv.binLength_take {n : Node} {p : Packing} (h : Inv inst n p) (k : Nat) :
    binLength inst (p.take k) = (((schemeBins inst).take (min k n.numberOfBins)).map
      fun t => (inst.binType t).length).sum := by
  have h2 : (p.take k).map (·.binTypeId) = (schemeBins inst).take (min k n.numberOfBins) := by
    rw [List.map_take, h.types, List.take_take]
  rw [← h2, List.map_map]
  unfold binLength
  congr 1
  refine List.map_congr_left fun b hb => ?_
  rw [h.ones b (List.mem_of_mem_take hb)]
  simp

/-- The child in the same bin. -/
theorem inv_same (hS : Sound inst) {n : Node} {p : Packing} (h : Inv inst n p) {i : Nat}
    (hnb : 0 < n.numberOfBins)
    (hm : i ∈ (inst.binType ((schemeBins inst).getD (n.numberOfBins - 1) 0)).itemTypeIds)
    (hcp : n.itemNumberOfCopies.getD i 0 ≠ (inst.itemType i).copies)
    (hfit : n.lastBinLength + (inst.itemType i).length - (inst.itemType i).nestingLength
      ≤ (inst.binType ((schemeBins inst).getD (n.numberOfBins - 1) 0)).length) :
    ∃ q t l, p = q ++ [⟨t, 1, l⟩] ∧ LastInv inst n t l ∧ l ≠ []
      ∧ t = (schemeBins inst).getD (n.numberOfBins - 1) 0
      ∧ LastInv inst (n.child inst ⟨i, none⟩) t (l ++ [i])
      ∧ Inv inst (n.child inst ⟨i, none⟩) (q ++ [⟨t, 1, l ++ [i]⟩]) := by
  rcases h.last with ⟨-, h0⟩ | ⟨q, t, l, hp, hl, -, ht, -, hlast⟩
  · omega
  refine ⟨q, t, l, hp, hlast, hl, ht, ?_⟩
  have hle := h.le
  have htn : t < inst.numberOfBinTypes := by rw [ht]; exact schemeBins_getD (by omega)
  rw [← ht] at hm hfit
  obtain ⟨hi, hel⟩ := ((hS.agg.itemTypeIds t htn).2 i).mp hm
  have hlen := h.length
  have hqlen : q.length = n.numberOfBins - 1 := by
    rw [hp] at hlen; simp at hlen; omega
  have hend : (n.child inst ⟨i, none⟩).lastBinLength = binEnd inst (l ++ [i]) := by
    rw [binEnd_snoc _ _ hl, ← hlast.length]; rfl
  -- resources
  have hres : (n.child inst ⟨i, none⟩).profit
        = n.profit + (inst.itemType i).profit - (penalties inst t (l ++ [i]) - penalties inst t l)
      ∧ (0 < (inst.binType t).resources.length →
        (n.child inst ⟨i, none⟩).lastBinResourceConsumption.length
            = (inst.binType t).resources.length
        ∧ (∀ r, r < (inst.binType t).resources.length →
          (n.child inst ⟨i, none⟩).lastBinResourceConsumption.getD r 0
            = consumption inst (resAt (inst.binType t) r) (l ++ [i]))
        ∧ (n.child inst ⟨i, none⟩).lastBinItemNumberOfCopies.length = inst.numberOfItemTypes
        ∧ ∀ j, j < inst.numberOfItemTypes →
          (n.child inst ⟨i, none⟩).lastBinItemNumberOfCopies.getD j 0 = (l ++ [i]).count j)
      ∧ ((inst.binType t).resources.length = 0 →
        (n.child inst ⟨i, none⟩).lastBinResourceConsumption = []) := by
    unfold Node.child insertionBinType
    simp only
    rw [← ht]
    by_cases hr : (inst.binType t).resources.length > 0
    · simp only [if_pos hr]
      obtain ⟨h1, h2, h3, h4⟩ := hlast.resources hr
      have := res_same hS htn hi l n.lastBinResourceConsumption
        (n.lastBinItemNumberOfCopies.getD i 0) (n.profit + (inst.itemType i).profit) h1 h2
        (h4 i hi)
      refine ⟨this.1, fun _ => ⟨this.2.1, this.2.2, by simpa using h3, fun j hj => ?_⟩,
        fun h0 => by omega⟩
      rw [modifyNat_getD _ _ _ (by omega), h4 j hj]
      simp [List.count_append, List.count_cons]
    · simp only [if_neg hr]
      rw [no_resources (by omega), no_resources (by omega)]
      exact ⟨by ring, fun h => absurd h hr, fun _ => trivial⟩
  have hlast' : LastInv inst (n.child inst ⟨i, none⟩) t (l ++ [i]) := by
    refine ⟨hend, ?_, ?_, fun m => ?_, ?_, hres.2.1, hres.2.2⟩
    · rw [weight_snoc, ← hlast.weight]; rfl
    · show n.lastBinNumberOfItems + 1 = _
      rw [hlast.number]; simp
    · show m ≤ min n.lastBinMaximumNumberOfItems _ ↔ _
      rw [le_min_iff, hlast.stack]
      simp [or_imp, forall_and]
    · exact remaining_snoc _ _ _ hlast.remaining
  refine ⟨hlast', ?_⟩
  have hhist : (n.child inst ⟨i, none⟩).history = n.history ++ [(i, n.numberOfBins)] := rfl
  have hnbc : (n.child inst ⟨i, none⟩).numberOfBins = n.numberOfBins := rfl
  have hops : historyOps inst 0 (n.child inst ⟨i, none⟩).history
      = historyOps inst 0 n.history ++ [BuilderOp.addItem (n.numberOfBins - 1) i] := by
    rw [hhist, historyOps_snoc, h.history]
    simp
  have hcopies : ∀ j, itemCopies (q ++ [⟨t, 1, l ++ [i]⟩]) j
      = itemCopies p j + if i = j then 1 else 0 := by
    intro j
    rw [hp, itemCopies_snoc, itemCopies_snoc]
    simp only [List.count_append, List.count_cons, List.count_nil, beq_iff_eq]
    split_ifs <;> push_cast <;> ring
  have hilen : Spec.itemLength inst (q ++ [⟨t, 1, l ++ [i]⟩])
      = Spec.itemLength inst p + (inst.itemType i).length := by
    rw [hp]
    simp only [Spec.itemLength, List.map_append, List.sum_append, List.map_cons, List.map_nil,
      List.sum_cons, List.sum_nil]
    ring
  constructor
  case packing =>
    have hpk := h.packing
    unfold nodePacking opsPacking at hpk ⊢
    rw [hops, List.foldl_append, hpk, hp]
    simp only [List.foldl_cons, List.foldl_nil]
    rw [opStep_addItem _ _ _ _ hqlen.symm]
  case history =>
    rw [hhist, List.foldl_append, h.history]
    simp [hnbc]
  case valid =>
    rw [hops, validOps_append _ _ _ n.numberOfBins (by rw [Nat.zero_add]; exact h.count)]
    exact ⟨h.valid, by omega, trivial⟩
  case count =>
    rw [hops, List.countP_append, hnbc, ← h.count]
    simp
  case bound =>
    intro x hx
    rw [hhist] at hx
    rcases List.mem_append.mp hx with hx | hx
    · exact h.bound x hx
    · rw [List.mem_singleton.mp hx]; exact h.le
  case le => exact h.le
  case types =>
    have := h.types
    rw [hp] at this
    rw [hnbc, ← this]
    simp
  case ones =>
    rw [hp] at h
    have := h.ones
    rw [forall_mem_snoc] at this ⊢
    exact ⟨this.1, rfl⟩
  case items =>
    rw [hp] at h
    have := h.items
    rw [forall_mem_snoc] at this ⊢
    exact ⟨this.1, forall_mem_snoc.mpr ⟨this.2, hi⟩⟩
  case fits =>
    rw [hp] at h
    have := h.fits
    rw [forall_mem_snoc] at this ⊢
    refine ⟨this.1, fits_snoc this.2 ?_⟩
    rw [binEnd_snoc _ _ hl, ← hlast.length]
    exact hfit
  case eligible =>
    rw [hp] at h
    have := h.eligible
    rw [forall_mem_snoc] at this ⊢
    exact ⟨this.1, forall_mem_snoc.mpr ⟨this.2, hel⟩⟩
  case copiesLen =>
    show (addAt n.itemNumberOfCopies i 1).length = _
    rw [addAt_length]; exact h.copiesLen
  case copies =>
    intro j hj
    show (addAt n.itemNumberOfCopies i 1).getD j 0 = _
    rw [addAt_getD _ _ _ _ (by rw [h.copiesLen]; exact hj), h.copies j hj, hcopies]
  case within =>
    intro j hj
    rw [hcopies]
    have hw := h.within j hj
    split_ifs with hij
    · subst hij
      rw [h.copies i hi] at hcp
      omega
    · omega
  case number =>
    show n.numberOfItems + 1 = _
    rw [h.number, hp]
    simp only [Spec.numberOfItems, List.map_append, List.sum_append, List.map_cons, List.map_nil,
      List.sum_cons, List.sum_nil, List.length_append, List.length_singleton]
    push_cast
    ring
  case itemLength =>
    show n.itemLength + _ = _
    rw [h.itemLength, hilen]
  case profit =>
    rw [hres.1, h.profit, hp, profit_snoc, profit_snoc]
    simp only [itemsProfit, List.map_append, List.sum_append, List.map_cons, List.map_nil,
      List.sum_cons, List.sum_nil]
    ring
  case current =>
    rw [length_snoc _ _ _ (by simp)]
    show (schemePrevious inst).getD (n.numberOfBins - 1) 0
      + (n.lastBinLength + (inst.itemType i).length - (inst.itemType i).nestingLength) = _
    rw [schemePrevious_getD (by omega)]
    have := h.binLength_take (n.numberOfBins - 1)
    rw [min_eq_left (by omega), hp, List.take_append_of_le_length (by omega),
      List.take_of_length_le (by omega)] at this
    rw [this, binEnd_snoc _ _ hl, ← hlast.length]
  case waste => rfl
  case last =>
    exact .inr ⟨q, t, l ++ [i], rfl, by simp, hnb, ht, by simp [Node.child], hlast'⟩

theorem range_take_drop (l : List Nat) (a b : Nat) (hab : a ≤ b) (hb : b ≤ l.length) :
    l.take b = l.take a ++ (List.range' a (b - a)).map fun j => l.getD j 0 := by
  obtain ⟨d, rfl⟩ := Nat.exists_eq_add_of_le hab
  rw [Nat.add_sub_cancel_left]
  clear hab
  induction d with
  | zero => simp
  | succ d ih =>
    rw [← Nat.add_assoc, List.take_add_one, ih (by omega), List.range'_concat, List.map_append,
      ← List.append_assoc]
    congr 1
    rw [List.getElem?_eq_getElem (by omega)]
    simp only [Option.toList_some, Nat.one_mul, List.map_cons, List.map_nil]
    rw [List.getD_eq_getElem _ _ (by omega)]

theorem sum_empty {R : Type} [AddMonoid R] (L : List Nat) (f : Nat → PackedBin) (g : PackedBin → R)
    (h : ∀ j ∈ L, g (f j) = 0) : ((L.map f).map g).sum = 0 := by
  apply List.sum_eq_zero
  intro x hx
  rw [List.map_map] at hx
  obtain ⟨j, hj, rfl⟩ := List.mem_map.mp hx
  exact h j hj

/-- The packing of a child that opens the bin at position `k`. -/
def openBin (inst : Instance) (p : Packing) (nb k i : Nat) : Packing :=
  (p ++ (List.range' nb (k - nb)).map fun j => ⟨(schemeBins inst).getD j 0, 1, []⟩)
    ++ [⟨(schemeBins inst).getD k 0, 1, [i]⟩]

/-- The child in a new bin. -/
theorem inv_new (hS : Sound inst) {n : Node} {p : Packing} (h : Inv inst n p) {i k : Nat}
    (hnb : n.numberOfBins ≤ k) (hk : k < (schemeBins inst).length)
    (hm : i ∈ (inst.binType ((schemeBins inst).getD k 0)).itemTypeIds)
    (hcp : n.itemNumberOfCopies.getD i 0 ≠ (inst.itemType i).copies)
    (hfit : (inst.itemType i).length ≤ (inst.binType ((schemeBins inst).getD k 0)).length) :
    LastInv inst (n.child inst ⟨i, some k⟩) ((schemeBins inst).getD k 0) [i]
      ∧ Inv inst (n.child inst ⟨i, some k⟩) (openBin inst p n.numberOfBins k i) := by
  have htn : (schemeBins inst).getD k 0 < inst.numberOfBinTypes := schemeBins_getD hk
  obtain ⟨hi, hel⟩ := ((hS.agg.itemTypeIds _ htn).2 i).mp hm
  have hlen := h.length
  have hres : (n.child inst ⟨i, some k⟩).profit
        = n.profit + (inst.itemType i).profit - penalties inst ((schemeBins inst).getD k 0) [i]
      ∧ (0 < (inst.binType ((schemeBins inst).getD k 0)).resources.length →
        (n.child inst ⟨i, some k⟩).lastBinResourceConsumption.length
            = (inst.binType ((schemeBins inst).getD k 0)).resources.length
        ∧ (∀ r, r < (inst.binType ((schemeBins inst).getD k 0)).resources.length →
          (n.child inst ⟨i, some k⟩).lastBinResourceConsumption.getD r 0
            = consumption inst (resAt (inst.binType ((schemeBins inst).getD k 0)) r) [i])
        ∧ (n.child inst ⟨i, some k⟩).lastBinItemNumberOfCopies.length = inst.numberOfItemTypes
        ∧ ∀ j, j < inst.numberOfItemTypes →
          (n.child inst ⟨i, some k⟩).lastBinItemNumberOfCopies.getD j 0 = [i].count j)
      ∧ ((inst.binType ((schemeBins inst).getD k 0)).resources.length = 0 →
        (n.child inst ⟨i, some k⟩).lastBinResourceConsumption = []) := by
    unfold Node.child insertionBinType
    simp only
    generalize (schemeBins inst).getD k 0 = t at htn hel hfit
    by_cases hr : (inst.binType t).resources.length > 0
    · simp only [if_pos hr]
      rw [res_new hS htn hi]
      have := res_same hS htn hi [] (List.replicate (inst.binType t).resources.length 0) 0
        (n.profit + (inst.itemType i).profit) (by simp)
        (fun r hr => by simp [consumption_nil, List.getD_eq_getElem?_getD, hr]) (by simp)
      rw [penalties_nil (hS.cap htn), sub_zero, List.nil_append] at this
      refine ⟨this.1, fun _ => ⟨this.2.1, this.2.2, by simp, fun j hj => ?_⟩, fun h0 => by omega⟩
      rw [List.getD_eq_getElem _ _ (by simpa using hj), List.getElem_set]
      by_cases hij : i = j
      · subst hij; simp
      · simp [hij]
    · simp only [if_neg hr]
      rw [no_resources (by omega)]
      exact ⟨by ring, fun h => absurd h hr, fun _ => trivial⟩
  have hlast' : LastInv inst (n.child inst ⟨i, some k⟩) ((schemeBins inst).getD k 0) [i] := by
    refine ⟨?_, ?_, ?_, fun m => ?_, fun w => ?_, hres.2.1, hres.2.2⟩
    · rw [binEnd_single]; rfl
    · simp [weight]; rfl
    · simp; rfl
    · show m ≤ (inst.itemType i).maximumStackability ↔ _
      simp
    · show (inst.itemType i).maximumWeightAfter.Ge w ↔ _
      constructor
      · intro hw p j q hq
        rcases (snoc_eq_append_cons (l := [])).mp (by simpa using hq) with ⟨rfl, rfl, rfl⟩ | ⟨q', -, hl⟩
        · simpa [weight] using hw
        · simp at hl
      · intro hw
        simpa [weight] using hw [] i [] rfl
  refine ⟨hlast', ?_⟩
  have hhist : (n.child inst ⟨i, some k⟩).history = n.history ++ [(i, k + 1)] := rfl
  have hnbc : (n.child inst ⟨i, some k⟩).numberOfBins = k + 1 := rfl
  have hsplit : List.range' n.numberOfBins (k + 1 - n.numberOfBins)
      = List.range' n.numberOfBins (k - n.numberOfBins) ++ [k] := by
    rw [show k + 1 - n.numberOfBins = (k - n.numberOfBins) + 1 by omega, List.range'_concat]
    congr 2
    omega
  have hops : historyOps inst 0 (n.child inst ⟨i, some k⟩).history
      = historyOps inst 0 n.history
        ++ ((List.range' n.numberOfBins (k + 1 - n.numberOfBins)).map
              (fun j => BuilderOp.addBin ((schemeBins inst).getD j 0) 1)
          ++ [BuilderOp.addItem k i]) := by
    rw [hhist, historyOps_snoc, h.history, max_eq_right (by omega)]
    rfl
  have hmem : ∀ j ∈ List.range' n.numberOfBins (k - n.numberOfBins),
      (schemeBins inst).getD j 0 < inst.numberOfBinTypes := fun j hj => by
    rw [List.mem_range'_1] at hj
    exact schemeBins_getD (by omega)
  have htypes : (openBin inst p n.numberOfBins k i).map (·.binTypeId)
      = (schemeBins inst).take (k + 1) := by
    unfold openBin
    rw [List.map_append, List.map_append, h.types, List.map_map,
      range_take_drop _ n.numberOfBins (k + 1) (by omega) (by omega), hsplit, List.map_append,
      ← List.append_assoc]
    rfl
  have hones : ∀ b ∈ openBin inst p n.numberOfBins k i, b.copies = 1 := by
    unfold openBin
    rw [forall_mem_snoc]
    refine ⟨fun b hb => ?_, rfl⟩
    rcases List.mem_append.mp hb with hb | hb
    · exact h.ones b hb
    · obtain ⟨j, -, rfl⟩ := List.mem_map.mp hb
      rfl
  have hcopies : ∀ j, itemCopies (openBin inst p n.numberOfBins k i) j
      = itemCopies p j + if i = j then 1 else 0 := by
    intro j
    unfold openBin
    rw [itemCopies_snoc]
    unfold Spec.itemCopies
    rw [List.map_append, List.sum_append, sum_empty _ _ _ (fun j _ => by simp), add_zero]
    simp only [List.count_cons, List.count_nil, beq_iff_eq]
    split_ifs <;> push_cast <;> ring
  constructor
  case packing =>
    have hpk := h.packing
    unfold nodePacking opsPacking at hpk ⊢
    rw [hops, List.foldl_append, hpk, List.foldl_append, opStep_addBins, hsplit, List.map_append,
      ← List.append_assoc]
    simp only [List.foldl_cons, List.foldl_nil, List.map_cons, List.map_nil]
    rw [opStep_addItem _ _ _ _ (by simp; omega)]
    rfl
  case history =>
    rw [hhist, List.foldl_append, h.history, hnbc]
    simp only [List.foldl_cons, List.foldl_nil]
    omega
  case valid =>
    rw [hops, validOps_append _ _ _ n.numberOfBins (by rw [Nat.zero_add]; exact h.count)]
    refine ⟨h.valid, ?_⟩
    rw [validOps_append _ _ _ (k + 1) (by
      rw [List.countP_map]; simp [Function.comp_def]; omega)]
    refine ⟨?_, by omega, trivial⟩
    have : ∀ (L : List Nat) (m : Nat), (∀ j ∈ L, (schemeBins inst).getD j 0 < inst.numberOfBinTypes)
        → ValidOps inst m (L.map fun j => BuilderOp.addBin ((schemeBins inst).getD j 0) 1) := by
      intro L
      induction L with
      | nil => intro m _; trivial
      | cons j L ih =>
        intro m hL
        exact ⟨hL j (by simp), ih _ fun j' hj' => hL j' (by simp [hj'])⟩
    refine this _ _ fun j hj => ?_
    rw [List.mem_range'_1] at hj
    exact schemeBins_getD (by omega)
  case count =>
    rw [hops, List.countP_append, List.countP_append, hnbc, ← h.count, List.countP_map]
    simp [Function.comp_def]
    omega
  case bound =>
    intro x hx
    rw [hhist] at hx
    rcases List.mem_append.mp hx with hx | hx
    · exact h.bound x hx
    · rw [List.mem_singleton.mp hx]; exact hk
  case le => exact hk
  case types => exact htypes
  case ones => exact hones
  case items =>
    unfold openBin
    rw [forall_mem_snoc]
    refine ⟨fun b hb => ?_, by simpa using hi⟩
    rcases List.mem_append.mp hb with hb | hb
    · exact h.items b hb
    · obtain ⟨j, -, rfl⟩ := List.mem_map.mp hb
      simp
  case fits =>
    unfold openBin
    rw [forall_mem_snoc]
    refine ⟨fun b hb => ?_, ?_⟩
    · rcases List.mem_append.mp hb with hb | hb
      · exact h.fits b hb
      · obtain ⟨j, -, rfl⟩ := List.mem_map.mp hb
        intro q hq hne
        exact absurd (List.prefix_nil.mp hq) hne
    · refine fits_snoc (l := []) (fun q hq hne => absurd (List.prefix_nil.mp hq) hne) ?_
      rw [List.nil_append, binEnd_single]
      exact hfit
  case eligible =>
    unfold openBin
    rw [forall_mem_snoc]
    refine ⟨fun b hb => ?_, by intro j hj; rw [List.mem_singleton.mp hj]; exact hel⟩
    rcases List.mem_append.mp hb with hb | hb
    · exact h.eligible b hb
    · obtain ⟨j, -, rfl⟩ := List.mem_map.mp hb
      intro j hj
      simp at hj
  case copiesLen =>
    show (addAt n.itemNumberOfCopies i 1).length = _
    rw [addAt_length]; exact h.copiesLen
  case copies =>
    intro j hj
    show (addAt n.itemNumberOfCopies i 1).getD j 0 = _
    rw [addAt_getD _ _ _ _ (by rw [h.copiesLen]; exact hj), h.copies j hj, hcopies]
  case within =>
    intro j hj
    rw [hcopies]
    have hw := h.within j hj
    split_ifs with hij
    · subst hij
      rw [h.copies i hi] at hcp
      omega
    · omega
  case number =>
    show n.numberOfItems + 1 = _
    rw [h.number]
    unfold openBin Spec.numberOfItems
    rw [List.map_append, List.sum_append, List.map_append, List.sum_append,
      sum_empty _ _ _ (fun j _ => by simp)]
    simp
  case itemLength =>
    show n.itemLength + _ = _
    rw [h.itemLength]
    unfold openBin Spec.itemLength
    rw [List.map_append, List.sum_append, List.map_append, List.sum_append,
      sum_empty _ _ _ (fun j _ => by simp)]
    simp
  case profit =>
    unfold openBin
    rw [hres.1, h.profit, profit_snoc, profit_append_empty hS _ _ hmem]
    simp [itemsProfit]
  case current =>
    unfold openBin
    rw [length_snoc _ _ _ (by simp), binEnd_single]
    show (schemePrevious inst).getD k 0 + (inst.itemType i).length = _
    rw [schemePrevious_getD hk]
    congr 1
    have : (p ++ (List.range' n.numberOfBins (k - n.numberOfBins)).map
        fun j => (⟨(schemeBins inst).getD j 0, 1, []⟩ : PackedBin)).map (·.binTypeId)
        = (schemeBins inst).take k := by
      rw [List.map_append, h.types, List.map_map,
        range_take_drop _ n.numberOfBins k hnb (by omega)]
      rfl
    rw [← this, List.map_map]
    unfold binLength
    congr 1
    refine List.map_congr_left fun b hb => ?_
    rw [hones b (by unfold openBin; exact List.mem_append_left _ hb)]
    simp
  case waste => rfl
  case last =>
    exact .inr ⟨_, (schemeBins inst).getD k 0, [i], rfl, by simp, by rw [hnbc]; omega,
      by rw [hnbc, Nat.add_sub_cancel], by simp [Node.child], hlast'⟩

/-- Every visited node describes its packing. -/
theorem inv_step (hS : Sound inst) {n : Node} {p : Packing} (h : Inv inst n p) {ins : Insertion}
    (hi : ins ∈ insertions inst n) : ∃ p', Inv inst (n.child inst ins) p' := by
  rcases mem_insertions hi with ⟨i, rfl, h1, h2, h3, h4⟩ | ⟨i, k, rfl, h1, h2, h3, h4, h5, -⟩
  · have hf := h4
    simp only [sameBinOk, Bool.and_eq_true, Bool.not_eq_true', decide_eq_false_iff_not] at hf
    obtain ⟨q, t, l, -, -, -, -, -, h'⟩ := inv_same hS h h1 h2 h3 (by omega)
    exact ⟨_, h'⟩
  · have hf := h5
    simp only [newBinOk, Bool.and_eq_true, Bool.not_eq_true', decide_eq_false_iff_not] at hf
    exact ⟨_, (inv_new hS h h1 (by rw [schemeBins_length hS.agg.binTypeIds]; exact h2) h3 h4
      (by omega)).2⟩

theorem inv_descends (hS : Sound inst) {n m : Node} {p : Packing} (h : Inv inst n p)
    (hd : Descends inst n m) : ∃ p', Inv inst m p' := by
  induction hd with
  | refl => exact ⟨p, h⟩
  | step m ins _ hi ih =>
    obtain ⟨p', h'⟩ := ih
    exact inv_step hS h' hi

theorem treeNode_inv (hS : Sound inst) {n : Node} (h : TreeNode inst n) :
    Inv inst n (nodePacking inst n) := by
  obtain ⟨p, hp⟩ := inv_descends hS (inv_root hS) h
  rw [hp.packing]
  exact hp

/-! ### All constraints, on integral data -/

/-- The bins of a node respect all constraints. -/
def AllOk (inst : Instance) (n : Node) (p : Packing) : Prop :=
  (∀ b ∈ p, BinOk inst b.binTypeId b.items)
    ∧ (0 < n.numberOfBins → SmallLimit n.lastBinRemainingWeight)

theorem smallLimit_ge {e : ExtQ} (h : SmallLimit e) : e.Ge 0 := by
  rcases h with rfl | ⟨z, h0, -, rfl⟩
  · trivial
  · show (0 : ℚ) ≤ (z : ℚ)
    exact_mod_cast h0

/-- A resource check that passed, with integral data. -/
theorem resource_tol (hI : IntegralData inst) (hS : Sound inst) {t i : Nat}
    (ht : t < inst.numberOfBinTypes) (hi : i < inst.numberOfItemTypes) (l : List Nat)
    (hl : ∀ r ∈ (inst.binType t).resources, r.penalize = false →
      consumption inst r l ≤ r.capacity)
    (h : ∀ r ∈ (inst.itemType i).resourceIds.getD t [],
      (resAt (inst.binType t) r).penalize = false →
      consumption inst (resAt (inst.binType t) r) l
        + (resAt (inst.binType t) r).itemConsumption i (l.count i)
        ≤ (resAt (inst.binType t) r).capacity * pstol) :
    ∀ r ∈ (inst.binType t).resources, r.penalize = false →
      consumption inst r (l ++ [i]) ≤ r.capacity := by
  intro r hr hpen
  obtain ⟨k, hk, rfl⟩ := List.mem_iff_getElem.mp hr
  have hk' : (inst.binType t).resources[k] = resAt (inst.binType t) k :=
    (List.getD_eq_getElem _ _ hk).symm
  rw [hk'] at hr hpen ⊢
  rw [consumption_snoc _ _ _ _ hi]
  have hids := hS.agg.resourceIds i hi t ht
  by_cases hm : k ∈ (inst.itemType i).resourceIds.getD t []
  · have h1 := h k hm hpen
    obtain ⟨c, hc1, hc⟩ := hI.capacity _ (binType_mem inst ht) _ hr hpen
    have hint := hI.consumption _ (binType_mem inst ht) _ hr hpen
    obtain ⟨x, hx⟩ := consumption_int (inst := inst) hint l
    obtain ⟨y, hy⟩ := itemConsumption_int hint i (l.count i)
    rw [hx, hy, hc] at h1 ⊢
    have := int_tol (w := x + y) (by push_cast; exact h1) hc1
    exact_mod_cast this
  · have he : (resAt (inst.binType t) k).itemConsumptions.getD i [] = [] := by
      by_contra hne; exact hm ((hids.2 k).mpr ⟨hk, hne⟩)
    rw [itemConsumption_of_empty _ _ _ he, add_zero]
    exact hl _ hr hpen

theorem allOk_step (hS : Sound inst) (hI : IntegralData inst)
    (hst : ∀ i, i < inst.numberOfItemTypes → 1 ≤ (inst.itemType i).maximumStackability)
    {n : Node} {p : Packing} (h : Inv inst n p) (hok : AllOk inst n p) {ins : Insertion}
    (hi : ins ∈ insertions inst n) {p' : Packing} (h' : Inv inst (n.child inst ins) p') :
    AllOk inst (n.child inst ins) p' := by
  have hlen := schemeBins_length hS.agg.binTypeIds
  rcases mem_insertions hi with ⟨i, rfl, h1, h2, h3, h4⟩ | ⟨i, k, rfl, h1, h2, h3, h4, h5, -⟩
  · simp only [sameBinOk, Bool.and_eq_true, Bool.not_eq_true', decide_eq_false_iff_not,
      Bool.or_eq_true, decide_eq_true_eq, List.all_eq_true] at h4
    obtain ⟨⟨⟨⟨hf1, hf2⟩, hf3⟩, hf4⟩, hf5⟩ := h4
    obtain ⟨q, t, l, hp, hlast, hl, ht, hlast', hinv⟩ := inv_same hS h h1 h2 h3 (by omega)
    have hpe : p' = q ++ [⟨t, 1, l ++ [i]⟩] := by rw [← h'.packing, hinv.packing]
    have hle := h.le
    have htn : t < inst.numberOfBinTypes := by rw [ht]; exact schemeBins_getD (by omega)
    rw [← ht] at h2 hf1 hf2 hf5
    obtain ⟨hin, hel⟩ := ((hS.agg.itemTypeIds t htn).2 i).mp h2
    have hok1 := hok.1
    rw [hp, forall_mem_snoc] at hok1
    have hlt : InTypes inst l := by
      have := h.items
      rw [hp, forall_mem_snoc] at this
      exact this.2
    have hrem := hok.2 h1
    obtain ⟨y, hy0, hy⟩ := hI.weight i hin
    rw [hy] at hf4
    have hf4' := limit_tol hrem hf4
    refine ⟨?_, fun _ => ?_⟩
    · rw [hpe, forall_mem_snoc]
      refine ⟨hok1.1, binOk_snoc hok1.2 ?_ ?_ hel ?_ ?_ ?_⟩
      · rw [← hlast'.length]
        show n.lastBinLength + (inst.itemType i).length - (inst.itemType i).nestingLength
          ≤ (inst.binType t).length
        omega
      · obtain ⟨z, hz0, hz⟩ := weight_int hI (l ++ [i]) (forall_mem_snoc.mpr ⟨hlt, hin⟩)
        have hw : n.lastBinWeight + (inst.itemType i).weight = weight inst (l ++ [i]) := by
          rw [weight_snoc, hlast.weight]
        rw [hw, hz] at hf2
        rw [hz]
        exact limit_tol (hI.maximumWeight t htn) hf2
      · rw [← hlast'.stack]
        show _ ≤ min n.lastBinMaximumNumberOfItems (inst.itemType i).maximumStackability
        rw [hlast.number] at hf3
        simp only [List.length_append, List.length_singleton]
        push_cast
        omega
      · intro a j b hb
        have := (hlast'.remaining 0).mp (by
          show (ExtQ.min (n.lastBinRemainingWeight.subQ (inst.itemType i).weight)
            (inst.itemType i).maximumWeightAfter).Ge 0
          rw [extQ_min_ge, extQ_sub_ge, zero_add, hy]
          exact ⟨hf4', smallLimit_ge (hI.maximumWeightAfter i hin)⟩) a j b hb
        rwa [zero_add] at this
      · refine resource_tol hI hS htn hin l
          (fun r hr hpen => hok1.2.resources r hr hpen l (List.prefix_refl _)) ?_
        intro r hr hpen
        rcases hf5 with h0 | hall
        · have := ((hS.agg.resourceIds i hin t htn).2 r).mp hr
          omega
        · have hrlt := (((hS.agg.resourceIds i hin t htn).2 r).mp hr).1
          rcases hall r hr with hpp | hle
          · rw [show (inst.binType t).resources.getD r {} = resAt (inst.binType t) r from rfl,
              hpen] at hpp
            cases hpp
          · obtain ⟨-, hc1, -, hc2⟩ := hlast.resources (by omega)
            rw [hc1 r hrlt, hc2 i hin] at hle
            exact not_lt.mp hle
    · show SmallLimit (ExtQ.min (n.lastBinRemainingWeight.subQ (inst.itemType i).weight)
        (inst.itemType i).maximumWeightAfter)
      rw [hy]
      have hmw := hI.maximumWeightAfter i hin
      rcases hrem with hr | ⟨z, hz0, hz1, hr⟩
      · rw [hr]
        rcases hmw with hm | ⟨m, hm0, hm1, hm⟩
        · rw [hm]; exact .inl rfl
        · rw [hm]; exact .inr ⟨m, hm0, hm1, rfl⟩
      · rw [hr] at hf4' ⊢
        have hyz : y ≤ z := by
          have : (y : ℚ) ≤ (z : ℚ) := hf4'
          exact_mod_cast this
        rcases hmw with hm | ⟨m, hm0, hm1, hm⟩
        · rw [hm]
          exact .inr ⟨z - y, by omega, by omega, by simp [ExtQ.min, ExtQ.subQ]⟩
        · rw [hm]
          refine .inr ⟨min (z - y) m, by omega, by omega, ?_⟩
          simp [ExtQ.min, ExtQ.subQ]
  · simp only [newBinOk, Bool.and_eq_true, Bool.not_eq_true', decide_eq_false_iff_not,
      Bool.or_eq_true, List.all_eq_true] at h5
    obtain ⟨⟨hf1, hf2⟩, hf5⟩ := h5
    have hk : k < (schemeBins inst).length := by omega
    obtain ⟨hlast', hinv⟩ := inv_new hS h h1 hk h3 h4 (by omega)
    have hpe : p' = openBin inst p n.numberOfBins k i := by rw [← h'.packing, hinv.packing]
    have htn : (schemeBins inst).getD k 0 < inst.numberOfBinTypes := schemeBins_getD hk
    obtain ⟨hin, hel⟩ := ((hS.agg.itemTypeIds _ htn).2 i).mp h3
    obtain ⟨y, hy0, hy⟩ := hI.weight i hin
    refine ⟨?_, fun _ => hI.maximumWeightAfter i hin⟩
    rw [hpe]
    unfold openBin
    rw [forall_mem_snoc]
    refine ⟨fun b hb => ?_, ?_⟩
    · rcases List.mem_append.mp hb with hb | hb
      · exact hok.1 b hb
      · obtain ⟨j, hj, rfl⟩ := List.mem_map.mp hb
        rw [List.mem_range'_1] at hj
        exact binOk_nil _ (hS.cap (schemeBins_getD (by omega)))
    · show BinOk inst _ ([] ++ [i])
      refine binOk_snoc (binOk_nil _ (hS.cap htn)) ?_ ?_ hel ?_ ?_ ?_
      · rw [List.nil_append, binEnd_single]; exact not_lt.mp hf1
      · rw [List.nil_append]
        have : weight inst [i] = (y : ℚ) := by rw [← hy]; simp [weight]
        rw [this]
        rw [hy] at hf2
        exact limit_tol (hI.maximumWeight _ htn) hf2
      · intro j hj
        simp only [List.nil_append, List.mem_singleton] at hj
        subst hj
        exact hst j hin
      · intro a j b hb
        rcases snoc_eq_append_cons.mp hb with ⟨rfl, rfl, rfl⟩ | ⟨b', -, hl⟩
        · simpa [weight] using smallLimit_ge (hI.maximumWeightAfter j hin)
        · simp at hl
      · refine resource_tol hI hS htn hin [] ?_ ?_
        · intro r hr _
          rw [consumption_nil]; exact hS.cap htn r hr
        · intro r hr hpen
          rw [consumption_nil, zero_add]
          rcases hf5 r hr with hpp | hle
          · rw [show (inst.binType ((schemeBins inst).getD k 0)).resources.getD r {}
              = resAt (inst.binType ((schemeBins inst).getD k 0)) r from rfl, hpen] at hpp
            cases hpp
          · exact not_lt.mp hle

theorem treeNode_ok (hS : Sound inst) (hI : IntegralData inst)
    (hst : ∀ i, i < inst.numberOfItemTypes → 1 ≤ (inst.itemType i).maximumStackability)
    {n : Node} (h : TreeNode inst n) : AllOk inst n (nodePacking inst n) := by
  have : ∀ m, Descends inst (Node.root inst) m → AllOk inst m (nodePacking inst m) := by
    intro m hd
    induction hd with
    | refl =>
      have : nodePacking inst (Node.root inst) = [] := rfl
      rw [this]
      exact ⟨by simp, fun h => by simp [Node.root] at h⟩
    | step m ins hd hi ih =>
      exact allOk_step hS hI hst (treeNode_inv hS hd) ih hi
        (treeNode_inv hS (.step m ins hd hi))
  exact this n h

/-! ### Conversion to a solution -/

theorem mem_historyOps {h : List (Nat × Nat)} {nb t : Nat} {c : Int}
    (hm : BuilderOp.addBin t c ∈ historyOps inst nb h) : c = 1 := by
  induction h generalizing nb with
  | nil => simp [historyOps] at hm
  | cons x h ih =>
    obtain ⟨i, k⟩ := x
    simp only [historyOps, List.mem_append, List.mem_map, List.mem_cons] at hm
    rcases hm with ⟨j, -, hj⟩ | hm | hm
    · injection hj with _ hc
      exact hc.symm
    · cases hm
    · exact ih hm

theorem toSolution_run {n : Node} {p : Packing} (h : Inv inst n p) :
    ∃ s, SolutionBuilder.runOps inst (historyOps inst 0 n.history) = .ok s
      ∧ Reachable inst s ∧ packingOf s = p
      ∧ toSolution inst n = if s.itemCopiesFeasible && s.capacityFeasible && s.weightFeasible
        && s.stackabilityFeasible && s.maximumWeightAfterFeasible && s.resourceFeasible
        && s.eligibilityFeasible && s.binTypeOrderFeasible then .ok s else .error .logicError := by
  have hpk := h.packing
  unfold nodePacking at hpk
  obtain ⟨s, hs, hp⟩ := runOps_valid _ h.valid (by rw [hpk]; exact h.wellTyped)
  have hr : Reachable inst s := .built _ s (fun t c hm => by rw [mem_historyOps hm]; decide) hs
  refine ⟨s, hs, hr, by rw [hp, hpk], ?_⟩
  unfold toSolution
  have hany : (n.history.any fun x => decide (x.2 > (schemeBins inst).length)) = false := by
    rw [List.any_eq_false]
    intro x hx
    have := h.bound x hx
    simpa using this
  rw [hany, hs]
  rfl

theorem order_flag (hS : Sound inst) {n : Node} {p : Packing} (h : Inv inst n p) {s : Solution}
    (hs : SolutionBuilder.runOps inst (historyOps inst 0 n.history) = .ok s) :
    s.binTypeOrderFeasible = true := by
  have hpk := h.packing
  unfold nodePacking at hpk
  have hc : ∀ t c, BuilderOp.addBin t c ∈ historyOps inst 0 n.history → 0 ≤ c :=
    fun t c hm => by rw [mem_historyOps hm]; decide
  by_cases ho : inst.objective = .binPacking
  · have hb := (build_ok _ s (opsPacking_copies _ hc) hs).2 ho
    rw [hb, hpk]
    exact prefix_order (by rw [ho]; decide) hS.binCopies h.types h.ones
  · exact (Reachable.built _ s hc hs).good.order_other ho

end PackingSolver.OneDim.TreeSearchLemmas
