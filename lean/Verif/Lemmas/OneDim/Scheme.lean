import Verif.Spec.OneDimTreeSearch
import Verif.Lemmas.OneDim.Packing
import Verif.Lemmas.OneDim.Reach
import Verif.Props.OneDim.Certificate

/-!
# The bin positions of the branching scheme, and running builder calls
-/

namespace PackingSolver.OneDim.Scheme

open PackingSolver.OneDim OneDim.Spec

variable {inst : Instance}

/-! ### Builder calls that succeed -/

/-- Builder calls starting with `nb` bins that refer to existing bins and bin types. -/
def ValidOps (inst : Instance) : Nat → List BuilderOp → Prop
  | _, [] => True
  | nb, .addBin t _ :: ops => t < inst.numberOfBinTypes ∧ ValidOps inst (nb + 1) ops
  | nb, .addItem k _ :: ops => k < nb ∧ ValidOps inst nb ops

theorem steps_valid (ops : List BuilderOp) (sb : SolutionBuilder)
    (h : ValidOps inst sb.sol.bins.length ops) :
    ∃ sb', ops.foldlM (SolutionBuilder.step inst) sb = .ok sb' := by
  induction ops generalizing sb with
  | nil => exact ⟨sb, rfl⟩
  | cons op ops ih =>
    cases op with
    | addBin t c =>
      obtain ⟨h1, h2⟩ := h
      have hs : SolutionBuilder.step inst sb (.addBin t c) = .ok
          ⟨{ sb.sol with bins := sb.sol.bins ++ [{ binTypeId := t, copies := c }] }⟩ := by
        simp only [SolutionBuilder.step, SolutionBuilder.addBin]
        rw [if_pos h1]
      obtain ⟨sb', h'⟩ := ih ⟨{ sb.sol with bins := sb.sol.bins ++ [{ binTypeId := t, copies := c }] }⟩
        (by simpa using h2)
      exact ⟨sb', foldlM_cons_ok.mpr ⟨_, hs, h'⟩⟩
    | addItem k i =>
      obtain ⟨h1, h2⟩ := h
      have hs : ∃ sb1, SolutionBuilder.step inst sb (.addItem k i) = .ok sb1
          ∧ sb1.sol.bins.length = sb.sol.bins.length := by
        simp only [SolutionBuilder.step, SolutionBuilder.addItem]
        rw [if_neg (by omega)]
        exact ⟨_, rfl, by simp⟩
      obtain ⟨sb1, hs1, hl⟩ := hs
      obtain ⟨sb', h'⟩ := ih sb1 (by rw [hl]; exact h2)
      exact ⟨sb', foldlM_cons_ok.mpr ⟨_, hs1, h'⟩⟩

theorem validOps_append (a b : List BuilderOp) (nb : Nat) (m : Nat)
    (hm : m = nb + (a.countP fun op => match op with | .addBin _ _ => true | _ => false)) :
    ValidOps inst nb (a ++ b) ↔ ValidOps inst nb a ∧ ValidOps inst m b := by
  induction a generalizing nb with
  | nil => simp at hm; subst hm; simp [ValidOps]
  | cons op a ih =>
    cases op with
    | addBin t c =>
      simp only [List.cons_append, ValidOps]
      rw [ih (nb + 1) (by rw [hm]; simp; omega)]
      tauto
    | addItem k i =>
      simp only [List.cons_append, ValidOps]
      rw [ih nb (by rw [hm]; simp)]
      tauto

/-- Valid calls whose packing refers to existing types build a solution. -/
theorem runOps_valid (ops : List BuilderOp) (h : ValidOps inst 0 ops)
    (hp : WellTyped inst (opsPacking ops)) :
    ∃ s, SolutionBuilder.runOps inst ops = .ok s ∧ packingOf s = opsPacking ops := by
  obtain ⟨sb, h1⟩ := steps_valid ops (SolutionBuilder.new inst) h
  have hr := raw_ops _ _ h1
  have hlen : sb.sol.bins.length = (opsPacking ops).length := by rw [← hr.view]; simp [binsView]
  obtain ⟨s, hs⟩ := CertificateLemmas.build_progress hr hp (opsPacking ops).length (le_refl _)
  have hrun : SolutionBuilder.runOps inst ops = .ok s := by
    unfold SolutionBuilder.runOps
    exact bind_ok.mpr ⟨sb, h1, by unfold SolutionBuilder.build; rw [hlen]; exact hs⟩
  exact ⟨s, hrun, (build_ok ops s (fun b hb => (hp b hb).2.1) hrun).1.2⟩

/-! ### Positions -/

theorem schemeOrder_perm (inst : Instance) :
    (schemeOrder inst).Perm (List.range inst.numberOfBinTypes) := by
  unfold schemeOrder
  split_ifs
  · exact List.perm_insertionSort _ _
  · exact List.Perm.refl _

theorem schemeBins_mem {t : Nat} (h : t ∈ schemeBins inst) : t < inst.numberOfBinTypes := by
  unfold schemeBins at h
  obtain ⟨u, hu, ht⟩ := List.mem_flatMap.mp h
  rw [(List.mem_replicate.mp ht).2]
  exact List.mem_range.mp ((schemeOrder_perm inst).subset hu)

theorem binPositions_eq (bins : List BinType) :
    binPositions bins = (List.range bins.length).flatMap
      fun t => List.replicate (bins.getD t default).copies.toNat t := by
  induction bins using List.reverseRecOn with
  | nil => simp [binPositions]
  | append_singleton l b ih =>
    have : binPositions (l ++ [b]) = binPositions l ++ List.replicate b.copies.toNat l.length := by
      unfold binPositions
      rw [List.zipIdx_append, List.flatMap_append]
      simp
    rw [this, ih, List.length_append, List.length_singleton, List.range_succ, List.flatMap_append]
    congr 1
    · refine List.flatMap_congr fun t ht => ?_
      rw [List.getD_append _ _ _ _ (List.mem_range.mp ht)]
    · simp

theorem schemeBins_perm (ha : inst.binTypeIds = binPositions inst.binTypes) :
    (schemeBins inst).Perm inst.binTypeIds := by
  rw [ha, binPositions_eq]
  exact (schemeOrder_perm inst).flatMap_right _

theorem schemeBins_length (ha : inst.binTypeIds = binPositions inst.binTypes) :
    (schemeBins inst).length = inst.numberOfBins := (schemeBins_perm ha).length_eq

theorem schemeBins_getD {k : Nat} (h : k < (schemeBins inst).length) :
    (schemeBins inst).getD k 0 < inst.numberOfBinTypes := by
  rw [List.getD_eq_getElem _ _ h]
  exact schemeBins_mem (List.getElem_mem h)

theorem schemePrevious_aux (l : List Nat) (f : Nat → Int) :
    (l.foldl (fun s t => (s.1 ++ [s.2], s.2 + f t)) (([] : List Int), (0 : Int)))
      = ((List.range l.length).map fun k => ((l.take k).map f).sum, (l.map f).sum) := by
  induction l using List.reverseRecOn with
  | nil => rfl
  | append_singleton l a ih =>
    rw [List.foldl_append, ih]
    simp only [List.foldl_cons, List.foldl_nil, List.length_append, List.length_singleton,
      List.range_succ, List.map_append, List.map_cons, List.map_nil, List.sum_append,
      List.sum_singleton]
    refine Prod.ext ?_ rfl
    simp only
    congr 1
    · refine List.map_congr_left fun k hk => ?_
      rw [List.take_append_of_le_length (le_of_lt (List.mem_range.mp hk))]
    · simp

theorem schemePrevious_getD {k : Nat} (h : k < (schemeBins inst).length) :
    (schemePrevious inst).getD k 0
      = (((schemeBins inst).take k).map fun t => (inst.binType t).length).sum := by
  unfold schemePrevious
  rw [schemePrevious_aux]
  simp only
  rw [List.getD_eq_getElem _ _ (by simpa using h)]
  simp

/-! ### Bin type order -/

theorem flatMap_count (f : Nat → Nat) (n t : Nat) :
    ((List.range n).flatMap fun u => List.replicate (f u) u).count t = if t < n then f t else 0 := by
  induction n with
  | zero => simp
  | succ n ih =>
    rw [List.range_succ, List.flatMap_append, List.count_append, ih]
    simp only [List.flatMap_cons, List.flatMap_nil, List.append_nil, List.count_replicate]
    by_cases h : t = n
    · subst h; simp
    · have h' : ¬ n = t := fun e => h e.symm
      simp only [beq_iff_eq, h', if_false, add_zero]
      by_cases h2 : t < n
      · rw [if_pos h2, if_pos (by omega)]
      · rw [if_neg h2, if_neg (by omega)]

theorem flatMap_sorted (f : Nat → Nat) (n : Nat) :
    ((List.range n).flatMap fun u => List.replicate (f u) u).Pairwise (· ≤ ·) := by
  induction n with
  | zero => simp
  | succ n ih =>
    rw [List.range_succ, List.flatMap_append, List.pairwise_append]
    refine ⟨ih, ?_, ?_⟩
    · simp [List.pairwise_replicate]
    · intro a ha b hb
      obtain ⟨u, hu, ha⟩ := List.mem_flatMap.mp ha
      rw [(List.mem_replicate.mp ha).2]
      simp only [List.flatMap_cons, List.flatMap_nil, List.append_nil, List.mem_replicate] at hb
      have := List.mem_range.mp hu
      omega

theorem binCopies_count {p : Packing} (h1 : ∀ b ∈ p, b.copies = 1) (t : Nat) :
    binCopies p t = ((p.map (·.binTypeId)).count t : Int) := by
  induction p with
  | nil => simp [binCopies]
  | cons b p ih =>
    have := ih fun b hb => h1 b (by simp [hb])
    simp only [binCopies, List.map_cons, List.sum_cons, List.count_cons, beq_iff_eq] at this ⊢
    rw [this, h1 b (by simp)]
    split_ifs <;> simp; omega

/-- Bins taken in the order of the instance respect the bin type order. -/
theorem prefix_order (ho : inst.objective ≠ .knapsack)
    (hc : ∀ b ∈ inst.binTypes, 0 ≤ b.copies) {p : Packing} {m : Nat}
    (hp : p.map (·.binTypeId) = (schemeBins inst).take m) (h1 : ∀ b ∈ p, b.copies = 1) :
    OrderOk inst p := by
  intro t u htu hu hpos
  rw [binCopies_count h1] at hpos ⊢
  have hs : schemeBins inst = (List.range inst.numberOfBinTypes).flatMap
      fun t => List.replicate (inst.binType t).copies.toNat t := by
    unfold schemeBins schemeOrder
    rw [if_neg ho]
  have hsort : (schemeBins inst).Pairwise (· ≤ ·) := by rw [hs]; exact flatMap_sorted _ _
  have hcount : (schemeBins inst).count t = (inst.binType t).copies.toNat := by
    rw [hs, flatMap_count (fun t => (inst.binType t).copies.toNat), if_pos (by omega)]
  have hum : u ∈ (schemeBins inst).take m := by
    rw [hp] at hpos
    exact List.count_pos_iff.mp (by exact_mod_cast hpos)
  have hnot : ((schemeBins inst).drop m).count t = 0 := by
    rw [List.count_eq_zero]
    intro ht
    rw [← List.take_append_drop m (schemeBins inst), List.pairwise_append] at hsort
    have := hsort.2.2 u hum t ht
    omega
  have hsum : ((schemeBins inst).take m).count t = (schemeBins inst).count t := by
    conv_rhs => rw [← List.take_append_drop m (schemeBins inst), List.count_append, hnot]
    rfl
  rw [hp, hsum, hcount]
  have := hc _ (binType_mem inst (show t < inst.numberOfBinTypes by omega))
  omega

end PackingSolver.OneDim.Scheme
