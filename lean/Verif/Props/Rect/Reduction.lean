import Verif.Lemmas.Rect.ReduceBuilt
import Verif.Props.Rect.Build

/-!
# Rectangle bin packing: what the reduction keeps

`optimize` replaces a bin packing, variable-sized bin packing or feasibility instance by a reduced
one: small items are absorbed by bigger ones and some bins are set aside ("dedicated").  A user
relies on the translated bounds and on the verdict "infeasible".
-/

namespace PackingSolver.Rect.Reduction

open InstanceBuilder Rect.Spec FlipLemmas

/-- The bin type is as in the instance. -/
theorem applies_one {inst : Instance} (h : applies inst = true) : inst.numberOfBinTypes = 1 := by
  unfold applies at h
  simp only [Bool.and_eq_true, decide_eq_true_eq] at h
  exact h.1.1.1.1.2

theorem envOf_sizes {ops : List Op} {inst : Instance} (hb : runOps ops = .ok inst)
    (hn : ∀ t ∈ inst.itemTypes, 0 ≤ t.copies) :
    ∀ t ∈ inst.itemTypes, 0 < t.x ∧ 0 < t.y ∧ 0 ≤ t.copies :=
  fun t ht => ⟨((build_sizes_partial hb).items t ht).1, ((build_sizes_partial hb).items t ht).2.1,
    hn t ht⟩

theorem shrunk_le {inst : Instance} (h0 : 0 < (inst.binType 0).x ∧ 0 < (inst.binType 0).y) :
    (shrunk inst).1 ≤ (inst.binType 0).x ∧ (shrunk inst).2 ≤ (inst.binType 0).y := by
  unfold shrunk
  split_ifs
  · exact ⟨by dsimp only; omega, by dsimp only; omega⟩
  · exact ⟨le_refl _, le_refl _⟩
  · exact ⟨maxSum_le inst (by omega) true, maxSum_le inst (by omega) false⟩

/-- Everything at once: the packing of the reduced instance, the last state of the reduction and
the reduced instance. -/
theorem reduce_inv {ops : List Op} {inst : Instance} {ar : Around} {r : Result}
    {bins : List (List PlacedItem)}
    (hb : runOps ops = .ok inst) (ha : applies inst = true)
    (hn : ∀ t ∈ inst.itemTypes, 0 ≤ t.copies) (hA : Trusted ar)
    (hT : NoTurning inst (shrunk inst).1 (shrunk inst).2)
    (h : reduce ar inst = .ok r) (hf : FullPacking inst bins) :
    Inv (envOf ar inst) bins.length r.st ∧ IsReduced inst r.st r.reduced
      ∧ r.original = inst ∧ r.provenInfeasible = infeasible inst r.st := by
  unfold reduce at h
  obtain ⟨st, h1, h⟩ := bind_ok.mp h
  obtain ⟨red, h2, h⟩ := bind_ok.mp h
  cases h
  refine ⟨rounds_inv ⟨hA.solve, hA.sort, hT⟩ h1 ?_, reducedOps_built h2, rfl, rfl⟩
  exact start_inv (env := envOf ar inst) (envOf_sizes hb hn) (applies_one ha) rfl rfl hf

/-- **C106** (partial: no item may be both bigger than half of the bin and turned out of that
position, see `reduction_bound_unsound`): whatever the solver and the timer the reduction consults
answer, and however ties are sorted, every packing of the instance becomes a packing of the reduced
instance in at most as many bins as remain after the dedicated ones are set aside. -/
theorem reduction_keeps_packings_partial {ops : List Op} {inst : Instance} {ar : Around} {r : Result}
    {bins : List (List PlacedItem)}
    (hb : runOps ops = .ok inst) (ha : applies inst = true)
    (hn : ∀ t ∈ inst.itemTypes, 0 ≤ t.copies) (hA : Trusted ar)
    (hT : NoTurning inst (shrunk inst).1 (shrunk inst).2)
    (h : reduce ar inst = .ok r) (hf : FullPacking inst bins) :
    ∃ bins', FullPacking r.reduced bins'
      ∧ (bins'.length : Int) + r.dedicated ≤ bins.length := by
  obtain ⟨hI, hR, -, -⟩ := reduce_inv hb ha hn hA hT h hf
  obtain ⟨bs, hp, hl⟩ := hI.packs
  have hle := shrunk_le hR.positive
  obtain ⟨bins', hf', hl'⟩ := packs_reduced (env := envOf ar inst) hle.1 hle.2 hR hp
  exact ⟨bins', hf', by rw [hl']; exact hl⟩

/-- Instances without rotatable items meet the condition on turned items. -/
theorem noTurning_of_oriented {inst : Instance} (ho : ∀ t ∈ inst.itemTypes, t.oriented = true)
    (w h : Int) : NoTurning inst w h :=
  fun t ht hf => by rw [ho t ht] at hf; cases hf

/-- **C106** for instances whose items may not be rotated. -/
theorem reduction_keeps_oriented_packings {ops : List Op} {inst : Instance} {ar : Around}
    {r : Result} {bins : List (List PlacedItem)}
    (hb : runOps ops = .ok inst) (ha : applies inst = true)
    (hn : ∀ t ∈ inst.itemTypes, 0 ≤ t.copies) (hA : Trusted ar)
    (ho : ∀ t ∈ inst.itemTypes, t.oriented = true)
    (h : reduce ar inst = .ok r) (hf : FullPacking inst bins) :
    ∃ bins', FullPacking r.reduced bins'
      ∧ (bins'.length : Int) + r.dedicated ≤ bins.length :=
  reduction_keeps_packings_partial hb ha hn hA (noTurning_of_oriented ho _ _) h hf

/-- **C107** (partial as C106): a lower bound on the number of bins of the reduced instance is
reported as a lower bound on the number of bins of the instance. -/
theorem reported_bound_sound_partial {ops : List Op} {inst : Instance} {ar : Around} {r : Result}
    {b : Int}
    (hb : runOps ops = .ok inst) (ha : applies inst = true)
    (hn : ∀ t ∈ inst.itemTypes, 0 ≤ t.copies) (hA : Trusted ar)
    (hT : NoTurning inst (shrunk inst).1 (shrunk inst).2)
    (h : reduce ar inst = .ok r)
    (hlb : ∀ bins', FullPacking r.reduced bins' → b ≤ bins'.length)
    {bins : List (List PlacedItem)} (hf : FullPacking inst bins) :
    r.bound b ≤ bins.length := by
  obtain ⟨bins', hf', hl⟩ := reduction_keeps_packings_partial hb ha hn hA hT h hf
  have h1 := hlb _ hf'
  have h0 : 0 ≤ r.dedicated := (reduce_inv hb ha hn hA hT h hf).1.ded
  unfold Result.bound
  split_ifs with hd
  · omega
  · omega

/-- **C107** (partial as C106), costs: a lower bound on the cost of the bins of the reduced
instance is reported as a lower bound on the cost of the bins of the instance. -/
theorem reported_cost_bound_sound_partial {ops : List Op} {inst : Instance} {ar : Around}
    {r : Result} {b : ℚ}
    (hb : runOps ops = .ok inst) (ha : applies inst = true)
    (hn : ∀ t ∈ inst.itemTypes, 0 ≤ t.copies) (hA : Trusted ar)
    (hT : NoTurning inst (shrunk inst).1 (shrunk inst).2)
    (hc : 0 ≤ (inst.binType 0).cost)
    (h : reduce ar inst = .ok r)
    (hlb : ∀ bins', FullPacking r.reduced bins' → b ≤ bins'.length * (r.reduced.binType 0).cost)
    {bins : List (List PlacedItem)} (hf : FullPacking inst bins) :
    r.costBound b ≤ bins.length * (inst.binType 0).cost := by
  obtain ⟨bins', hf', hl⟩ := reduction_keeps_packings_partial hb ha hn hA hT h hf
  have h1 := hlb _ hf'
  obtain ⟨hI, hR, ho, -⟩ := reduce_inv hb ha hn hA hT h hf
  have h0 : 0 ≤ r.dedicated := hI.ded
  rw [hR.cost (by intro h; rw [h] at hc; norm_num at hc)] at h1
  have hq : (bins'.length : ℚ) + (r.dedicated : ℚ) ≤ bins.length := by exact_mod_cast hl
  have hq0 : (0 : ℚ) ≤ r.dedicated := by exact_mod_cast h0
  unfold Result.costBound
  rw [ho]
  split_ifs with hd
  · nlinarith
  · nlinarith

theorem remaining_zero {inst : Instance} {st : State} (hs : survivors st = []) :
    remainingItems inst st = 0 := by
  have hr : ∀ i ∈ List.range st.items.length, (st.item i).removed = true := by
    intro i hi
    by_contra hc
    have : i ∈ survivors st := by
      unfold survivors
      rw [List.mem_filter]; exact ⟨hi, by simpa using hc⟩
    rw [hs] at this; cases this
  unfold remainingItems
  generalize List.range st.items.length = l at hr
  induction l with
  | nil => rfl
  | cons i l ih =>
    rw [List.foldl_cons, if_pos (hr i List.mem_cons_self)]
    exact ih (fun j hj => hr j (List.mem_cons_of_mem _ hj))

/-- **C108** (partial as C106): an instance that the reduction declares infeasible has no packing
in the bins it has. -/
theorem proven_infeasible_sound_partial {ops : List Op} {inst : Instance} {ar : Around}
    {r : Result}
    (hb : runOps ops = .ok inst) (ha : applies inst = true)
    (hn : ∀ t ∈ inst.itemTypes, 0 ≤ t.copies) (hA : Trusted ar)
    (hT : NoTurning inst (shrunk inst).1 (shrunk inst).2)
    (h : reduce ar inst = .ok r) (hi : r.provenInfeasible = true) :
    ¬ ∃ bins, FullPacking inst bins ∧ (bins.length : Int) ≤ (inst.binType 0).copies := by
  rintro ⟨bins, hf, hle⟩
  obtain ⟨hI, hR, -, he⟩ := reduce_inv hb ha hn hA hT h hf
  obtain ⟨bins', hf', hl⟩ := reduction_keeps_packings_partial hb ha hn hA hT h hf
  rw [he] at hi
  unfold infeasible at hi
  simp only [Bool.and_eq_true, decide_eq_true_eq, Bool.not_eq_true', decide_eq_false_iff_not] at hi
  have hs : survivors r.st ≠ [] := fun hs => hi.2 (remaining_zero hs)
  change (bins'.length : Int) + r.st.dedicated ≤ _ at hl
  have h0 : bins' = [] := by
    cases bins' with
    | nil => rfl
    | cons b bs =>
      have : (((b :: bs).length : Nat) : Int) ≥ 1 := by simp
      omega
  have h1 : 0 < r.reduced.numberOfItemTypes := by
    rw [hR.items]; exact List.length_pos_of_ne_nil hs
  have h2 := hf'.all 0 h1
  rw [hR.items] at h1
  have hm : (survivors r.st)[0] ∈ survivors r.st := List.getElem_mem h1
  have h3 := hR.copies _ hm
  have h4 := hI.pos (survivors r.st)[0] (by
    unfold survivors at hm; exact List.mem_range.mp (List.mem_filter.mp hm).1)
  rw [h0, (hR.item 0 h1).2.2.2] at h2
  have h5 : count ([] : List (List PlacedItem)).flatten 0 = 0 := rfl
  rw [h5] at h2
  omega

end PackingSolver.Rect.Reduction
