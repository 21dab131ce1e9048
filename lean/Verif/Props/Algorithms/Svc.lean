import Verif.Lemmas.Algorithms.SvcLoop
import Verif.Lemmas.OneDim.Copy
import Verif.Model.OneDim.SvcKnapsack
import Verif.Props.OneDim.Examples

/-!
# C35: sequential value correction
-/

namespace PackingSolver.Svc

open PackingSolver.Svc.Spec PackingSolver.Svc.SvcLemmas

/-- A concrete instance: two bins of type 0, one mandatory bin of type 1, three items of type 0
and one of type 1. -/
def exInst (o : Objective) : InstanceData :=
  { objective := o
    binTypes := [{ copies := 2, space := 10 }, { copies := 1, copiesMin := 1, space := 12 }]
    itemCopies := [3, 1] }

/-- A sub-solver that packs one item of the first offered type. -/
def exOracle : Oracle :=
  { kp := fun _ _ _ q =>
      if q 0 > 0 then some ([0], 5) else if q 1 > 0 then some ([1], 4) else none
    leftovers := fun _ _ _ _ => none
    ends := fun _ _ _ => false
    goal := fun _ _ => false }

theorem exInst_valid (o : Objective) : ValidInstance (exInst o) := by
  refine ⟨?_, ?_, fun i => ?_⟩
  · intro t ht
    simp only [exInst, List.mem_cons, List.not_mem_nil, or_false] at ht
    rcases ht with rfl | rfl <;> decide
  · intro c hc
    simp only [exInst, List.mem_cons, List.not_mem_nil, or_false] at hc
    rcases hc with rfl | rfl <;> decide
  · have : (exInst o).copiesFixed i = 0 := by simp [exInst, InstanceData.copiesFixed]
    rw [this]
    match i with
    | 0 => simp [exInst]
    | 1 => simp [exInst]
    | i + 2 => simp [exInst]

theorem exOracle_feasible (o : Objective) : FeasibleAnswers (exInst o) exOracle := by
  refine ⟨?_, by simp [exOracle]⟩
  intro it st t q p hq hp i
  have hqi := hq i
  simp only [exOracle] at hp
  split_ifs at hp with h0 h1
  · cases hp
    match i with
    | 0 => exact ⟨by simp; omega, fun _ => by simp [exInst]⟩
    | i + 1 => exact ⟨by simpa using hqi, by simp⟩
  · cases hp
    match i with
    | 0 => exact ⟨by simpa using hqi, by simp⟩
    | 1 => exact ⟨by simp; omega, fun _ => by simp [exInst]⟩
    | i + 2 => exact ⟨by simpa using hqi, by simp⟩

/-- Bin packing: the three bins of the instance in order, one item each. -/
theorem exRun_binPacking : (run (exInst .binPacking) exOracle (some 1) 2)
    = ([[⟨0, 2, [0]⟩, ⟨1, 1, [0]⟩]], .returned) := by decide +kernel

/-- Variable-sized bin packing: the mandatory bin comes first. -/
theorem exRun_variableSized : (run (exInst .variableSizedBinPacking) exOracle (some 1) 2)
    = ([[⟨1, 1, [0]⟩, ⟨0, 2, [0]⟩]], .returned) := by decide +kernel

/-! ### C35 -/

/-- C35 (within the copies). Whatever the sub-solver answers, as long as no answer uses an item
type more often than it was offered, every solution that sequential value correction emits uses
each bin type and each item type at most as many times as it is available. -/
theorem svc_within_copies {inst : InstanceData} {o : Oracle} (hv : ValidInstance inst)
    (ho : FeasibleAnswers inst o) (maximum : Option Nat) (fuel : Nat) :
    ∀ s ∈ (run inst o maximum fuel).1, WithinCopies inst s := fun s hs =>
  ((run_facts hv ho (answers_true o) maximum fuel).1 s hs).within

/-- C35 (bins come from the sub-solver). Any condition satisfied by an empty bin and by every
bin that the sub-solver returns for a bin type holds for every bin of every emitted solution:
in particular, if the sub-solver respects the constraints on a single bin, so do the emitted
solutions. -/
theorem svc_bins_from_answers {inst : InstanceData} {o : Oracle} (hv : ValidInstance inst)
    (ho : FeasibleAnswers inst o) (P : Nat → List Nat → Prop) (hP : AnswersSatisfy o P)
    (maximum : Option Nat) (fuel : Nat) :
    ∀ s ∈ (run inst o maximum fuel).1, ∀ b ∈ s, P b.typeId b.items := fun s hs =>
  ((run_facts hv ho hP maximum fuel).1 s hs).pred

/-- C35 (order of the bins). For every objective other than variable-sized bin packing and
knapsack, the bins of an emitted solution are the first bins of the instance, in order. -/
theorem svc_bin_order {inst : InstanceData} {o : Oracle} (hv : ValidInstance inst)
    (ho : FeasibleAnswers inst o) (h1 : inst.objective ≠ .variableSizedBinPacking)
    (h2 : inst.objective ≠ .knapsack) (maximum : Option Nat) (fuel : Nat) :
    ∀ s ∈ (run inst o maximum fuel).1, binSequence s <+: allBins inst := by
  intro s hs
  have h := ((run_facts hv ho (answers_true o) maximum fuel).1 s hs).ordered h1
  have e : binTypeIdsByPosition inst = allBins inst := by
    unfold binTypeIdsByPosition allBins
    rw [if_neg h2]
  rw [e] at h
  rw [h]
  exact List.take_prefix _ _

/-- C35 (termination). With a maximum number of iterations, the algorithm stops by itself. -/
theorem svc_terminates {inst : InstanceData} {o : Oracle} (hv : ValidInstance inst)
    (ho : FeasibleAnswers inst o) (m : Nat) :
    (run inst o (some m) (m + 1)).2 ≠ .running :=
  (run_facts hv ho (answers_true o) (some m) (m + 1)).2.2 m rfl (by omega)

/-- C35 (each iteration ends). The inner loop leaves after at most one pass more than there are
bins. -/
theorem svc_inner_loop_ends {inst : InstanceData} {o : Oracle} (hv : ValidInstance inst)
    (ho : FeasibleAnswers inst o) (it fuel : Nat) (hf : inst.numberOfBins < fuel) :
    (innerLoop inst o it fuel {}).2 ≠ .running := by
  intro h
  have hf' := innerLoop_facts hv ho (answers_true o) (it := it) fuel {}
    (loopInv_init hv (fun _ => trivial) (by simp))
  dsimp only at hf'
  obtain ⟨f1, f2, -, -⟩ := hf'
  have h1 := f2 h
  have h2 := numberOfBins_le inst _ (fun b hb => (f1.step.inv.types b hb).1)
    f1.step.inv.copies
  have h3 : numberOfBins ([] : List Bin) = 0 := rfl
  rw [h3] at h1
  omega

/-- C35 (no exception). If no bin type has more than one mandatory copy, the algorithm throws
nothing: the internal checks on the number of copies and the accesses by position succeed.
The condition is needed: see `svc_throws`. -/
theorem svc_no_exception_partial {inst : InstanceData} {o : Oracle} (hv : ValidInstance inst)
    (ho : FeasibleAnswers inst o) (hmin : ∀ t ∈ inst.binTypes, t.copiesMin ≤ 1)
    (maximum : Option Nat) (fuel : Nat) (e : Err) :
    (run inst o maximum fuel).2 ≠ .threw e := by
  intro h
  rcases (run_facts hv ho (answers_true o) maximum fuel).2.1 with h1 | h1 | ⟨-, t, ht, hm⟩
  · rw [h1] at h; cases h
  · rw [h1] at h; cases h
  · have := hmin (inst.binType t) (by
      unfold InstanceData.binType
      rw [List.getD_eq_getElem _ _ ht]
      exact List.getElem_mem ht)
    omega

/-- Even in general, the only possible exception is the `invalid_argument` of
`set_bin_type_copies`: the `logic_error`s of the algorithm are unreachable. -/
theorem svc_no_logic_error {inst : InstanceData} {o : Oracle} (hv : ValidInstance inst)
    (ho : FeasibleAnswers inst o) (maximum : Option Nat) (fuel : Nat) (e : Err)
    (h : (run inst o maximum fuel).2 = .threw e) : e = .invalidArgument := by
  rcases (run_facts hv ho (answers_true o) maximum fuel).2.1 with h1 | h1 | ⟨h1, -⟩
  · rw [h1] at h; cases h
  · rw [h1] at h; cases h
  · rw [h1] at h; cases h; rfl

/-- C35 (nothing left behind). For every objective other than variable-sized bin packing, each
emitted solution packs all the items or uses all the bins of the instance. -/
theorem svc_complete {inst : InstanceData} {o : Oracle} (hv : ValidInstance inst)
    (ho : FeasibleAnswers inst o) (h1 : inst.objective ≠ .variableSizedBinPacking)
    (maximum : Option Nat) (fuel : Nat) : ∀ s ∈ (run inst o maximum fuel).1,
      numberOfItems s = inst.numberOfItems ∨ numberOfBins s = inst.numberOfBins := fun s hs =>
  ((run_facts hv ho (answers_true o) maximum fuel).1 s hs).complete h1

/-- C35 (every iteration counts). If nothing ends the algorithm early, `m` iterations emit at
least `m` solutions. -/
theorem svc_emits {inst : InstanceData} {o : Oracle} (hv : ValidInstance inst)
    (ho : FeasibleAnswers inst o) (hmin : ∀ t ∈ inst.binTypes, t.copiesMin ≤ 1)
    (hitems : inst.itemCopies ≠ [])
    (hends : ∀ it st k, o.ends it st k = false) (hgoal : ∀ it st, o.goal it st = false)
    (m : Nat) : m ≤ (run inst o (some m) (m + 1)).1.length := by
  unfold run
  rw [if_neg (by rwa [List.length_eq_zero_iff])]
  have := outerLoop_length hv ho (fun t ht => hmin _ (by
    unfold InstanceData.binType
    rw [List.getD_eq_getElem _ _ ht]
    exact List.getElem_mem ht)) hends hgoal m (m + 1) 0 [] (by simp) (by omega) (by omega)
  simpa using this

/-! ### Where the expectation fails -/

/-- C35 is false as soon as bins are mandatory in several copies: if every bin type has at least
two mandatory copies, the algorithm throws `invalid_argument` before it packs anything, although
the instance is valid and the sub-solver is never at fault. -/
theorem svc_throws {inst : InstanceData} {o : Oracle} (hv : ValidInstance inst)
    (hmin : ∀ t ∈ inst.binTypes, 2 ≤ t.copiesMin) (hbins : inst.binTypes ≠ [])
    (hitems : 0 < inst.numberOfItems) (hends : ∀ it st k, o.ends it st k = false)
    (maximum : Option Nat) (hmax : maximum ≠ some 0) (fuel : Nat) :
    run inst o maximum (fuel + 1) = ([], .threw .invalidArgument) := by
  have hlen : 0 < inst.binTypes.length := List.length_pos_iff.2 hbins
  have hmin' : ∀ t < inst.binTypes.length, 2 ≤ (inst.binType t).copiesMin := fun t ht => hmin _ (by
    unfold InstanceData.binType
    rw [List.getD_eq_getElem _ _ ht]
    exact List.getElem_mem ht)
  have hnb : (0 : Int) < inst.numberOfBins := by
    unfold InstanceData.numberOfBins
    obtain ⟨a, l, e⟩ := List.exists_cons_of_ne_nil hbins
    have hv' := hv.copies
    rw [e] at hv' hmin ⊢
    rw [List.map_cons, List.sum_cons]
    have h1 := hv' a List.mem_cons_self
    have h2 := hmin a List.mem_cons_self
    have h3 := sum_copies_nonneg l fun t ht => (hv' t (List.mem_cons_of_mem _ ht)).1
    omega
  have hne : inst.itemCopies.length ≠ 0 := by
    intro h
    rw [List.length_eq_zero_iff] at h
    unfold InstanceData.numberOfItems at hitems
    rw [h] at hitems
    exact absurd hitems (by simp)
  have hstep : step inst o 0 {} = ({}, .threw .invalidArgument) := by
    unfold step
    rw [hends, if_neg (by simp)]
    have e1 : numberOfItems ([] : List Bin) = 0 := rfl
    have e2 : numberOfBins ([] : List Bin) = 0 := rfl
    rw [if_neg (by dsimp only; rw [e1]; omega), if_neg (by dsimp only; rw [e2]; omega)]
    obtain ⟨ids, hids, hc, hpos⟩ := candidates_facts hv (st := {}) (by simp)
      (fun t => (binType_copies_nonneg hv t).1) (fun _ => by simp [binSequence])
      (by dsimp only; rw [e2]; omega)
    rw [hids]
    dsimp only
    have hids_ne : ids ≠ [] := by
      by_cases hobj : inst.objective = .variableSizedBinPacking
      · intro he
        rw [he] at hids
        unfold candidates at hids
        rw [if_pos hobj] at hids
        split at hids
        · cases hids
        · simp only [Except.ok.injEq, List.filter_eq_nil_iff] at hids
          have h0 := hids 0 (List.mem_range.2 hlen)
          have h1 := (binType_copies_nonneg hv 0).2 hlen
          have h2 := hmin' 0 hlen
          simp only [decide_eq_true_eq, not_not] at h0
          have h3 : binCopies ([] : List Bin) 0 = 0 := rfl
          omega
      · obtain ⟨t, e, -⟩ := hpos hobj
        rw [e]; simp
    obtain ⟨t, ts, rfl⟩ := List.exists_cons_of_ne_nil hids_ne
    have htry : tryBinType inst o 0 {} t = ({}, .threw .invalidArgument) := by
      unfold tryBinType
      dsimp only
      rw [if_neg (by simp), if_pos]
      have := hmin' t (hc t List.mem_cons_self).1
      omega
    unfold tryBinTypes
    rw [htry]
  unfold run
  rw [if_neg hne]
  unfold outerLoop
  rw [if_neg hmax]
  unfold iteration
  unfold innerLoop
  rw [hstep]

/-- The same in terms of the builder of one-dimensional instances: the sub-instance for a bin
type with at least two mandatory copies cannot be built. -/
theorem svc_knapsack_instance_fails {inst : OneDim.Instance} {t : Nat}
    (hcost : 0 < (inst.binType t).cost) (hmin : 2 ≤ (inst.binType t).copiesMin)
    (items : List (Nat × ℚ × Int)) (kp : OneDim.Instance) :
    OneDim.svcKnapsackInstance inst t items ≠ .ok kp := by
  intro h
  unfold OneDim.svcKnapsackInstance OneDim.InstanceBuilder.runOps at h
  obtain ⟨b, h1, -⟩ := bind_ok.mp h
  obtain ⟨b1, h2, h3⟩ := foldlM_cons_ok.mp h1
  obtain ⟨b2, h4, -⟩ := foldlM_cons_ok.mp h3
  obtain ⟨-, rfl⟩ := OneDim.addBinTypeFrom_ok hcost h2
  generalize hB : OneDim.withBinTypes _ _ = b0 at h4
  have hbt : b0.inst.binType 0 = OneDim.copyBin (inst.binType t) := by rw [← hB]; rfl
  replace h4 : b0.setBinTypeCopies 0 1 = .ok b2 := h4
  unfold OneDim.InstanceBuilder.setBinTypeCopies at h4
  obtain ⟨-, y, hy, -⟩ := OneDim.modifyBin_ok h4
  rw [hbt, if_pos] at hy
  · cases hy
  · refine ⟨by decide, .inr ?_⟩
    show (inst.binType t).copiesMin > 1
    omega

/-- One mandatory bin that can hold nothing, and one bin that can hold the only item. -/
def breakInst : InstanceData :=
  { objective := .variableSizedBinPacking
    binTypes := [{ copies := 1, copiesMin := 1, space := 1 }, { copies := 1, space := 10 }]
    itemCopies := [1] }

/-- A correct sub-solver for `breakInst`. -/
def breakOracle : Oracle :=
  { exOracle with kp := fun _ _ t q => if t = 1 ∧ q 0 > 0 then some ([0], 5) else none }

theorem break_iteration (it : Nat) (em : List (List Bin)) :
    iteration breakInst breakOracle it em = (em ++ [[]], .running) := by
  have h1 : candidates breakInst { emitted := em } = .ok [0] := rfl
  have h2 : tryBinTypes breakInst breakOracle it { emitted := em } [0]
      = ({ cur := Function.update (fun _ => ([], 0)) 0 ([], 0), emitted := em }, .running) := rfl
  have h3 : bestBinType breakInst
      { cur := Function.update (fun _ => ([], 0)) 0 ([], 0), emitted := em } [0] = none := by
    simp [bestBinType, ratio, ratioLt, breakInst, InstanceData.binType]
  have h4 : step breakInst breakOracle it { emitted := em }
      = ({ cur := Function.update (fun _ => ([], 0)) 0 ([], 0), emitted := em }, .finished) := by
    unfold step
    rw [h1]
    dsimp only
    rw [h2]
    dsimp only
    rw [h3]
    rfl
  unfold iteration innerLoop
  rw [h4]
  rfl

theorem break_loop (m : Nat) : ∀ (fuel it : Nat) (em : List (List Bin)), it + fuel = m + 1 →
    it ≤ m → (outerLoop breakInst breakOracle (some m) fuel it em).1
      = em ++ List.replicate (m - it) [] := by
  intro fuel
  induction fuel with
  | zero => intro it em h1 h2; omega
  | succ fuel ih =>
    intro it em h1 h2
    unfold outerLoop
    by_cases hm : some m = some it
    · rw [if_pos hm]
      cases hm
      simp
    · rw [if_neg hm, break_iteration]
      have hne : m ≠ it := fun e => hm (by rw [e])
      dsimp only
      rw [ih (it + 1) _ (by omega) (by omega), List.append_assoc]
      congr 1
      rw [show m - it = (m - (it + 1)) + 1 by omega, List.replicate_succ]
      rfl

/-- For variable-sized bin packing the algorithm gives up when the smallest mandatory bin is
useless, although the other bin type can hold the remaining items: the comment of
`sequential_value_correction.hpp:417–420` ("none of them being useful here genuinely does mean
none ever will be") is wrong while mandatory bins remain. -/
theorem svc_gives_up_on_mandatory_bin :
    ValidInstance breakInst ∧ FeasibleAnswers breakInst breakOracle ∧
    (∀ m, (run breakInst breakOracle (some (m + 1)) (m + 2)).1 = List.replicate (m + 1) []) ∧
    WithinCopies breakInst [⟨0, 1, []⟩, ⟨1, 1, [0]⟩] ∧
    numberOfItems [⟨0, 1, []⟩, ⟨1, 1, [0]⟩] = breakInst.numberOfItems ∧
    ∃ it st, (breakOracle.kp it st 1 fun _ => 1) = some ([0], 5) := by
  refine ⟨⟨by decide, by decide, fun i => ?_⟩, ⟨?_, by simp [breakOracle, exOracle]⟩, ?_,
    ⟨by decide, fun t => ?_, fun i => ?_⟩, by decide, 0, {}, by decide⟩
  · match i with
    | 0 => decide
    | i + 1 => simp [breakInst, InstanceData.copiesFixed]
  · intro it st t q p hq hp i
    have hqi := hq i
    simp only [breakOracle] at hp
    split_ifs at hp with h0
    · cases hp
      match i with
      | 0 => exact ⟨by simp; omega, fun _ => by simp [breakInst]⟩
      | i + 1 => exact ⟨by simpa using hqi, by simp⟩
  · intro m
    have := break_loop (m + 1) (m + 2) 0 [] (by omega) (by omega)
    rw [Nat.sub_zero, List.nil_append] at this
    exact this
  · match t with
    | 0 => decide
    | 1 => decide
    | t + 2 => simp [breakInst, binsUsed, InstanceData.binType]
  · match i with
    | 0 => decide
    | i + 1 => simp [breakInst, itemsUsed]

/-- **C35**: the bin type added has the largest value per cost among the bin types tried, where
a positive value at no cost is larger than anything else. -/
theorem svc_best_ratio {inst : InstanceData} {st : State} {ids : List Nat} {t : Nat}
    (hcost : ∀ t, 0 ≤ (inst.binType t).cost) (h : bestBinType inst st ids = some t) :
    t ∈ ids ∧ 0 < (st.cur t).2 ∧ ∀ t' ∈ ids,
      ((inst.binType t').cost = 0 → 0 < (st.cur t').2 → (inst.binType t).cost = 0) ∧
      (0 < (inst.binType t').cost →
        (st.cur t').2 * (inst.binType t).cost ≤ (st.cur t).2 * (inst.binType t').cost) := by
  have key : ∀ (l : List Nat) (acc : ExtQ × Option Nat),
      (∀ q, acc.1 = .fin q → 0 ≤ q) →
      let r := l.foldl (fun acc t =>
        if ratioLt acc.1 (ratio inst st t) then (ratio inst st t, some t) else acc) acc
      (∀ q, r.1 = .fin q → 0 ≤ q) ∧ ratioLt r.1 acc.1 = false ∧
      (r = acc ∨ ∃ t ∈ l, r = (ratio inst st t, some t) ∧ ratioLt acc.1 r.1 = true) ∧
      ∀ t ∈ l, ratioLt r.1 (ratio inst st t) = false := by
    intro l
    induction l with
    | nil =>
      intro acc h0
      refine ⟨h0, ?_, .inl rfl, by simp⟩
      rcases acc with ⟨_ | _, _⟩ <;> simp [ratioLt]
    | cons a l ih =>
      intro acc h0
      have htr : ∀ x y z : ExtQ, ratioLt x y = false → ratioLt y z = false →
          ratioLt x z = false := by
        intro x y z h1 h2
        cases x <;> cases y <;> cases z <;> simp [ratioLt] at h1 h2 ⊢
        linarith
      have hlt : ∀ x y : ExtQ, ratioLt x y = true → ratioLt y x = false := by
        intro x y h1
        cases x <;> cases y <;> simp [ratioLt] at h1 ⊢
        linarith
      have hmix : ∀ x y z : ExtQ, ratioLt x y = true → ratioLt z y = false →
          ratioLt x z = true := by
        intro x y z h1 h2
        cases x <;> cases y <;> cases z <;> simp [ratioLt] at h1 h2 ⊢
        linarith
      by_cases hc : ratioLt acc.1 (ratio inst st a) = true
      · have h0' : ∀ q, (ratio inst st a, some a).1 = .fin q → 0 ≤ q := by
          intro q hq
          dsimp only at hq
          rw [hq] at hc
          cases hacc : acc.1 with
          | fin b =>
            rw [hacc] at hc
            have := h0 b hacc
            simp [ratioLt] at hc
            linarith
          | inf => rw [hacc] at hc; simp [ratioLt] at hc
        obtain ⟨g0, g1, g2, g3⟩ := ih (ratio inst st a, some a) h0'
        rw [List.foldl_cons, if_pos hc]
        dsimp only at g0 g1 g2 g3 ⊢
        refine ⟨g0, htr _ _ _ g1 (hlt _ _ hc), ?_, ?_⟩
        · right
          rcases g2 with g2 | ⟨t, ht, g2, g4⟩
          · exact ⟨a, by simp, g2, by rw [g2]; exact hc⟩
          · exact ⟨t, by simp [ht], g2, hmix _ _ _ hc g1⟩
        · intro t ht
          rw [List.mem_cons] at ht
          rcases ht with rfl | ht
          · exact g1
          · exact g3 t ht
      · obtain ⟨g0, g1, g2, g3⟩ := ih acc h0
        rw [List.foldl_cons, if_neg hc]
        dsimp only at g0 g1 g2 g3 ⊢
        refine ⟨g0, g1, ?_, ?_⟩
        · rcases g2 with g2 | ⟨t, ht, g2, g4⟩
          · exact .inl g2
          · exact .inr ⟨t, by simp [ht], g2, g4⟩
        · intro t ht
          rw [List.mem_cons] at ht
          rcases ht with rfl | ht
          · exact htr _ _ _ g1 (by simpa using hc)
          · exact g3 t ht
  obtain ⟨_, _, h2, h3⟩ := key ids (.fin 0, none) (by
    intro q hq
    injection hq with hq
    rw [← hq])
  unfold bestBinType at h
  generalize ids.foldl (fun acc t =>
    if ratioLt acc.1 (ratio inst st t) then (ratio inst st t, some t) else acc)
    ((.fin 0 : ExtQ), (none : Option Nat)) = r at h h2 h3
  rcases h2 with h2 | ⟨u, hu, h2, h4⟩
  · rw [h2] at h; cases h
  · rw [h2] at h
    have hut : u = t := Option.some.inj h
    subst hut
    rw [h2] at h3 h4
    dsimp only at h3 h4
    have hpos : 0 < (st.cur u).2 := by
      unfold ratio at h4
      split_ifs at h4 with c1 c2
      · exact c2
      · simp [ratioLt] at h4
      · have hc : 0 < (inst.binType u).cost := lt_of_le_of_ne (hcost u) (Ne.symm c1)
        simp only [ratioLt, decide_eq_true_eq] at h4
        by_contra hn
        exact absurd (div_nonpos_of_nonpos_of_nonneg (by linarith) hc.le) (by linarith)
    refine ⟨hu, hpos, ?_⟩
    intro t' ht'
    have h5 := h3 t' ht'
    refine ⟨?_, ?_⟩
    · intro c1 c2
      by_contra c3
      unfold ratio at h5
      rw [if_neg c3, if_pos c1, if_pos c2] at h5
      simp [ratioLt] at h5
    · intro c1
      by_cases c3 : (inst.binType u).cost = 0
      · rw [c3, mul_zero]
        exact (mul_pos hpos c1).le
      · have hc : 0 < (inst.binType u).cost := lt_of_le_of_ne (hcost u) (Ne.symm c3)
        unfold ratio at h5
        rw [if_neg c3, if_neg c1.ne'] at h5
        simp only [ratioLt, decide_eq_false_iff_not, not_lt] at h5
        rw [div_le_div_iff₀ c1 hc] at h5
        exact h5

example : bestBinType (exInst .variableSizedBinPacking)
    { bins := [], cur := fun _ => ([0], 4), partialFixed := fun _ => 0, emitted := [] }
    [0, 1] ≠ none := by
  decide +kernel

/-! ### The hypotheses can be met -/

/-- A built one-dimensional instance with `c` mandatory copies of its only bin type. -/
def svcOrig (c : Int) : OneDim.Instance :=
  OneDim.Examples.okD { objective := .knapsack, itemTypes := [], binTypes := [] }
    (OneDim.InstanceBuilder.runOps .variableSizedBinPacking
    [.addBinType 10, .setBinTypeCopies 0 3, .setBinTypeCopiesMin 0 c, .addItemType 4,
      .setItemTypeCopies 0 5])

example : (OneDim.svcKnapsackInstance (svcOrig 1) 0 [(0, 3, 5)]).isOk = true := by
  decide +kernel

example (kp : OneDim.Instance) : OneDim.svcKnapsackInstance (svcOrig 2) 0 [(0, 3, 5)] ≠ .ok kp :=
  svc_knapsack_instance_fails (by decide +kernel) (by decide +kernel) _ _

example : ∀ s ∈ (run (exInst .binPacking) exOracle (some 3) 4).1,
    WithinCopies (exInst .binPacking) s :=
  svc_within_copies (exInst_valid _) (exOracle_feasible _) _ _

example : ∀ s ∈ (run (exInst .binPacking) exOracle (some 3) 4).1,
    binSequence s <+: [0, 0, 1] :=
  svc_bin_order (exInst_valid _) (exOracle_feasible _) (by decide) (by decide) _ _

example : 3 ≤ (run (exInst .binPacking) exOracle (some 3) 4).1.length :=
  svc_emits (exInst_valid _) (exOracle_feasible _) (by decide) (by decide)
    (fun _ _ _ => rfl) (fun _ _ => rfl) 3

/-- Every bin has at most one item. -/
example : AnswersSatisfy exOracle fun _ items => items.length ≤ 1 := by
  refine ⟨by simp, ?_, by simp [exOracle]⟩
  intro it st t q p hp
  simp only [exOracle] at hp
  split_ifs at hp <;> cases hp <;> simp

/-- Mandatory bins in several copies: a valid instance on which the algorithm throws. -/
example : run { exInst .binPacking with binTypes := [{ copies := 3, copiesMin := 2 }] }
    exOracle none 1 = ([], .threw .invalidArgument) :=
  svc_throws ⟨by decide, by decide, fun i => by
      match i with
      | 0 => decide
      | 1 => decide
      | i + 2 => simp [exInst, InstanceData.copiesFixed]⟩
    (by decide) (by decide) (by decide) (fun _ _ _ => rfl) none (by decide) 0

end PackingSolver.Svc
