import Verif.Lemmas.Algorithms.DichotomicEnd
import Mathlib.Data.List.MinMax

/-!
# C36: the dichotomic search

`Spec/Dichotomic.lean` says what is expected; here it is proved of the model of
`dichotomic_search` for every instance and every behaviour of the two sub-solvers, and
refuted where it does not hold.
-/

namespace PackingSolver.Dichotomic

open PackingSolver.Svc (Bin BinTypeData Status)
open PackingSolver.Svc.Spec (binsUsed itemsUsed binSequence)
open _root_.PackingSolver.Dichotomic.Spec
open DichLemmas

/-- C36 (sub-instances). Every bin packing instance that the search builds, whatever the
capacity and the knapsack answer, has only existing bin types with at least one copy; it offers
exactly the available copies of each bin type; and its first bins, the selected ones, contain
between `copies_min` and `copies` bins of each type. -/
theorem dichotomic_sub_instance {inst : InstanceData} (hv : ValidInstance inst)
    {sorted : List Nat} (hs : SortedBySpace inst sorted) {cap : Int} {taken : List Bool}
    {bins : List (Nat × Int)} (h : bppBins inst sorted (binCopies inst cap taken) = .ok bins) :
    (∀ p ∈ bins, p.1 < inst.binTypes.length ∧ 0 < p.2) ∧
    (∀ t < inst.binTypes.length, offered bins t = (inst.binType t).copies) ∧
    ∃ selected others, bins = selected ++ others ∧
      (selected.map fun p => p.2).sum = selectedBins sorted (binCopies inst cap taken) ∧
      ∀ t < inst.binTypes.length, (inst.binType t).copiesMin ≤ offered selected t
        ∧ offered selected t ≤ (inst.binType t).copies := by
  have hok := bppBins_ok hv hs h
  refine ⟨hok.1, fun t ht => by rw [hok.2, if_pos ht], ?_⟩
  rw [bppBins_eq] at h
  split at h
  · cases h
  · injection h with h
    refine ⟨_, _, h.symm, (selectedBins_eq _ _).symm, fun t ht => ?_⟩
    rw [offered_first hv hs cap taken ht]
    exact binCopies_bounds hv cap taken ht

/-- C36 (admissible solutions). If the bin packing solver uses no more bins and items than it is
offered, every solution that the search hands over uses each bin type and each item type at most
as often as it is available. -/
theorem dichotomic_within_copies {inst : InstanceData} (hv : ValidInstance inst)
    {sorted : List Nat} (hs : SortedBySpace inst sorted) (p : Parameters) {o : Oracle}
    (ho : BinPackingAnswers inst o) (fuel : Nat) :
    ∀ s ∈ (run inst sorted p o fuel).1.emitted, WithinCopies inst s := by
  unfold run
  split
  · intro s hs; simp at hs
  · refine loop_inv (fun st => ∀ s ∈ st.emitted, WithinCopies inst s) ?_ fuel _ (by simp)
    intro st h _
    rcases step_cases inst sorted p o st with ⟨e, _⟩ | ⟨_, e, _⟩ | ⟨cap, found, st1, hc, e, hst⟩
    · rw [e]; exact h
    · rw [e]; exact h
    · rw [e, updateBounds_fst]
      have key : ∀ s ∈ st1.emitted, WithinCopies inst s := by
        rcases hst with ⟨rfl, _⟩ | ⟨bins, hb, _, rfl⟩
        · exact h
        · intro s hs'
          rw [List.mem_append, List.mem_singleton] at hs'
          rcases hs' with hs' | rfl
          · exact h s hs'
          · have hok := bppBins_ok hv hs hb
            refine within_relabel (ho bins fun q hq => (hok.1 q hq).2)
              (fun q hq => (hok.1 q hq).1) ?_
            intro t
            rw [hok.2]
            split
            · exact le_refl _
            · rename_i ht
              unfold InstanceData.binType
              rw [List.getD_eq_default _ _ (by omega)]
              decide
      cases found <;> exact key

/-- C36 (waste bounds). The bounds stay in order: `0 ≤ lower ≤ upper`, and an initial upper
bound is never exceeded. -/
theorem dichotomic_bounds (inst : InstanceData) (sorted : List Nat) {p : Parameters} (o : Oracle)
    (hp : 0 < p.initialWaste) (hu : ∀ u, p.initialUpper = .fin u → 0 ≤ u) (fuel : Nat) :
    0 ≤ (run inst sorted p o fuel).1.lower ∧
    (∀ u, (run inst sorted p o fuel).1.upper = .fin u →
      (run inst sorted p o fuel).1.lower ≤ u) ∧
    (∀ u0, p.initialUpper = .fin u0 → inst.items ≠ [] →
      ∃ u ≤ u0, (run inst sorted p o fuel).1.upper = .fin u) := by
  unfold run
  split
  · rename_i h0
    exact ⟨le_refl _, fun u h => by simp at h,
      fun u0 _ hne => absurd (List.length_eq_zero_iff.mp h0) hne⟩
  · obtain ⟨h1, h2, h3⟩ := loop_inv (inst := inst) (sorted := sorted) (p := p) (o := o)
      (fun st => 0 ≤ st.lower ∧ (∀ u, st.upper = .fin u → st.lower ≤ u) ∧
        ∀ u0, p.initialUpper = .fin u0 → ∃ u ≤ u0, st.upper = .fin u)
      (by
        intro st ⟨h1, h2, h3⟩ _
        obtain ⟨g1, g2, g3⟩ := step_bounds (inst := inst) (sorted := sorted) (o := o) st hp h1 h2
        refine ⟨le_trans h1 g1, g2, ?_⟩
        intro u0 hu0
        obtain ⟨u, hle, hu'⟩ := h3 u0 hu0
        obtain ⟨u', hle', hu''⟩ := g3 u hu'
        exact ⟨u', le_trans hle' hle, hu''⟩)
      fuel { upper := p.initialUpper } ⟨le_refl _, hu, fun u0 h => ⟨u0, le_refl _, h⟩⟩
    exact ⟨h1, h2, fun u0 h _ => h3 u0 h⟩

/-- C36 (what the upper bound means). When the search has lowered the upper bound to `u`, it has
handed over a solution that packs every item and that costs no more than any choice of bins
whose optional bins have at least `1 + u` times the space of the items.  This supposes integer
spaces, an optimal knapsack solver, and a bin packing solver that uses the bins in order. -/
theorem dichotomic_upper_bound {inst : InstanceData} (hv : ValidInstance inst)
    (hint : IntegerSpaces inst) (hcost : ∀ t ∈ inst.binTypes, 0 ≤ t.cost) {sorted : List Nat}
    (hs : SortedBySpace inst sorted) (p : Parameters) {o : Oracle}
    (ho : BinPackingAnswers inst o) (hord : UsesBinsInOrder o) (hlen : KnapsackAnswers o)
    (hopt : KnapsackOptimal inst o) (fuel : Nat) (hi : inst.items ≠ [])
    (hne : (run inst sorted p o fuel).1.upper ≠ p.initialUpper) :
    ∃ u, (run inst sorted p o fuel).1.upper = .fin u ∧
      ∃ s ∈ (run inst sorted p o fuel).1.emitted, PacksEverything inst s ∧
        ∀ n, Choice inst u n → cost inst s ≤ sumOver inst n fun t => t.cost := by
  have hw := dichotomic_within_copies hv hs p ho fuel
  unfold run at hne hw ⊢
  rw [if_neg (by rwa [List.length_eq_zero_iff])] at hne hw ⊢
  have hinv := loop_inv (inst := inst) (sorted := sorted) (p := p) (o := o)
    (UpperInv inst sorted p o) (fun st h _ => h.step) fuel { upper := p.initialUpper }
    ⟨by intro c hc; simp at hc, .inl rfl⟩
  rcases hinv.upper with h | ⟨u, hu, cap, hc, bins, hb, hmem, hni, hnb⟩
  · exact absurd h hne
  · refine ⟨u, hu, _, hmem, ?_, ?_⟩
    · exact packs_everything (hw _ hmem) (by rw [numberOfItems_relabel]; exact hni)
    · intro n hn
      exact le_trans (cost_le_selected hv hs hcost ho hord hb hnb)
        (selected_le_choice hv hint hcost hlen hopt hc hn)

/-- C36 (termination). If the items have some space the search ends, whatever the sub-solvers
answer: there is a number of passes after which more passes change nothing.  (It may end by an
undefined conversion, see `dichotomic_tight`.) -/
theorem dichotomic_terminates (inst : InstanceData) (sorted : List Nat) {p : Parameters}
    (o : Oracle) (hi : 0 < itemSpace inst) (hp : 0 < p.initialWaste) :
    ∃ fuel, (run inst sorted p o fuel).2 ≠ .running ∧
      ∀ m ≥ fuel, run inst sorted p o m = run inst sorted p o fuel := by
  unfold run
  split
  · exact ⟨0, by simp, fun _ _ => rfl⟩
  · obtain ⟨n, hn⟩ := ends_start (inst := inst) (sorted := sorted) (p := p) (o := o) hi hp
      (st := { upper := p.initialUpper }) (le_refl _)
    exact ⟨n, hn, fun m hm => loop_mono n _ hn m hm⟩

/-- C36 (no exception), for instances with at most one mandatory copy of each bin type. -/
theorem dichotomic_no_exception_partial {inst : InstanceData} (hmin : ∀ t ∈ inst.binTypes,
      t.copiesMin ≤ 1) {sorted : List Nat} (hs : SortedBySpace inst sorted)
    (p : Parameters) (o : Oracle) (fuel : Nat) :
    (run inst sorted p o fuel).2 ≠ .threw .invalidArgument := by
  unfold run
  split
  · simp
  · generalize ({ upper := p.initialUpper } : State) = st
    induction fuel generalizing st with
    | zero => simp [loop]
    | succ n ih =>
      unfold loop
      split
      · obtain ⟨st', s, e⟩ : ∃ st' s, step inst sorted p o st = (st', s) := ⟨_, _, rfl⟩
        rw [e]
        cases s with
        | running => exact ih st'
        | finished => simp
        | returned => simp
        | threw err =>
          rcases step_cases inst sorted p o st with ⟨e', _⟩ | ⟨err', e', hc⟩
            | ⟨cap, found, st1, hc, e', hst⟩
          · rw [e] at e'; cases e'
          · rw [e] at e'
            injection e' with _ e'
            injection e' with e'
            subst e'
            rcases hc with hc | ⟨cap, _, hb⟩
            · unfold kpCapacity at hc
              split at hc
              · injection hc with hc; subst hc; simp
              · cases hc
            · rw [bppBins_eq] at hb
              split at hb
              · rename_i hex
                obtain ⟨q, hq, hlt⟩ := hex
                exfalso
                have hq' : q.1 ∈ sorted ∧ 0 < q.2 := by
                  rw [List.mem_append] at hq
                  rcases hq with hq | hq
                  · exact ⟨(firstGroup_mem hq).1, (firstGroup_mem hq).2.2⟩
                  · exact ⟨(secondGroup_mem hq).1, (secondGroup_mem hq).2.2⟩
                have := hmin _ (binType_mem ((sorted_mem hs _).mp hq'.1))
                omega
              · cases hb
          · rw [e] at e'
            unfold updateBounds at e'
            split at e'
            · cases e'
            · split at e' <;> cases e'
      · simp

/-! ### Where the expectation fails -/

/-- C36 fails (tight instances). If no bin type is mandatory and each bin is larger than the
space that may be left out at the initial waste, the search selects no bin at all, so that no
answer of the bin packing solver is accepted: the upper bound stays infinite, the lower bound
doubles, and the search ends in the conversion of a number that does not fit an integer, which
is undefined, unless the timer ends it earlier. -/
theorem dichotomic_tight {inst : InstanceData} (hv : ValidInstance inst) {sorted : List Nat}
    (hs : SortedBySpace inst sorted) {p : Parameters} {o : Oracle}
    (ho : BinPackingAnswers inst o) (hlen : KnapsackAnswers o)
    (hends : ∀ n w, o.ends n w = false) (hp : 0 < p.initialWaste) (hu : p.initialUpper = .inf)
    (hi : 0 < itemSpace inst) (hitems : 0 < inst.numberOfItems) (hbins : 0 < inst.numberOfBins)
    (hmin : ∀ t ∈ inst.binTypes, t.copiesMin = 0)
    (htight : ∀ t ∈ inst.binTypes, 0 < t.space ∧ rawCapacity inst p.initialWaste < t.space) :
    ∃ fuel, ∀ m ≥ fuel, (run inst sorted p o m).2 = .threw .ub ∧
      (run inst sorted p o m).1.upper = .inf := by
  have hne : ¬ inst.items.length = 0 := by
    intro h
    rw [List.length_eq_zero_iff] at h
    rw [InstanceData.numberOfItems, h] at hitems
    simp at hitems
  -- no knapsack item
  have hkp : ∀ w ≥ p.initialWaste, ∀ cap, kpCapacity inst w = .ok cap → kp2ps inst cap = [] := by
    intro w hw cap hc
    have hraw : rawCapacity inst w ≤ rawCapacity inst p.initialWaste := by
      unfold rawCapacity
      have := mul_le_mul_of_nonneg_left (show 1 + p.initialWaste ≤ 1 + w by linarith) hi.le
      linarith
    unfold kp2ps
    rw [List.flatMap_eq_nil_iff]
    intro t ht
    have h1 := htight _ (binType_mem (List.mem_range.mp ht))
    rw [if_pos]
    rw [kpCapacity_ok hc]
    push_cast
    refine max_lt ?_ h1.1
    exact lt_of_le_of_lt (le_trans (Int.floor_le _) hraw) h1.2
  have hzero : ∀ cap taken, kp2ps inst cap = [] → ∀ t, (binCopies inst cap taken).getD t 0 = 0 := by
    intro cap taken hk t
    rw [binCopies_getD]
    split
    · rename_i ht
      rw [hk, hmin _ (binType_mem ht)]
      simp
    · rfl
  have hsel : ∀ cap taken, kp2ps inst cap = [] →
      selectedBins sorted (binCopies inst cap taken) = 0 := by
    intro cap taken hk
    unfold selectedBins
    rw [List.filter_eq_nil_iff.mpr]
    · rfl
    · intro t _
      rw [hzero cap taken hk]
      simp
  -- every pass fails and goes on, or ends with the undefined conversion
  have hstep : ∀ st : State, (∀ q ∈ st.memory, q.2 = false) → st.upper = .inf →
      (st.lower = 0 ∨ p.initialWaste ≤ st.lower) →
      ((step inst sorted p o st).2 = .running ∨ (step inst sorted p o st).2 = .threw .ub) ∧
      (∀ q ∈ (step inst sorted p o st).1.memory, q.2 = false) ∧
      (step inst sorted p o st).1.upper = .inf ∧
      ((step inst sorted p o st).1.lower = 0 ∨
        p.initialWaste ≤ (step inst sorted p o st).1.lower) := by
    intro st hm hup hl
    have hw : p.initialWaste ≤ nextWaste p st := by
      unfold nextWaste
      rw [hup]
      dsimp only
      split
      · exact le_refl _
      · rename_i h0
        rcases hl with hl | hl
        · exact absurd hl h0
        · linarith
    rcases step_cases inst sorted p o st with ⟨_, h⟩ | ⟨e, he, hc⟩
      | ⟨cap, found, st1, hc, e, hst⟩
    · rw [hends] at h; cases h
    · rw [he]
      refine ⟨.inr ?_, hm, hup, hl⟩
      rcases hc with hc | ⟨cap, _, hb⟩
      · unfold kpCapacity at hc
        split at hc
        · injection hc with hc; subst hc; rfl
        · cases hc
      · rw [bppBins_eq] at hb
        split at hb
        · rename_i hex
          obtain ⟨q, hq, hlt⟩ := hex
          exfalso
          have hq' : q.1 ∈ sorted ∧ 0 < q.2 := by
            rw [List.mem_append] at hq
            rcases hq with hq | hq
            · exact ⟨(firstGroup_mem hq).1, (firstGroup_mem hq).2.2⟩
            · exact ⟨(secondGroup_mem hq).1, (secondGroup_mem hq).2.2⟩
          have := hmin _ (binType_mem ((sorted_mem hs _).mp hq'.1))
          omega
        · cases hb
    · have hk := hkp _ hw cap hc
      have hfalse : found = false ∧ (∀ q ∈ st1.memory, q.2 = false) ∧ st1.upper = st.upper := by
        rcases hst with ⟨rfl, hl'⟩ | ⟨bins, hb, hf, rfl⟩
        · exact ⟨hm _ (lookup_mem hl'), hm, rfl⟩
        · have hf' : found = false := by
            rw [hf]
            unfold DichLemmas.succeeds chosen
            rw [hsel _ _ hk]
            apply decide_eq_false
            intro ⟨hn1, hn2⟩
            have hok := bppBins_ok hv hs hb
            have hwo := ho bins fun q hq => (hok.1 q hq).2
            cases hsol : o.bpp bins with
            | nil => rw [hsol] at hn1; simp [Svc.numberOfItems] at hn1; omega
            | cons b l =>
              have h1 := hwo.types
              rw [hsol] at h1 hn2
              unfold Svc.numberOfBins at hn2
              rw [List.map_cons, List.sum_cons] at hn2
              have hb1 := (h1 b List.mem_cons_self).2.1
              have hl1 : 0 ≤ (l.map fun b => b.copies).sum := List.sum_nonneg (by
                intro x hx
                rw [List.mem_map] at hx
                obtain ⟨b', hb', rfl⟩ := hx
                have := (h1 b' (List.mem_cons_of_mem _ hb')).2.1
                omega)
              omega
          refine ⟨hf', ?_, rfl⟩
          intro q hq
          rw [List.mem_cons] at hq
          rcases hq with rfl | hq
          · exact hf'
          · exact hm q hq
      obtain ⟨rfl, h2, h3⟩ := hfalse
      rw [e]
      unfold updateBounds
      have hlk : o.kp cap (kp2ps inst cap) = [] := by
        rw [← List.length_eq_zero_iff, hlen, hk]; rfl
      rw [if_neg (by simp), hlk, if_neg (by simp; omega)]
      exact ⟨.inl rfl, h2, h3.trans hup, .inr hw⟩
  have hloop : ∀ n st, (∀ q ∈ st.memory, q.2 = false) → st.upper = .inf →
      (st.lower = 0 ∨ p.initialWaste ≤ st.lower) →
      ((loop inst sorted p o n st).2 = .running ∨ (loop inst sorted p o n st).2 = .threw .ub) ∧
      (loop inst sorted p o n st).1.upper = .inf := by
    intro n
    induction n with
    | zero => intro st _ h _; exact ⟨.inl rfl, h⟩
    | succ n ih =>
      intro st hm hup hl
      obtain ⟨g1, g2, g3, g4⟩ := hstep st hm hup hl
      unfold loop
      rw [if_pos (by unfold continues; rw [hup])]
      obtain ⟨st', s, e⟩ : ∃ st' s, step inst sorted p o st = (st', s) := ⟨_, _, rfl⟩
      rw [e] at g1 g2 g3 g4 ⊢
      rcases g1 with rfl | rfl
      · exact ih st' g2 g3 g4
      · exact ⟨.inr rfl, g3⟩
  obtain ⟨n, hn, hmono⟩ := dichotomic_terminates inst sorted (p := p) o hi hp
  refine ⟨n, fun m hm => ?_⟩
  rw [hmono m hm]
  unfold run at hn ⊢
  rw [if_neg hne] at hn ⊢
  obtain ⟨h1, h2⟩ := hloop n { upper := p.initialUpper } (by simp) hu (.inl rfl)
  exact ⟨h1.resolve_left hn, h2⟩

/-! ### Concrete cases -/

/-- All lists of flags of a length. -/
def allFlags : Nat → List (List Bool)
  | 0 => [[]]
  | n + 1 => (allFlags n).map (true :: ·) ++ (allFlags n).map (false :: ·)

theorem mem_allFlags (S : List Bool) : S ∈ allFlags S.length := by
  induction S with
  | nil => simp [allFlags]
  | cons b S ih =>
    unfold allFlags
    rw [List.length_cons, List.mem_append]
    cases b
    · right; exact List.mem_map.mpr ⟨S, ih, rfl⟩
    · left; exact List.mem_map.mpr ⟨S, ih, rfl⟩

theorem length_of_mem_allFlags (n : Nat) (S : List Bool) (h : S ∈ allFlags n) : S.length = n := by
  induction n generalizing S with
  | zero => simp [allFlags] at h; subst h; rfl
  | succ n ih =>
    unfold allFlags at h
    rw [List.mem_append, List.mem_map, List.mem_map] at h
    rcases h with ⟨T, hT, rfl⟩ | ⟨T, hT, rfl⟩ <;> rw [List.length_cons, ih T hT]

/-- The choices that respect the capacity. -/
def fitting (inst : InstanceData) (c : Int) (ids : List Nat) : List (List Bool) :=
  (allFlags ids.length).filter fun S =>
    decide (total (fun t => (inst.binType t).space) ids S ≤ (c : ℚ))

/-- A knapsack solver: the best of all choices. -/
def bruteForce (inst : InstanceData) (c : Int) (ids : List Nat) : List Bool :=
  ((fitting inst c ids).argmax (total (fun t => (inst.binType t).cost) ids)).getD
    (List.replicate ids.length false)

/-- A bin packing solver for a single item: bins that are too small are left empty. -/
def packOne (inst : InstanceData) (size : ℚ) : Nat → List (Nat × Int) → List Bin
  | _, [] => []
  | k, (t, n) :: rest =>
    if (inst.binType t).space ≥ size then [⟨k, 1, [0]⟩]
    else ⟨k, n, []⟩ :: packOne inst size (k + 1) rest

/-- An oracle without time limit. -/
def exOracle (inst : InstanceData) (size : ℚ) : Oracle where
  kp := bruteForce inst
  bpp := packOne inst size 0
  ends := fun _ _ => false

theorem exOracle_length (inst : InstanceData) (size : ℚ) :
    KnapsackAnswers (exOracle inst size) := by
  intro c ids
  show (bruteForce inst c ids).length = _
  unfold bruteForce
  cases h : (fitting inst c ids).argmax (total (fun t => (inst.binType t).cost) ids) with
  | none => simp
  | some S =>
    have hm := List.argmax_mem h
    exact length_of_mem_allFlags _ S (List.mem_filter.mp hm).1

theorem exOracle_optimal (inst : InstanceData) (size : ℚ) :
    KnapsackOptimal inst (exOracle inst size) := by
  intro c ids hc _
  have h0 : List.replicate ids.length false ∈ fitting inst c ids := by
    unfold fitting
    rw [List.mem_filter]
    refine ⟨by simpa using mem_allFlags (List.replicate ids.length false), ?_⟩
    apply decide_eq_true
    have h1 : total (fun t => (inst.binType t).space) ids (List.replicate ids.length false)
        = 0 := by
      unfold total
      apply List.sum_eq_zero
      intro x hx
      rw [List.mem_map] at hx
      obtain ⟨q, hq, rfl⟩ := hx
      have := List.eq_of_mem_replicate (List.of_mem_zip hq).2
      rw [this]; rfl
    rw [h1]
    exact_mod_cast hc
  obtain ⟨T, hT⟩ : ∃ T, (fitting inst c ids).argmax
      (total (fun t => (inst.binType t).cost) ids) = some T := by
    cases h : (fitting inst c ids).argmax (total (fun t => (inst.binType t).cost) ids) with
    | some T => exact ⟨T, rfl⟩
    | none => rw [List.argmax_eq_none] at h; rw [h] at h0; simp at h0
  have e : (exOracle inst size).kp c ids = T := by
    show bruteForce inst c ids = T
    unfold bruteForce; rw [hT]; rfl
  rw [e]
  refine ⟨of_decide_eq_true (List.mem_filter.mp (List.argmax_mem hT)).2, ?_⟩
  intro S hS hw
  refine List.le_of_mem_argmax (f := total (fun t => (inst.binType t).cost) ids)
    (l := fitting inst c ids) ?_ hT
  unfold fitting
  rw [List.mem_filter]
  exact ⟨by rw [← hS]; exact mem_allFlags S, decide_eq_true hw⟩

theorem packOne_facts (inst : InstanceData) (size : ℚ) (bins : List (Nat × Int)) (k : Nat)
    (h : ∀ p ∈ bins, 0 < p.2) :
    (∀ b ∈ packOne inst size k bins, k ≤ b.typeId ∧ b.typeId < k + bins.length ∧ 1 ≤ b.copies
      ∧ ∀ i ∈ b.items, i = 0) ∧
    (∀ j, binsUsed (packOne inst size k bins) (k + j) ≤ (bins.getD j (0, 0)).2) ∧
    (∀ i, itemsUsed (packOne inst size k bins) i ≤ if i = 0 then 1 else 0) ∧
    binSequence (packOne inst size k bins) <+:
      (List.range' k bins.length).flatMap fun j =>
        List.replicate (bins.getD (j - k) (0, 0)).2.toNat j := by
  induction bins generalizing k with
  | nil => simp [packOne, binsUsed, itemsUsed, binSequence]
           intro i; split <;> simp
  | cons q bins ih =>
    obtain ⟨t, n⟩ := q
    have hn : 0 < n := h (t, n) List.mem_cons_self
    obtain ⟨g1, g2, g3, g4⟩ := ih (k + 1) fun p hp => h p (List.mem_cons_of_mem _ hp)
    unfold packOne
    by_cases hs : (inst.binType t).space ≥ size
    · rw [if_pos hs]
      refine ⟨?_, ?_, ?_, ?_⟩
      · simp
      · intro j
        cases j with
        | zero => simp [binsUsed]; omega
        | succ j =>
          have : binsUsed [⟨k, 1, [0]⟩] (k + (j + 1)) = 0 := by
            simp [binsUsed]
          rw [this, List.getD_cons_succ]
          by_cases hj : j < bins.length
          · rw [List.getD_eq_getElem _ _ hj]
            exact (h _ (List.mem_cons_of_mem _ (List.getElem_mem hj))).le
          · rw [List.getD_eq_default _ _ (by omega)]
      · intro i
        by_cases hi : i = 0
        · subst hi; simp [itemsUsed]
        · rw [if_neg hi]
          have : (0 == i) = false := by simpa using fun e : 0 = i => hi e.symm
          simp [itemsUsed, List.count_cons, this]
      · rw [List.length_cons, List.range'_succ, List.flatMap_cons, Nat.sub_self,
          List.getD_cons_zero]
        obtain ⟨m, hm⟩ : ∃ m, n.toNat = m + 1 := ⟨n.toNat - 1, by omega⟩
        rw [hm, List.replicate_succ]
        exact ⟨_, rfl⟩
    · rw [if_neg hs]
      refine ⟨?_, ?_, ?_, ?_⟩
      · intro b hb
        rw [List.mem_cons] at hb
        rcases hb with rfl | hb
        · simp; omega
        · have := g1 b hb
          refine ⟨by omega, by simp; omega, this.2.2⟩
      · intro j
        have hcons : binsUsed (⟨k, n, []⟩ :: packOne inst size (k + 1) bins) (k + j)
            = (if k = k + j then n else 0)
              + binsUsed (packOne inst size (k + 1) bins) (k + j) := by
          unfold binsUsed
          by_cases hj : k = k + j
          · rw [if_pos hj, List.filter_cons_of_pos (by simpa using hj), List.map_cons,
              List.sum_cons]
          · rw [if_neg hj, List.filter_cons_of_neg (by simpa using hj)]; simp
        rw [hcons]
        cases j with
        | zero =>
          have h0 : binsUsed (packOne inst size (k + 1) bins) (k + 0) = 0 := by
            unfold binsUsed
            rw [List.filter_eq_nil_iff.mpr]
            · rfl
            · intro b hb
              have := (g1 b hb).1
              simp; omega
          rw [h0]; simp
        | succ j =>
          rw [if_neg (by omega), List.getD_cons_succ, zero_add,
            show k + (j + 1) = k + 1 + j by omega]
          exact g2 j
      · intro i
        refine le_trans (le_of_eq ?_) (g3 i)
        unfold itemsUsed
        simp
      · unfold binSequence at g4 ⊢
        rw [List.flatMap_cons, List.length_cons, List.range'_succ, List.flatMap_cons,
          Nat.sub_self, List.getD_cons_zero]
        refine (List.prefix_append_right_inj _).mpr ?_
        have e : ((List.range' (k + 1) bins.length).flatMap fun j =>
              List.replicate (bins.getD (j - (k + 1)) (0, 0)).2.toNat j)
            = (List.range' (k + 1) bins.length).flatMap fun j =>
              List.replicate (((t, n) :: bins).getD (j - k) (0, 0)).2.toNat j := by
          apply List.flatMap_congr
          intro j hj
          rw [List.mem_range'_1] at hj
          rw [show j - k = j - (k + 1) + 1 by omega, List.getD_cons_succ]
        rw [← e]
        exact g4

theorem exOracle_answers {inst : InstanceData} (size : ℚ) (c : Int) (s : ℚ) (hc : 1 ≤ c)
    (hi : inst.items = [(c, s)]) : BinPackingAnswers inst (exOracle inst size) := by
  intro bins hb
  obtain ⟨h1, h2, h3, _⟩ := packOne_facts inst size bins 0 hb
  refine ⟨?_, ?_, ?_⟩
  · intro b hb'
    have := h1 b hb'
    refine ⟨by omega, this.2.2.1, ?_⟩
    intro i hi'
    rw [this.2.2.2 i hi', hi]
    simp
  · intro k
    have := h2 k
    rw [Nat.zero_add] at this
    exact this
  · intro i
    refine le_trans (h3 i) ?_
    rw [hi]
    cases i with
    | zero => simpa using hc
    | succ i => simp

theorem exOracle_order (inst : InstanceData) (size : ℚ) : UsesBinsInOrder (exOracle inst size) := by
  intro bins hb
  have := (packOne_facts inst size bins 0 hb).2.2.2
  rw [← List.range_eq_range'] at this
  exact this

/-- Three bins of space 6 and cost 3, two of space 10 and cost 4, one item of space 5. -/
def exInst : InstanceData where
  binTypes := [{ copies := 3, space := 6, cost := 3 }, { copies := 2, space := 10, cost := 4 }]
  items := [(1, 5)]

theorem exInst_valid : ValidInstance exInst := by
  constructor
  · unfold exInst; decide +kernel
  · unfold exInst; decide +kernel

theorem exInst_sorted : SortedBySpace exInst [0, 1] := by
  constructor
  · decide +kernel
  · decide +kernel

theorem exInst_run : (run exInst [0, 1] {} (exOracle exInst 5) 40).2 = .returned ∧
    (run exInst [0, 1] {} (exOracle exInst 5) 40).1.upper = .fin (1 / 10 / 2 ^ 14) ∧
    (run exInst [0, 1] {} (exOracle exInst 5) 40).1.emitted = [[⟨0, 1, [0]⟩]] := by
  decide +kernel

/-- All the hypotheses of `dichotomic_upper_bound` are met, and the bound is finite: the
emitted solution is the cheapest choice of bins. -/
example : ∃ u, (run exInst [0, 1] {} (exOracle exInst 5) 40).1.upper = .fin u ∧
    ∃ s ∈ (run exInst [0, 1] {} (exOracle exInst 5) 40).1.emitted, PacksEverything exInst s ∧
      ∀ n, Choice exInst u n → cost exInst s ≤ sumOver exInst n fun t => t.cost :=
  dichotomic_upper_bound exInst_valid
    (by
      intro t ht
      simp only [exInst, List.mem_cons, List.not_mem_nil, or_false] at ht
      rcases ht with rfl | rfl
      · exact ⟨6, by norm_num⟩
      · exact ⟨10, by norm_num⟩)
    (by unfold exInst; decide +kernel) exInst_sorted {}
    (exOracle_answers 5 1 5 (le_refl _) rfl) (exOracle_order _ _) (exOracle_length _ _)
    (exOracle_optimal _ _) 40 (by simp [exInst])
    (by rw [exInst_run.2.1]; simp)

/-- The conclusion of `dichotomic_upper_bound` is not empty: one bin of the first type is such a
choice for the final waste. -/
example : Choice exInst (1 / 10 / 2 ^ 14) (fun t => if t = 0 then 1 else 0) := by
  constructor
  · decide +kernel
  · decide +kernel

example : ∀ s ∈ (run exInst [0, 1] {} (exOracle exInst 5) 40).1.emitted, WithinCopies exInst s :=
  dichotomic_within_copies exInst_valid exInst_sorted {}
    (exOracle_answers 5 1 5 (le_refl _) rfl) 40

example : bppBins exInst [0, 1] (binCopies exInst 32 [true, true, false, true, true])
    = .ok [(0, 1), (0, 2), (1, 2)] := by decide +kernel

example : ∃ fuel, (run exInst [0, 1] {} (exOracle exInst 5) fuel).2 ≠ .running ∧
    ∀ m ≥ fuel, run exInst [0, 1] {} (exOracle exInst 5) m
      = run exInst [0, 1] {} (exOracle exInst 5) fuel :=
  dichotomic_terminates exInst [0, 1] _ (by decide +kernel) (by norm_num)

example : (run exInst [0, 1] {} (exOracle exInst 5) 40).2 ≠ .threw .invalidArgument :=
  dichotomic_no_exception_partial (by unfold exInst; decide +kernel) exInst_sorted _ _ _

/-- One bin of space 10, one item of space 9.5. -/
def tightInst : InstanceData where
  binTypes := [{ copies := 1, space := 10 }]
  items := [(1, 19 / 2)]

/-- `dichotomic_tight` applies although the item fits. -/
example : ∃ fuel, ∀ m ≥ fuel, (run tightInst [0] {} (exOracle tightInst (19 / 2)) m).2
      = .threw .ub ∧ (run tightInst [0] {} (exOracle tightInst (19 / 2)) m).1.upper = .inf :=
  dichotomic_tight (by constructor <;> (unfold tightInst; decide +kernel))
    (by constructor <;> decide +kernel)
    (exOracle_answers (19 / 2) 1 (19 / 2) (le_refl _) rfl) (exOracle_length _ _)
    (fun _ _ => rfl) (by norm_num) rfl (by decide +kernel) (by decide +kernel)
    (by decide +kernel) (by unfold tightInst; decide +kernel)
    (by unfold tightInst; decide +kernel)

theorem run_mono {inst : InstanceData} {sorted : List Nat} {p : Parameters} {o : Oracle}
    {fuel : Nat} (h : (run inst sorted p o fuel).2 ≠ .running) {m : Nat} (hm : m ≥ fuel) :
    run inst sorted p o m = run inst sorted p o fuel := by
  unfold run at h ⊢
  split
  · rfl
  · rename_i hne
    rw [if_neg hne] at h
    exact loop_mono fuel _ h m hm

/-- Three bins of space 1, two of them mandatory, and an item of space 1/2. -/
def mandatoryInst : InstanceData where
  binTypes := [{ copies := 3, copiesMin := 2, space := 1 }]
  items := [(1, 1 / 2)]

/-- C36 fails (mandatory bins). With two mandatory copies out of three the search throws:
`set_bin_type_copies` is called for the remaining copy before `copies_min` is reset. -/
theorem dichotomic_throws : ValidInstance mandatoryInst ∧ SortedBySpace mandatoryInst [0] ∧
    ∀ m ≥ 1, (run mandatoryInst [0] {} (exOracle mandatoryInst (1 / 2)) m).2
      = .threw .invalidArgument := by
  refine ⟨by constructor <;> (unfold mandatoryInst; decide +kernel),
    by constructor <;> decide +kernel, ?_⟩
  intro m hm
  have h : (run mandatoryInst [0] {} (exOracle mandatoryInst (1 / 2)) 1).2
      = .threw .invalidArgument := by decide +kernel
  rw [run_mono (by rw [h]; simp) hm]
  exact h

/-- A small cheap bin and a large one; an item that needs the large one. -/
def largeInst : InstanceData where
  binTypes := [{ copies := 1, space := 10, cost := 1 }, { copies := 1, space := 100, cost := 100 }]
  items := [(1, 90)]

/-- C36 fails (large bins). A bin type larger than the knapsack capacity is not a knapsack item,
so it is not counted as kept although it cannot be left out.  Here every solution handed over
has cost 101, and the upper bound is never lowered, although the large bin alone, of cost 100,
holds the item with a waste of 10/90 of its space. -/
theorem dichotomic_drops_large_bins : ValidInstance largeInst ∧ SortedBySpace largeInst [0, 1] ∧
    (∀ m ≥ 80, (run largeInst [0, 1] {} (exOracle largeInst 90) m).1.upper = .inf ∧
      ∀ s ∈ (run largeInst [0, 1] {} (exOracle largeInst 90) m).1.emitted,
        cost largeInst s = 101) ∧
    WithinCopies largeInst [⟨1, 1, [0]⟩] ∧ PacksEverything largeInst [⟨1, 1, [0]⟩] ∧
    cost largeInst [⟨1, 1, [0]⟩] = 100 ∧
    Choice largeInst (1 / 10) (fun t => if t = 1 then 1 else 0) := by
  refine ⟨by constructor <;> (unfold largeInst; decide +kernel),
    by constructor <;> decide +kernel, ?_, ?_, ?_, by decide +kernel,
    by constructor <;> decide +kernel⟩
  · intro m hm
    have h : (run largeInst [0, 1] {} (exOracle largeInst 90) 80).2 = .threw .ub := by
      decide +kernel
    rw [run_mono (by rw [h]; simp) hm]
    decide +kernel
  · refine ⟨by decide +kernel, ?_, ?_⟩
    · intro t
      rcases t with _ | _ | t
      · decide +kernel
      · decide +kernel
      · simp [binsUsed, largeInst, InstanceData.binType]
    · intro i
      rcases i with _ | i
      · decide +kernel
      · simp [itemsUsed, largeInst]
  · unfold PacksEverything; decide +kernel

/-- Three small expensive bins and a mandatory bin that holds everything. -/
def spareInst : InstanceData where
  binTypes := [{ copies := 3, space := 4, cost := 5 },
    { copies := 1, copiesMin := 1, space := 10, cost := 1 }]
  items := [(1, 5)]

/-- C36 fails (mandatory space is ignored). The space of the mandatory bins is subtracted from
the capacity, as if they could not hold items.  Here the mandatory bin of cost 1 holds the item,
but every solution handed over also has small bins, and costs 11. -/
theorem dichotomic_ignores_mandatory_space :
    ValidInstance spareInst ∧ SortedBySpace spareInst [0, 1] ∧
    (∀ m ≥ 40, (run spareInst [0, 1] {} (exOracle spareInst 5) m).2 = .returned ∧
      ∀ s ∈ (run spareInst [0, 1] {} (exOracle spareInst 5) m).1.emitted,
        cost spareInst s = 11) ∧
    WithinCopies spareInst [⟨1, 1, [0]⟩] ∧ PacksEverything spareInst [⟨1, 1, [0]⟩] ∧
    cost spareInst [⟨1, 1, [0]⟩] = 1 := by
  refine ⟨by constructor <;> (unfold spareInst; decide +kernel),
    by constructor <;> decide +kernel, ?_, ?_, ?_, by decide +kernel⟩
  · intro m hm
    have h : (run spareInst [0, 1] {} (exOracle spareInst 5) 40).2 = .returned := by
      decide +kernel
    rw [run_mono (by rw [h]; simp) hm]
    exact ⟨h, by decide +kernel⟩
  · refine ⟨by decide +kernel, ?_, ?_⟩
    · intro t
      rcases t with _ | _ | t
      · decide +kernel
      · decide +kernel
      · simp [binsUsed, spareInst, InstanceData.binType]
    · intro i
      rcases i with _ | i
      · decide +kernel
      · simp [itemsUsed, spareInst]
  · unfold PacksEverything; decide +kernel

end PackingSolver.Dichotomic
