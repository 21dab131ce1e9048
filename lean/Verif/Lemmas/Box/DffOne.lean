import Verif.Lemmas.Box.Sweep

/-!
# Bins with a side of length 1

Lemmas: the breakpoint 0 of such a side makes the computation divide by zero.
-/

namespace PackingSolver.Box.DffLemmas

open Dff _root_.PackingSolver.Box.Spec

variable {inst : Instance}

/-- What the values of the bin along an axis are. -/
def AxisOutcome (C : Int) (t : BreakpointTables) : Prop :=
  if C = 1 then fBinAxis C t = .error .ub else ∃ l, fBinAxis C t = .ok l

theorem axisTables_one (h : Positive inst) (a : Nat) :
    ∃ ts, axisTables inst 1 a = .ok ts ∧ ts ≠ [] ∧ ∀ t ∈ ts, fBinAxis 1 t = .error .ub := by
  have hth : axisThresholds 1 (axisValues inst a) = [0] := by
    have : (axisValues inst a).filterMap (foldLength 1) = [] := by
      rw [List.filterMap_eq_nil_iff]
      intro v hv
      have := axisValues_pos h a v hv
      unfold foldLength
      split_ifs
      · rfl
      · rfl
      · omega
      · omega
    unfold axisThresholds
    rw [this]
    rfl
  have hpool : axisPool inst a 1 0 = [] := by
    unfold axisPool
    rw [List.filterMap_eq_nil_iff]
    intro it hit
    have : mediumPoolLength it a 0 (Int.tdiv 1 2) = -1 := by
      unfold mediumPoolLength
      have hv : ∀ v ∈ possibleAxisValues it a, 0 < v := by
        intro v hv
        obtain ⟨r, _, rfl⟩ := mem_possibleAxisValues.1 hv
        exact component_pos (h.items it hit).1 r a
      refine foldl_inv (fun m : Int => m = -1) rfl ?_
      intro b v hvm hb
      have := hv v hvm
      have e : Int.tdiv 1 2 = 0 := rfl
      rw [e, if_neg (by omega)]
      exact hb
    rw [this]
    rfl
  have hm : ∃ m, breakpointTables 1 (axisBigValues 1 (axisValues inst a)) (axisPool inst a 1) 0
      = .ok ⟨0, 0, m⟩ := by
    unfold breakpointTables
    rw [hpool]
    have e : ∀ c, greedyMaximumCardinality c (sortPool []) = .ok 0 := fun c => rfl
    have := mapM_map (fun big => (do
      return (big, ← greedyMaximumCardinality (1 - big) (sortPool [])) : Except Err (Int × Int)))
      (fun big => (big, 0)) (axisBigValues 1 (axisValues inst a)) fun big _ => by rw [e]; rfl
    dsimp only
    rw [e]
    refine ⟨(axisBigValues 1 (axisValues inst a)).map fun big => (big, 0), ?_⟩
    simp only [bind, Except.bind] at this ⊢
    rw [this]
    rfl
  obtain ⟨m, hm⟩ := hm
  refine ⟨[⟨0, 0, m⟩], ?_, by simp, ?_⟩
  · unfold axisTables
    rw [hth, List.mapM_cons, hm]
    rfl
  · intro t ht
    rw [List.mem_singleton] at ht
    subst ht
    rfl

theorem mapM_ne_nil {α β : Type} {f : α → Except Err β} {l : List α} {l' : List β}
    (h : l.mapM f = .ok l') (hl : l ≠ []) : l' ≠ [] := by
  cases l with
  | nil => exact absurd rfl hl
  | cons a l =>
    rw [List.mapM_cons] at h
    obtain ⟨b, _, h⟩ := bind_ok.1 h
    obtain ⟨c, _, h⟩ := bind_ok.1 h
    cases h
    simp

theorem axisTables_outcome (h : Positive inst) {C : Int} (hC : 1 ≤ C) (a : Nat) :
    ∃ ts, axisTables inst C a = .ok ts ∧ ts ≠ [] ∧ ∀ t ∈ ts, AxisOutcome C t := by
  by_cases h1 : C = 1
  · subst h1
    obtain ⟨ts, e, hne, hts⟩ := axisTables_one h a
    refine ⟨ts, e, hne, fun t ht => ?_⟩
    unfold AxisOutcome
    rw [if_pos rfl]
    exact hts t ht
  · obtain ⟨ts, e, hts⟩ := axisTables_ok h (C := C) (by omega) a
    refine ⟨ts, e, ?_, fun t ht => ?_⟩
    · refine mapM_ne_nil e ?_
      intro h0
      have : C.tdiv 2 ∈ axisThresholds C (axisValues inst a) := by
        unfold axisThresholds
        rw [mem_sortUnique]
        simp
      rw [h0] at this
      cases this
    · unfold AxisOutcome
      rw [if_neg h1]
      exact ⟨_, fBinAxis_eq h (by omega) (hts t ht)⟩

/-- With a side of length 1 the first iteration of the sweep divides by zero. -/
theorem first_triple (h : Positive inst) {bin : Dims} (hx : 1 ≤ bin.x) (hy : 1 ≤ bin.y)
    (hz : 1 ≤ bin.z) (h1 : bin.x = 1 ∨ bin.y = 1 ∨ bin.z = 1) :
    ∃ t ts, allTriples inst bin = .ok (t :: ts) ∧ fBin bin t = .error .ub := by
  obtain ⟨tx, ex, nx, ox⟩ := axisTables_outcome h hx 0
  obtain ⟨ty, ey, ny, oy⟩ := axisTables_outcome h hy 1
  obtain ⟨tz, ez, nz, oz⟩ := axisTables_outcome h hz 2
  obtain ⟨a, as, rfl⟩ := List.exists_cons_of_ne_nil nx
  obtain ⟨b, bs, rfl⟩ := List.exists_cons_of_ne_nil ny
  obtain ⟨c, cs, rfl⟩ := List.exists_cons_of_ne_nil nz
  have ox := ox a List.mem_cons_self
  have oy := oy b List.mem_cons_self
  have oz := oz c List.mem_cons_self
  unfold AxisOutcome at ox oy oz
  refine ⟨⟨a, b, c⟩, _, by unfold allTriples; rw [ex, ey, ez]; rfl, ?_⟩
  unfold fBin
  dsimp only
  by_cases h2 : bin.x = 1
  · rw [if_pos h2] at ox
    rw [ox]
    rfl
  rw [if_neg h2] at ox
  obtain ⟨lx, ox⟩ := ox
  rw [ox]
  by_cases h3 : bin.y = 1
  · rw [if_pos h3] at oy
    rw [oy]
    rfl
  rw [if_neg h3] at oy
  obtain ⟨ly, oy⟩ := oy
  rw [oy]
  have h4 : bin.z = 1 := by omega
  rw [if_pos h4] at oz
  rw [oz]
  rfl

theorem dffBins_one (h : Positive inst) (hx : 1 ≤ (inst.binType 0).box.x)
    (hy : 1 ≤ (inst.binType 0).box.y) (hz : 1 ≤ (inst.binType 0).box.z)
    (h1 : (inst.binType 0).box.x = 1 ∨ (inst.binType 0).box.y = 1 ∨ (inst.binType 0).box.z = 1) :
    dffBins inst = .error .ub := by
  obtain ⟨t, ts, e, hb⟩ := first_triple h hx hy hz h1
  unfold dffBins
  rw [e]
  show List.foldlM _ _ _ = _
  rw [List.foldlM_cons]
  unfold binBoundStep
  rw [hb]
  rfl

theorem knapsackBound_one (h : Positive inst) (hx : 1 ≤ (inst.binType 0).box.x)
    (hy : 1 ≤ (inst.binType 0).box.y) (hz : 1 ≤ (inst.binType 0).box.z)
    (h1 : (inst.binType 0).box.x = 1 ∨ (inst.binType 0).box.y = 1 ∨ (inst.binType 0).box.z = 1)
    (sort : List Int → List Nat → List Nat) : knapsackBound inst sort = .error .ub := by
  obtain ⟨t, ts, e, hb⟩ := first_triple h hx hy hz h1
  unfold knapsackBound
  simp only [e, bind, Except.bind, List.foldlM_cons, knapsackStep, hb]

end PackingSolver.Box.DffLemmas
