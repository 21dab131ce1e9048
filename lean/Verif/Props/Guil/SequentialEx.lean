import Verif.Props.Guil.Sequential

/-!
# Packing all items within smaller and smaller bounds, guillotine: examples

Property C121.
-/

namespace PackingSolver.Guil

open Guil.Spec
open InstanceBuilder SequentialFeasibility

namespace SequentialEx

/-- The solution of a sequence of calls, if it is one that may be answered and packs all items. -/
def attempt (sub : Instance) (ops : List Op) : Option Solution :=
  match (SolutionBuilder.new sub).runOrThrow sub ops with
  | .error _ => none
  | .ok sb =>
    match sb.build sub with
    | .error _ => none
    | .ok s =>
      if s.full sub = true ∧ (∀ b ∈ s.bins, b.copies = 1) ∧ (∀ b ∈ s.bins, b.firstCutOrientation ≠ .any)
          ∧ s.numberOfBins ≤ sub.numberOfBins ∧ (∀ t < sub.numberOfBinTypes,
            (((s.bins.map (·.binTypeId)).count t : Nat) : Int) ≤ max (sub.binType t).copies 0)
        then some s else none

/-- A solver that tries some patterns, in every iteration others. -/
def trial (patterns : Nat → List (List Op)) (it : Nat) (sub : Instance) : Solution :=
  ((patterns it).findSome? (attempt sub)).getD (Solution.init sub)

theorem attempt_answer {sub : Instance} {ops : List Op} {s : Solution} (h : attempt sub ops = some s) :
    (Answer sub s ∧ s.full sub = true) ∧ ∀ t < sub.numberOfBinTypes,
      (((s.bins.map (·.binTypeId)).count t : Nat) : Int) ≤ max (sub.binType t).copies 0 := by
  unfold attempt at h
  cases h1 : (SolutionBuilder.new sub).runOrThrow sub ops with
  | error e => rw [h1] at h; cases h
  | ok sb =>
    rw [h1] at h
    dsimp only at h
    cases h2 : sb.build sub with
    | error e => rw [h2] at h; cases h
    | ok s' =>
      rw [h2] at h
      dsimp only at h
      split_ifs at h with hc
      cases h
      exact ⟨⟨⟨⟨ops, sb, h1, h2⟩, hc.2.1, hc.2.2.1, hc.2.2.2.1⟩, hc.1⟩, hc.2.2.2.2⟩

theorem trial_answer (patterns : Nat → List (List Op)) (it : Nat) (sub : Instance) :
    Answer sub (trial patterns it sub) := by
  unfold trial
  cases h : (patterns it).findSome? (attempt sub) with
  | none =>
    refine ⟨⟨[], SolutionBuilder.new sub, rfl, rfl⟩, ?_, ?_, ?_⟩
    · intro b hb; cases hb
    · intro b hb; cases hb
    · show (0 : Int) ≤ _
      omega
  | some s =>
    obtain ⟨ops, -, h⟩ := List.exists_of_findSome?_eq_some h
    exact (attempt_answer h).1.1

theorem trial_available (patterns : Nat → List (List Op)) (it : Nat) (sub : Instance) :
    ∀ t < sub.numberOfBinTypes, ((((trial patterns it sub).bins.map (·.binTypeId)).count t : Nat) : Int)
      ≤ max (sub.binType t).copies 0 := by
  unfold trial
  cases h : (patterns it).findSome? (attempt sub) with
  | none =>
    intro t _
    show (0 : Int) ≤ _
    exact le_max_right _ _
  | some s =>
    obtain ⟨ops, -, h⟩ := List.exists_of_findSome?_eq_some h
    exact (attempt_answer h).2

/-- Two items of 4 × 3 next to each other, or one above the other. -/
def two : List (List Op) :=
  [[.addBin 0 1 .vertical, .addNode 1 4, .addNode 2 3, .setItem 0, .addNode 1 8, .addNode 2 3, .setItem 0],
   [.addBin 0 1 .vertical, .addNode 1 4, .addNode 2 3, .setItem 0, .addNode 2 6, .setItem 0]]

/-- The two items and a bin of 20 × 6, with a width to minimize. -/
def wide : List BuilderOp :=
  [.setObjective .openDimensionX, .setNumberOfStages 3, .setCutType .nonExact,
   .addBinType 20 6, .addItemType 4 3 true (-1), .setItemTypeCopies 0 2]

/-- Evaluate a decidable statement about the instance built by a history and its search. -/
theorem run_witness (patterns : Nat → List (List Op)) (fuel : Nat) (ops : List BuilderOp)
    (P : Instance → List Solution × Bool → Bool)
    (h : (match runOps .default ops with
      | .ok i =>
        (match run (trial patterns) (fun _ => false) i fuel with
        | .ok r => P i r
        | .error _ => false)
      | .error _ => false) = true) :
    ∃ i r, runOps .default ops = .ok i ∧ run (trial patterns) (fun _ => false) i fuel = .ok r
      ∧ P i r = true := by
  cases hr : runOps .default ops with
  | error e => rw [hr] at h; simp at h
  | ok i =>
    rw [hr] at h
    dsimp only at h
    cases hs : run (trial patterns) (fun _ => false) i fuel with
    | error e => rw [hs] at h; simp at h
    | ok r => rw [hs] at h; exact ⟨i, r, rfl, hs, h⟩

/-- The hypotheses of the theorems are met: the width of the two items goes from 8 to 4, and the search
ends. -/
example : ∃ inst r, runOps .default wide = .ok inst ∧ (∀ t ∈ inst.binTypes, 0 < t.copies)
    ∧ 0 ≤ inst.parameters.cutThickness ∧ 0 < inst.numberOfItems ∧ inst.objective = .openDimensionX
    ∧ (∀ it sub, Answer sub (trial (fun _ => two) it sub))
    ∧ run (trial fun _ => two) (fun _ => false) inst 10 = .ok r
    ∧ r.1.map (·.width) = [8, 4] ∧ r.1.map (·.numberOfItems) = [2, 2] ∧ r.2 = true := by
  obtain ⟨i, r, h1, h2, h3⟩ := run_witness (fun _ => two) 10 wide (fun i r => decide (
    (∀ t ∈ i.binTypes, 0 < t.copies) ∧ 0 ≤ i.parameters.cutThickness ∧ 0 < i.numberOfItems
    ∧ i.objective = .openDimensionX ∧ r.1.map (·.width) = [8, 4] ∧ r.1.map (·.numberOfItems) = [2, 2]
    ∧ r.2 = true)) (by decide +kernel)
  obtain ⟨p1, p2, p3, p4, p5, p6, p7⟩ := of_decide_eq_true h3
  exact ⟨i, r, h1, p1, p2, p3, p4, trial_answer _, h2, p5, p6, p7⟩

/-- Four items of 3 × 3 in two columns, or in three. -/
def square : List Op :=
  [.addBin 0 1 .vertical, .addNode 1 3, .addNode 2 3, .setItem 0, .addNode 2 6, .setItem 0,
   .addNode 1 6, .addNode 2 3, .setItem 0, .addNode 2 6, .setItem 0]

/-- The four items in three columns. -/
def loose : List Op :=
  [.addBin 0 1 .vertical, .addNode 1 3, .addNode 2 3, .setItem 0, .addNode 2 6, .setItem 0,
   .addNode 1 6, .addNode 2 3, .setItem 0, .addNode 1 9, .addNode 2 3, .setItem 0]

/-- The four items in two bins. -/
def apart : List Op :=
  [.addBin 0 1 .vertical, .addNode 1 3, .addNode 2 3, .setItem 0, .addNode 2 6, .setItem 0,
   .addBin 0 1 .vertical, .addNode 1 3, .addNode 2 3, .setItem 0, .addNode 2 6, .setItem 0]

/-- The four items and two bins of 10 × 6. -/
def four (o : Objective) : List BuilderOp :=
  [.setObjective o, .setNumberOfStages 3, .setCutType .nonExact,
   .addBinType 10 6, .setBinTypeCopies 0 2, .addItemType 3 3 true (-1), .setItemTypeCopies 0 4]

/-- Bin packing: two bins, then one. -/
example : ∃ inst r, runOps .default (four .binPacking) = .ok inst
    ∧ (∀ t ∈ inst.binTypes, 0 < t.copies) ∧ 0 ≤ inst.parameters.cutThickness
    ∧ 0 < inst.numberOfItems ∧ inst.objective = .binPacking
    ∧ (∀ it sub, ∀ t < sub.numberOfBinTypes,
      ((((trial (fun _ => [apart, square]) it sub).bins.map (·.binTypeId)).count t : Nat) : Int)
        ≤ max (sub.binType t).copies 0)
    ∧ run (trial fun _ => [apart, square]) (fun _ => false) inst 10 = .ok r
    ∧ r.1.map (·.numberOfBins) = [2, 1] ∧ r.2 = true := by
  obtain ⟨i, r, h1, h2, h3⟩ := run_witness (fun _ => [apart, square]) 10 (four .binPacking)
    (fun i r => decide (
    (∀ t ∈ i.binTypes, 0 < t.copies) ∧ 0 ≤ i.parameters.cutThickness ∧ 0 < i.numberOfItems
    ∧ i.objective = .binPacking ∧ r.1.map (·.numberOfBins) = [2, 1] ∧ r.2 = true)) (by decide +kernel)
  obtain ⟨p1, p2, p3, p4, p5, p6⟩ := of_decide_eq_true h3
  exact ⟨i, r, h1, p1, p2, p3, p4, trial_available _, h2, p5, p6⟩

/-- The two items and a bin of 20 × 6 of which 2 are trimmed on the left. -/
def trimmed : List BuilderOp :=
  [.setObjective .openDimensionX, .setNumberOfStages 3, .setCutType .nonExact,
   .addBinType 20 6, .addTrims 0 ⟨2, .hard, 0, .soft, 0, .soft, 0, .soft⟩,
   .addItemType 4 3 true (-1), .setItemTypeCopies 0 2]

/-- An item of 18 × 3 and bins of 10 × 6 and 20 × 6. -/
def uneven : List BuilderOp :=
  [.setObjective .binPackingWithLeftovers, .setNumberOfStages 3, .setCutType .nonExact,
   .addBinType 10 6, .addBinType 20 6, .addItemType 18 3 true (-1)]

/-- An item of 10 × 1 and a bin of 20 × 6. -/
def long : List BuilderOp :=
  [.setObjective .openDimensionX, .setNumberOfStages 3, .setCutType .nonExact,
   .addBinType 20 6, .addItemType 10 1 false (-1)]

/-- A bin of 10 × 6 and no items. -/
def empty (o : Objective) : List BuilderOp :=
  [.setObjective o, .setNumberOfStages 3, .setCutType .nonExact, .addBinType 10 6]

/-- A single bin of 4 × 6 and a single item of 10 × 1. -/
def tight (sub : Instance) : Bool :=
  decide (sub.numberOfItems = 1 ∧ sub.numberOfBinTypes = 1 ∧ sub.numberOfItemTypes = 1
    ∧ (sub.itemType 0).w = 10 ∧ (sub.itemType 0).h = 1 ∧ sub.parameters.cutThickness = 0
    ∧ usable (sub.binType 0) = ⟨0, 4, 0, 6⟩)
  && decide ((sub.binType 0).leftTrim = 0 ∧ (sub.binType 0).rightTrim = 0
    ∧ (sub.binType 0).bottomTrim = 0 ∧ (sub.binType 0).topTrim = 0
    ∧ (sub.binType 0).w = 4 ∧ (sub.binType 0).h = 6)

/-- No answer packs the item. -/
theorem tight_full {sub : Instance} {best : Solution} (h : tight sub = true) (ha : Answer sub best) :
    best.full sub = false := by
  unfold tight at h
  rw [Bool.and_eq_true] at h
  obtain ⟨h, h'⟩ := h
  obtain ⟨p1, p2, p3, p4, p5, p6, p7⟩ := of_decide_eq_true h
  obtain ⟨q1, q2, q3, q4, q5, q6⟩ := of_decide_eq_true h'
  obtain ⟨ops, hb⟩ := ha.run
  unfold Solution.full
  rw [decide_eq_false_iff_not, p1, (assembled_totals (Assembled.built hb)).2.1.1, numberOfItems_bins]
  intro hsum
  have : ∃ bin ∈ best.bins, itemNodes bin ≠ [] := by
    by_contra hno
    have e : ∀ bin ∈ best.bins, (fun b : SolutionBin => b.copies * ((itemNodes b).length : Int)) bin
        = (fun _ => (0 : Int)) bin := by
      intro bin hbin
      have : itemNodes bin = [] := by
        by_contra h0
        exact hno ⟨bin, hbin, h0⟩
      show bin.copies * ((itemNodes bin).length : Int) = 0
      rw [this]
      simp
    rw [List.map_congr_left e] at hsum
    simp at hsum
  obtain ⟨bin, hbin, hne⟩ := this
  obtain ⟨n, hn⟩ := List.exists_mem_of_ne_nil _ hne
  obtain ⟨b0, d, -, st⟩ := built_bin hb hbin
  obtain ⟨e1, -⟩ := staged_frame st
  have ht : bin.binTypeId = 0 := by
    have := d.type_lt
    rw [← e1] at this
    omega
  obtain ⟨j1, -⟩ := items_inside_apart hb hbin (ha.oriented bin hbin) (by
    rw [ht]
    exact ⟨by omega, by omega, by omega, by omega, by omega, by omega⟩) (by omega)
  obtain ⟨⟨k1, k2, k3, k4⟩, -⟩ := j1 n hn
  rw [ht, p7] at k1 k2 k3 k4
  have k1 : (0 : Int) ≤ n.l := k1
  have k2 : n.r ≤ 4 := k2
  have k3 : (0 : Int) ≤ n.b := k3
  have k4 : n.t ≤ 6 := k4
  obtain ⟨i, hi, -, hd⟩ := items_dimensions hb hbin n hn
  have hi0 : i = 0 := by omega
  subst hi0
  rw [p4, p5] at hd
  omega

end SequentialEx

open SequentialEx

/-- **C121**, negation: hard trims are ignored; a solution reported as feasible has an item in them. -/
theorem sequential_trims_ignored : ∃ ops inst solver r, runOps .default ops = .ok inst
    ∧ inst.objective = .openDimensionX ∧ (∀ it sub, Answer sub (solver it sub))
    ∧ run solver (fun _ => false) inst 10 = .ok r
    ∧ ∃ s ∈ r.1, s.feasible = true ∧ ∃ bin ∈ s.bins, ∃ n ∈ itemNodes bin,
      (inst.binType bin.binTypeId).leftTrimType = .hard ∧ n.l < (inst.binType bin.binTypeId).leftTrim := by
  obtain ⟨i, r, h1, h2, h3⟩ := run_witness (fun _ => two) 10 trimmed (fun i r => decide (
    i.objective = .openDimensionX ∧ ∃ s ∈ r.1, s.feasible = true ∧ ∃ bin ∈ s.bins, ∃ n ∈ itemNodes bin,
      (i.binType bin.binTypeId).leftTrimType = .hard ∧ n.l < (i.binType bin.binTypeId).leftTrim))
    (by decide +kernel)
  obtain ⟨p1, p2⟩ := of_decide_eq_true h3
  exact ⟨trimmed, i, _, r, h1, p1, trial_answer _, h2, p2⟩

/-- **C121**, negation: with leftovers and bins of different widths, a solution reported as feasible has
an item that sticks out of its bin. -/
theorem sequential_widths_mixed : ∃ ops inst solver r, runOps .default ops = .ok inst
    ∧ inst.objective = .binPackingWithLeftovers ∧ (∀ it sub, Answer sub (solver it sub))
    ∧ run solver (fun _ => false) inst 10 = .ok r
    ∧ ∃ s ∈ r.1, s.feasible = true ∧ ∃ bin ∈ s.bins, ∃ n ∈ itemNodes bin,
      (inst.binType bin.binTypeId).w < n.r := by
  obtain ⟨i, r, h1, h2, h3⟩ := run_witness
    (fun _ => [[.addBin 0 1 .vertical, .addNode 1 18, .addNode 2 3, .setItem 0]]) 10 uneven
    (fun i r => decide (i.objective = .binPackingWithLeftovers ∧ ∃ s ∈ r.1, s.feasible = true
      ∧ ∃ bin ∈ s.bins, ∃ n ∈ itemNodes bin, (i.binType bin.binTypeId).w < n.r)) (by decide +kernel)
  obtain ⟨p1, p2⟩ := of_decide_eq_true h3
  exact ⟨uneven, i, _, r, h1, p1, trial_answer _, h2, p2⟩

/-- **C121**, negation: with leftovers, a solution may be reported although one with the same number of
bins and a smaller width was reported before. -/
theorem sequential_leftovers_worse : ∃ ops inst solver s s', runOps .default ops = .ok inst
    ∧ inst.objective = .binPackingWithLeftovers ∧ (∀ it sub, Answer sub (solver it sub))
    ∧ run solver (fun _ => false) inst 10 = .ok ([s, s'], true)
    ∧ s'.numberOfBins = s.numberOfBins ∧ s.width < s'.width := by
  obtain ⟨i, r, h1, h2, h3⟩ := run_witness (fun it => if it = 0 then [square] else [loose]) 10
    (four .binPackingWithLeftovers)
    (fun i r => decide (i.objective = .binPackingWithLeftovers ∧ r.2 = true)
      && (match r.1 with
        | [s, s'] => decide (s'.numberOfBins = s.numberOfBins ∧ s.width < s'.width)
        | _ => false)) (by decide +kernel)
  rw [Bool.and_eq_true] at h3
  obtain ⟨h3, h4⟩ := h3
  obtain ⟨p1, p2⟩ := of_decide_eq_true h3
  obtain ⟨l, f⟩ := r
  dsimp only at h4 p2
  subst p2
  split at h4
  · obtain ⟨p3, p4⟩ := of_decide_eq_true h4
    exact ⟨four .binPackingWithLeftovers, i, _, _, _, h1, p1, trial_answer _, h2, p3, p4⟩
  · cases h4

/-- **C121**, negation: without items, the search with leftovers reads before the bins, and that for an
open width or height throws. -/
theorem sequential_no_items : (∃ inst, runOps .default (empty .binPackingWithLeftovers) = .ok inst
      ∧ ∀ solver stop fuel, run solver stop inst fuel = .error .ub)
    ∧ (∃ inst, runOps .default (empty .openDimensionX) = .ok inst
      ∧ run (fun _ sub => Solution.init sub) (fun _ => false) inst 10 = .error .invalidArgument)
    ∧ (∃ inst, runOps .default (empty .openDimensionY) = .ok inst
      ∧ run (fun _ sub => Solution.init sub) (fun _ => false) inst 10 = .error .invalidArgument) := by
  refine ⟨?_, ?_, ?_⟩
  · obtain ⟨i, h1, h2⟩ := instance_witness (fun i => match SequentialFeasibility.start i with
      | .error .ub => true
      | _ => false) .default (empty .binPackingWithLeftovers) (by decide +kernel)
    refine ⟨i, h1, fun solver stop fuel => ?_⟩
    unfold run
    split at h2
    · rename_i h; rw [h]; rfl
    · cases h2
  · obtain ⟨i, h1, h2⟩ := instance_witness (fun i =>
      match run (fun _ sub => Solution.init sub) (fun _ => false) i 10 with
      | .error .invalidArgument => true
      | _ => false) .default (empty .openDimensionX) (by decide +kernel)
    refine ⟨i, h1, ?_⟩
    split at h2
    · assumption
    · cases h2
  · obtain ⟨i, h1, h2⟩ := instance_witness (fun i =>
      match run (fun _ sub => Solution.init sub) (fun _ => false) i 10 with
      | .error .invalidArgument => true
      | _ => false) .default (empty .openDimensionY) (by decide +kernel)
    refine ⟨i, h1, ?_⟩
    split at h2
    · assumption
    · cases h2

/-- **C121**, negation: without items, bin packing never ends. -/
theorem sequential_no_items_forever : ∃ ops inst solver, runOps .default ops = .ok inst
    ∧ inst.objective = .binPacking ∧ inst.numberOfItems = 0 ∧ (∀ it sub, Answer sub (solver it sub))
    ∧ ∀ fuel, ∃ r, run solver (fun _ => false) inst fuel = .ok r ∧ r.2 = false
      ∧ r.1.length = fuel := by
  obtain ⟨i, h1, h2⟩ := instance_witness (fun i => decide (i.objective = .binPacking
      ∧ i.numberOfItems = 0)
    && ((match SequentialFeasibility.start i with
      | .ok b => decide (b.bins ≤ 0)
      | .error _ => false)
    && (match runOps i.objective (subOps i []) with
      | .ok sub => (Solution.init sub).full sub
        && (match transfer i [] (Solution.init sub) with
          | .ok s => s.itemCopiesFeasible
          | .error _ => false)
      | .error _ => false))) .default (empty .binPacking) (by decide +kernel)
  rw [Bool.and_eq_true, Bool.and_eq_true] at h2
  obtain ⟨p, q, w⟩ := h2
  obtain ⟨p1, p2⟩ := of_decide_eq_true p
  refine ⟨empty .binPacking, i, trial fun _ => [], h1, p1, p2, trial_answer _, ?_⟩
  cases hs : runOps i.objective (subOps i []) with
  | error e => rw [hs] at w; cases w
  | ok sub =>
    rw [hs] at w
    dsimp only at w
    rw [Bool.and_eq_true] at w
    obtain ⟨w1, w2⟩ := w
    cases ht : transfer i [] (Solution.init sub) with
    | error e => rw [ht] at w2; cases w2
    | ok s =>
      rw [ht] at w2
      dsimp only at w2
      have hloop : ∀ fuel it (b : Bounds), b.bins ≤ 0 →
          ∃ r, loop (trial fun _ => []) (fun _ => false) i fuel it b = .ok r ∧ r.2 = false
            ∧ r.1.length = fuel := by
        intro fuel
        induction fuel with
        | zero => intro it b _; exact ⟨_, rfl, rfl, rfl⟩
        | succ fuel ih =>
          intro it b hb
          obtain ⟨r, e1, e2, e3⟩ := ih (it + 1) { b with bins := -1 } (by simp)
          refine ⟨(s :: r.1, r.2), ?_, e2, by simp [e3]⟩
          have hbins : subBins i b = .ok [] := by
            unfold subBins
            rw [if_pos p1]
            cases i.binTypes with
            | nil => rfl
            | cons t ts => unfold takeBins; rw [if_neg (by omega)]
          have hsol : trial (fun _ => []) it sub = Solution.init sub := rfl
          have hupd : update i b (Solution.init sub) = .ok (some { b with bins := -1 }) := by
            unfold update
            rw [if_pos p1]
            rfl
          unfold loop
          rw [if_neg (by simp), hbins]
          show (runOps i.objective (subOps i []) >>= _) = _
          rw [hs]
          show (if (!(trial (fun _ => []) it sub).full sub) = true then _ else _) = _
          rw [hsol, w1, if_neg (by simp), ht]
          show (if (!s.itemCopiesFeasible) = true then _ else _) = _
          rw [w2, if_neg (by simp), hupd]
          show (loop _ _ i fuel (it + 1) _ >>= _) = _
          rw [e1]
          rfl
      intro fuel
      unfold run
      cases hb : SequentialFeasibility.start i with
      | error e => rw [hb] at q; cases q
      | ok b =>
        rw [hb] at q
        exact hloop fuel 0 b (of_decide_eq_true q)

/-- **C121**, negation: the first bound is twice the area of the items, which may be too small for a long
item: a bin in which the item fits, and nothing is reported, whatever the solver. -/
theorem sequential_misses : ∃ ops inst, runOps .default ops = .ok inst
    ∧ inst.objective = .openDimensionX ∧ (∃ s, Answer inst s ∧ s.full inst = true)
    ∧ ∀ solver stop, (∀ it ops sub, runOps inst.objective ops = .ok sub → Answer sub (solver it sub)) →
      ∀ fuel, 0 < fuel → run solver stop inst fuel = .ok ([], true) := by
  obtain ⟨i, h1, h2⟩ := instance_witness (fun i => decide (i.objective = .openDimensionX)
    && ((attempt i [.addBin 0 1 .vertical, .addNode 1 10, .addNode 2 1, .setItem 0]).isSome
    && ((match SequentialFeasibility.start i with
      | .ok b => (match subBins i b with
        | .ok bins => (match runOps i.objective (subOps i bins) with
          | .ok sub => tight sub
          | .error _ => false)
        | .error _ => false)
      | .error _ => false)))) .default long (by decide +kernel)
  rw [Bool.and_eq_true, Bool.and_eq_true] at h2
  obtain ⟨p, q, w⟩ := h2
  refine ⟨long, i, h1, of_decide_eq_true p, ?_, ?_⟩
  · obtain ⟨s, hs⟩ := Option.isSome_iff_exists.mp q
    exact ⟨s, (attempt_answer hs).1⟩
  · intro solver stop ha fuel hf
    obtain ⟨m, rfl⟩ : ∃ m, fuel = m + 1 := ⟨fuel - 1, by omega⟩
    unfold run
    cases hb : SequentialFeasibility.start i with
    | error e => rw [hb] at w; cases w
    | ok b =>
      rw [hb] at w
      dsimp only at w
      show loop solver stop i (m + 1) 0 b = _
      unfold loop
      by_cases hst : stop 0 = true
      · rw [if_pos hst]
      · rw [if_neg hst]
        cases hs : subBins i b with
        | error e => rw [hs] at w; cases w
        | ok bins =>
          rw [hs] at w
          dsimp only at w
          show (runOps i.objective (subOps i bins) >>= _) = _
          cases hr : runOps i.objective (subOps i bins) with
          | error e => rw [hr] at w; cases w
          | ok sub =>
            rw [hr] at w
            show (if (!(solver 0 sub).full sub) = true then _ else _) = _
            rw [tight_full w (ha 0 _ sub hr), if_pos (by rfl)]

end PackingSolver.Guil
