import Verif.Props.Box.TreeBound
import Verif.Props.Box.TreeSearchEx

/-!
# Box tree search: concrete cases and counterexamples (C99, C100)
-/

namespace PackingSolver.Box.TreeSearch

open Box.Spec

theorem follow_descends {s : Scheme} {n : Node} (cs : List Nat) : ∀ {m m' : Node},
    Descends s n m → follow s m cs = .ok m' → Descends s n m' := by
  induction cs with
  | nil => intro m m' h e; cases e; exact h
  | cons c cs ih =>
    intro m m' h e
    unfold follow at e
    obtain ⟨l, h1, h2⟩ := bind_ok.mp e
    split at h2
    · cases h2
    · next i hi =>
      obtain ⟨k, h3, h4⟩ := bind_ok.mp h2
      exact ih (.child h h1 (List.mem_of_getElem? hi) h3) h4

theorem follow_append {s : Scheme} (cs ds : List Nat) : ∀ {n m : Node}, follow s n cs = .ok m →
    follow s n (cs ++ ds) = follow s m ds := by
  induction cs with
  | nil => intro n m e; cases e; rfl
  | cons c cs ih =>
    intro n m e
    unfold follow at e
    obtain ⟨l, h1, h2⟩ := bind_ok.mp e
    split at h2
    · cases h2
    · next i hi =>
      obtain ⟨k, h3, h4⟩ := bind_ok.mp h2
      have := ih h4
      rw [← this]
      conv_lhs => rw [List.cons_append]; unfold follow
      rw [h1]
      simp only [bind, Except.bind, hi, h3]

/-- A longer sequence of choices leads to a descendant. -/
theorem runs_descends {ops : List InstanceBuilder.Op} {p : Parameters} {cs ds : List Nat}
    (h : runs ops p cs = true) (h' : runs ops p (cs ++ ds) = true) :
    Descends (schemeOf ops p) (nodeOf (schemeOf ops p) cs)
      (nodeOf (schemeOf ops p) (cs ++ ds)) := by
  unfold runs at h h'
  simp only [Bool.and_eq_true] at h h'
  have e1 := eq_ok_okD (d := {}) h.1.2
  have e2 : follow (schemeOf ops p) (schemeOf ops p).rootNode (cs ++ ds)
      = .ok (nodeOf (schemeOf ops p) (cs ++ ds)) := eq_ok_okD h'.1.2
  exact follow_descends ds .self ((follow_append cs ds e1).symm.trans e2)

/-! ## Concrete cases -/

namespace ExBound

/-- Three items, each of which fills a bin, and a small one. -/
def opsBins : List InstanceBuilder.Op :=
  [.setObjective .binPacking, .addBinType 10 10 1, .setBinTypeCopies 0 4,
   .addItemType 9 10 1, .setItemTypeCopies 0 2, .addItemType 8 10 1, .addItemType 2 1 1]

/-- Four items in one bin. -/
def ops (o : PackingSolver.Objective) : List InstanceBuilder.Op :=
  [.setObjective o, .addBinType 20 10 1, .addItemType 5 5 1, .setItemTypeCopies 0 2,
   .addItemType 4 5 1, .addItemType 10 1 1]

def params : Parameters := { direction := .x }

/-- The conditions on the instance. -/
def fine (ops : List InstanceBuilder.Op) : Bool :=
  (instOf ops).binTypes.all (fun b => b.resources.isEmpty && decide (0 < b.cost))
  && (instOf ops).itemTypes.all (fun t => decide (t.copies ≠ -1 ∧ 0 ≤ t.profit))
  && (instOf ops).itemTypes.any (fun t => (orientations t).any fun o => decide (o.y = 1))
  && (instOf ops).itemTypes.any (fun t => (orientations t).any fun o => decide (o.z = 1))

theorem fine_ok {ops : List InstanceBuilder.Op} (h : fine ops = true) :
    CapacitiesNonneg (instOf ops) ∧ CopiesDefinite (instOf ops) ∧ NoResources (instOf ops)
    ∧ Slim (instOf ops) .x ∧ (∀ b ∈ (instOf ops).binTypes, 0 < b.cost)
    ∧ (∀ t ∈ (instOf ops).itemTypes, 0 ≤ t.profit)
    ∧ ∀ b ∈ (instOf ops).binTypes, ∀ r ∈ b.resources, r.penalize = false := by
  unfold fine at h
  simp only [Bool.and_eq_true, List.all_eq_true, List.any_eq_true, List.isEmpty_iff,
    decide_eq_true_eq] at h
  obtain ⟨⟨⟨h1, h2⟩, h3⟩, h4⟩ := h
  have hno : NoResources (instOf ops) := fun b hb => (h1 b hb).1
  refine ⟨(no_resources_nonneg hno).1, fun t ht => (h2 t ht).1, hno, ⟨.inl rfl, .inr h3, .inr h4⟩,
    fun b hb => (h1 b hb).2, fun t ht => (h2 t ht).2, ?_⟩
  intro b hb r hr; rw [(h1 b hb).1] at hr; cases hr

/-- A node is dropped because of a leaf, and has a descendant leaf. -/
def dropped (ops : List InstanceBuilder.Op) (c1 c2 ds : List Nat) : Bool :=
  fine ops && runs ops params c1 && runs ops params c2 && runs ops params (c1 ++ ds)
  && (match bound (schemeOf ops params) (nodeOf (schemeOf ops params) c1)
      (nodeOf (schemeOf ops params) c2) with | .ok b => b | .error _ => false)
  && leaf (schemeOf ops params) (nodeOf (schemeOf ops params) (c1 ++ ds))

theorem dropped_ok {ops : List InstanceBuilder.Op} {c1 c2 ds : List Nat}
    (h : dropped ops c1 c2 ds = true) :
    InstanceBuilder.runOps .default ops = .ok (instOf ops)
    ∧ Scheme.new .default (instOf ops) params = .ok (schemeOf ops params)
    ∧ Reached (schemeOf ops params) (nodeOf (schemeOf ops params) c1)
    ∧ Reached (schemeOf ops params) (nodeOf (schemeOf ops params) c2)
    ∧ Descends (schemeOf ops params) (nodeOf (schemeOf ops params) c1)
      (nodeOf (schemeOf ops params) (c1 ++ ds))
    ∧ bound (schemeOf ops params) (nodeOf (schemeOf ops params) c1)
      (nodeOf (schemeOf ops params) c2) = .ok true
    ∧ leaf (schemeOf ops params) (nodeOf (schemeOf ops params) (c1 ++ ds)) = true := by
  unfold dropped at h
  simp only [Bool.and_eq_true] at h
  obtain ⟨⟨⟨⟨⟨-, h1⟩, h2⟩, h3⟩, h4⟩, h5⟩ := h
  refine ⟨(runs_ok h1).1, (runs_ok h1).2.1, (runs_ok h1).2.2.1, (runs_ok h2).2.2.1,
    runs_descends h1 h3, ?_, h5⟩
  revert h4
  cases bound (schemeOf ops params) (nodeOf (schemeOf ops params) c1)
      (nodeOf (schemeOf ops params) c2) with
  | ok b => intro h4; rw [show b = true from h4]
  | error e => intro h4; cases h4

end ExBound

open ExBound in
/-- The hypotheses of the theorems of C99 are met: after a leaf with 3 bins, of extent 14, without
waste, or with all items, another part of the tree is dropped which does contain leaves. -/
example : dropped opsBins [0] [1, 0, 0, 0] [0, 0, 0] = true
    ∧ dropped (ops .openDimensionX) [0, 2, 0] [0, 0, 0, 0] [0] = true
    ∧ dropped (ops .binPackingWithLeftovers) [0, 2, 0] [0, 0, 0, 0] [0] = true
    ∧ dropped (ops .knapsack) [0, 2, 0] [0, 0, 0, 0] [0] = true :=
  ⟨by decide +kernel, by decide +kernel, by decide +kernel, by decide +kernel⟩

open ExBound in
/-- The directions are those of the driver, and the objectives are ranked. -/
example : ∀ o ∈ [PackingSolver.Objective.openDimensionX, .binPackingWithLeftovers, .knapsack],
    params.direction ∈ directions (instOf (ops o)) := by decide +kernel

open ExBound in
/-- C99 there: the leaf of extent 14 is preferred to the leaf of extent 19. -/
example : better (schemeOf (ops .openDimensionX) params)
    (nodeOf (schemeOf (ops .openDimensionX) params) [0, 0, 0, 0])
    (nodeOf (schemeOf (ops .openDimensionX) params) [0, 1, 1, 0]) = .ok true := by decide +kernel

open ExBound in
/-- C100 there: a node dominates another one with the same items, but not conversely. -/
example : dominates (nodeOf (schemeOf (ops .openDimensionX) params) [0, 2])
      (nodeOf (schemeOf (ops .openDimensionX) params) [2, 0]) = true
    ∧ dominates (nodeOf (schemeOf (ops .openDimensionX) params) [2, 0])
      (nodeOf (schemeOf (ops .openDimensionX) params) [0, 2]) = false
    ∧ (nodeOf (schemeOf (ops .openDimensionX) params) [0, 2]).itemNumberOfCopies
      = (nodeOf (schemeOf (ops .openDimensionX) params) [2, 0]).itemNumberOfCopies
    ∧ blockedUpTo (instOf (ops .openDimensionX)) .x (lastItems (packingOf
        (solOf (schemeOf (ops .openDimensionX) params)
          (nodeOf (schemeOf (ops .openDimensionX) params) [0, 2])))) (1, 0) = 5
    ∧ blockedUpTo (instOf (ops .openDimensionX)) .x (lastItems (packingOf
        (solOf (schemeOf (ops .openDimensionX) params)
          (nodeOf (schemeOf (ops .openDimensionX) params) [2, 0])))) (1, 0) = 15 := by
  decide +kernel

/-! ## Optimal solutions are dropped -/

namespace ExThick

/-- Both items fit in a bin, one above the other.  Next to the first one remain 2 units of width, which
the smallest side of 5 does not fill, but which the second item, whose long side lies there, does. -/
def ops : List InstanceBuilder.Op :=
  [.setObjective .binPacking, .addBinType 1 10 10, .setBinTypeCopies 0 2,
   .addItemType 1 8 5, .addItemTypeRotation 0 .xyz, .addItemTypeRotation 0 .xzy,
   .addItemType 1 10 5]

end ExThick

open ExThick in
/-- **C99**, negation: `BinPacking`: the volume next to an item that is too narrow for the smallest
item is counted as wasted up to the full size of the face, although another item placed beside covers
it; after a solution with two bins the search drops the node below which there is one with a single
bin. -/
theorem optimum_dropped : ∃ (ops : List InstanceBuilder.Op) (inst : Instance) (s : Scheme)
    (n1 n2 m : Node) (sol2 solm : Solution), InstanceBuilder.runOps .default ops = .ok inst
    ∧ Direction.x ∈ directions inst ∧ Scheme.new .default inst { direction := .x } = .ok s
    ∧ Reached s n1 ∧ Reached s n2 ∧ Descends s n1 m ∧ bound s n1 n2 = .ok true
    ∧ toSolution s n2 = .ok sol2 ∧ toSolution s m = .ok solm
    ∧ AllPacked inst (packingOf solm) ∧ AllPacked inst (packingOf sol2)
    ∧ Spec.numberOfBins (packingOf solm) = 1 ∧ Spec.numberOfBins (packingOf sol2) = 2 := by
  have h1 : runs ops { direction := .x } [0] = true := by decide +kernel
  have h2 : runs ops { direction := .x } [1, 0] = true := by decide +kernel
  have h3 : runs ops { direction := .x } ([0] ++ [0]) = true := by decide +kernel
  refine ⟨ops, _, _, _, _, _, _, _, (runs_ok h1).1, by decide +kernel, (runs_ok h1).2.1,
    (runs_ok h1).2.2.1, (runs_ok h2).2.2.1, runs_descends h1 h3, by decide +kernel,
    (runs_ok h2).2.2.2, (runs_ok h3).2.2.2, ?_, ?_, by decide +kernel, by decide +kernel⟩ <;>
  · unfold AllPacked; decide +kernel

namespace ExOpenY

/-- Two items, which fit next to each other. -/
def ops : List InstanceBuilder.Op :=
  [.setObjective .openDimensionY, .addBinType 100 10 1, .addItemType 50 5 1,
   .setItemTypeCopies 0 2]

end ExOpenY

open ExOpenY in
/-- **C99**, negation: `OpenDimensionY`: the bound divides the volume by a face of the bin that
contains the open dimension.  After a solution of extent 10 the search drops the whole tree, in which
there is one of extent 5. -/
theorem openDimensionY_dropped : ∃ (ops : List InstanceBuilder.Op) (inst : Instance) (s : Scheme)
    (n2 m : Node) (sol2 solm : Solution), InstanceBuilder.runOps .default ops = .ok inst
    ∧ directions inst = [.y] ∧ Scheme.new .default inst { direction := .y } = .ok s
    ∧ Reached s n2 ∧ Descends s s.rootNode m ∧ bound s s.rootNode n2 = .ok true
    ∧ toSolution s n2 = .ok sol2 ∧ toSolution s m = .ok solm
    ∧ AllPacked inst (packingOf solm) ∧ AllPacked inst (packingOf sol2)
    ∧ usedY inst (packingOf solm) = 5 ∧ usedY inst (packingOf sol2) = 10 := by
  have h1 : runs ops { direction := .y } [] = true := by decide +kernel
  have h2 : runs ops { direction := .y } [0, 0] = true := by decide +kernel
  have h3 : runs ops { direction := .y } ([] ++ [0, 1]) = true := by decide +kernel
  refine ⟨ops, _, _, _, _, _, _, (runs_ok h1).1, by decide +kernel, (runs_ok h1).2.1,
    (runs_ok h2).2.2.1, runs_descends h1 h3, by decide +kernel,
    (runs_ok h2).2.2.2, (runs_ok h3).2.2.2, ?_, ?_, by decide +kernel, by decide +kernel⟩ <;>
  · unfold AllPacked; decide +kernel

namespace ExLeftovers

/-- Three cubes. -/
def ops : List InstanceBuilder.Op :=
  [.setObjective .binPackingWithLeftovers, .addBinType 10 10 10, .addItemType 1 1 1,
   .setItemTypeCopies 0 3]

end ExLeftovers

open ExLeftovers in
/-- **C99**, negation: `BinPackingWithLeftovers`: nodes are compared by their waste.  Three cubes in the
shape of an L have no waste; after that solution the search drops the whole tree, in which there is
one with the cubes in a line, which leaves more of the bin. -/
theorem leftovers_dropped : ∃ (ops : List InstanceBuilder.Op) (inst : Instance) (s : Scheme)
    (n2 m : Node) (sol2 solm : Solution), InstanceBuilder.runOps .default ops = .ok inst
    ∧ Direction.x ∈ directions inst ∧ Scheme.new .default inst { direction := .x } = .ok s
    ∧ Slim inst .x
    ∧ Reached s n2 ∧ Descends s s.rootNode m ∧ bound s s.rootNode n2 = .ok true
    ∧ better s m n2 = .ok false
    ∧ toSolution s n2 = .ok sol2 ∧ toSolution s m = .ok solm
    ∧ AllPacked inst (packingOf solm) ∧ AllPacked inst (packingOf sol2)
    ∧ Better inst (packingOf sol2) (packingOf solm) := by
  have h1 : runs ops { direction := .x } [] = true := by decide +kernel
  have h2 : runs ops { direction := .x } [0, 0, 1] = true := by decide +kernel
  have h3 : runs ops { direction := .x } ([] ++ [0, 0, 0]) = true := by decide +kernel
  refine ⟨ops, _, _, _, _, _, _, (runs_ok h1).1, by decide +kernel, (runs_ok h1).2.1,
    ?_, (runs_ok h2).2.2.1, runs_descends h1 h3, by decide +kernel, by decide +kernel,
    (runs_ok h2).2.2.2, (runs_ok h3).2.2.2, ?_, ?_, ?_⟩
  · unfold Slim SlimAlong; decide +kernel
  · unfold AllPacked; decide +kernel
  · unfold AllPacked; decide +kernel
  · have e : (instOf ops).objective = .binPackingWithLeftovers := by decide +kernel
    unfold Better
    rw [e]
    dsimp only
    decide +kernel

namespace ExNegative

/-- The second item costs more than it brings. -/
def ops : List InstanceBuilder.Op :=
  [.setObjective .knapsack, .addBinType 10 10 10, .addItemType 5 5 5, .setItemTypeProfit 0 5,
   .addItemType 5 5 5, .setItemTypeProfit 1 (-1)]

end ExNegative

open ExNegative in
/-- **C99**, negation: `Knapsack`: a solution with all items makes the search drop every other node,
although with a negative profit there is a better one. -/
theorem knapsack_dropped : ∃ (ops : List InstanceBuilder.Op) (inst : Instance) (s : Scheme)
    (n1 n2 : Node) (sol1 sol2 : Solution), InstanceBuilder.runOps .default ops = .ok inst
    ∧ Direction.x ∈ directions inst ∧ Scheme.new .default inst { direction := .x } = .ok s
    ∧ Reached s n1 ∧ Reached s n2 ∧ bound s n1 n2 = .ok true
    ∧ toSolution s n1 = .ok sol1 ∧ toSolution s n2 = .ok sol2
    ∧ reportedProfit inst (packingOf sol2) < reportedProfit inst (packingOf sol1) := by
  have h1 : runs ops { direction := .x } [0] = true := by decide +kernel
  have h2 : runs ops { direction := .x } [0, 0] = true := by decide +kernel
  exact ⟨ops, _, _, _, _, _, _, (runs_ok h1).1, by decide +kernel, (runs_ok h1).2.1,
    (runs_ok h1).2.2.1, (runs_ok h2).2.2.1, by decide +kernel, (runs_ok h1).2.2.2,
    (runs_ok h2).2.2.2, by decide +kernel⟩

/-! ## A dominated node is better -/

namespace ExDominance

/-- A small bin for one of two similar items of different weights, and a larger bin with a maximum
weight, where only the light one leaves room for the third item. -/
def ops : List InstanceBuilder.Op :=
  [.setObjective .knapsack, .addBinType 10 6 1, .addBinType 10 10 1,
   .setBinTypeMaximumWeight 1 (.fin 10),
   .addItemType 9 6 1, .setItemTypeWeight 0 9, .addItemType 10 6 1, .setItemTypeWeight 1 1,
   .addItemType 10 4 1, .setItemTypeWeight 2 9]

end ExDominance

theorem descends_of_stuck {s : Scheme} {n m : Node} (h : insertions s n = .ok [])
    (hd : Descends s n m) : m = n := by
  induction hd with
  | self => rfl
  | child _ hl hi _ ih =>
    subst ih
    rw [h] at hl
    cases hl
    cases hi

open ExDominance in
/-- **C100**, negation: the dominance test ignores the weight in the last bin: a node below which all
items are packed is dominated by one below which they never are. -/
theorem dominance_drops : ∃ (ops : List InstanceBuilder.Op) (inst : Instance) (s : Scheme)
    (n1 n2 m : Node), InstanceBuilder.runOps .default ops = .ok inst
    ∧ Scheme.new .default inst { direction := .any } = .ok s ∧ directions inst = [.any]
    ∧ Reached s n1 ∧ Reached s n2 ∧ n1.itemNumberOfCopies = n2.itemNumberOfCopies
    ∧ dominates n1 n2 = true
    ∧ Descends s n2 m ∧ leaf s m = true ∧ ∀ m', Descends s n1 m' → leaf s m' = false := by
  have h1 : runs ops { direction := .any } [1, 0] = true := by decide +kernel
  have h2 : runs ops { direction := .any } [0, 0] = true := by decide +kernel
  have h3 : runs ops { direction := .any } ([0, 0] ++ [0]) = true := by decide +kernel
  refine ⟨ops, _, _, _, _, _, (runs_ok h1).1, (runs_ok h1).2.1, by decide +kernel,
    (runs_ok h1).2.2.1, (runs_ok h2).2.2.1, by decide +kernel, by decide +kernel,
    runs_descends h2 h3, by decide +kernel, fun m' hm' => ?_⟩
  have e : insertions (schemeOf ops { direction := .any })
      (nodeOf (schemeOf ops { direction := .any }) [1, 0]) = .ok [] := by decide +kernel
  rw [descends_of_stuck e hm']
  decide +kernel

end PackingSolver.Box.TreeSearch
