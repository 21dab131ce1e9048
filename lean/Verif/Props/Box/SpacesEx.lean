import Verif.Props.Box.Spaces
import Verif.Lemmas.Box.SpacesRun

/-!
# The search over maximal spaces of boxes: concrete cases, and what fails (C103–C105)
-/

namespace PackingSolver.Box.MaximalSpaces

open Box.Spec
open Box.MaximalSpaces.Spec (Reached Descends IgnoresValue itemsOf)
open TreeSearch (instOf)

namespace Ex

/-- Two items of 4 × 3 × 2, which may be turned about the vertical axis, and one of 5 × 3 × 4, in a
bin of 10 × 6 × 4. -/
def ops : List InstanceBuilder.Op :=
  [.setObjective .knapsack, .addBinType 10 6 4, .addItemType 4 3 2, .addItemTypeRotation 0 .xyz,
    .addItemTypeRotation 0 .yxz, .setItemTypeCopies 0 2, .addItemType 5 3 4]

/-- Items of 8 × 2, 10 × 1 (weight 10) and 2 × 5; maximum weight 5. -/
def opsWeight : List InstanceBuilder.Op :=
  [.setObjective .knapsack, .addBinType 10 5 1, .setBinTypeMaximumWeight 0 (.fin 5),
    .addItemType 8 2 1, .addItemType 10 1 1, .setItemTypeWeight 1 10, .addItemType 2 5 1]

/-- Five item types in a bin of 5 × 3 × 1; the first one, 3 × 2, may be turned. -/
def opsDominance : List InstanceBuilder.Op :=
  [.setObjective .knapsack, .addBinType 5 3 1, .addItemType 3 2 1, .addItemTypeRotation 0 .xyz,
    .addItemTypeRotation 0 .yxz, .setItemTypeProfit 0 1, .addItemType 5 1 1,
    .setItemTypeProfit 1 3, .addItemType 3 3 1, .setItemTypeProfit 2 5, .addItemType 2 2 1,
    .setItemTypeProfit 3 3, .addItemType 2 3 1, .setItemTypeProfit 4 4]

/-- Four item types in a bin of 4 × 3 × 1. -/
def opsWaste : List InstanceBuilder.Op :=
  [.setObjective .knapsack, .addBinType 4 3 1, .addItemType 2 3 1, .addItemType 2 2 1,
    .addItemType 2 1 1, .addItemType 4 3 1]

/-- A hard resource of capacity 1, of which the item consumes 2. -/
def opsResource : List InstanceBuilder.Op :=
  [.setObjective .knapsack, .addBinType 10 10 10, .addBinTypeResource 0 1 false 0,
    .addItemType 6 6 6, .addResourceConsumption 0 0 0 0 2]

/-- A callback that refuses every solution with an item. -/
def opsCallback : List InstanceBuilder.Op :=
  [.setObjective .knapsack, .setCallback fun l => l.all fun b => b.items.isEmpty,
    .addBinType 10 10 10, .addItemType 6 6 6]

/-- An item without profit. -/
def opsZero : List InstanceBuilder.Op :=
  [.setObjective .feasibility, .addBinType 10 10 10, .addItemType 6 6 6, .setItemTypeProfit 0 0]

/-- An item with a negative profit. -/
def opsNegative : List InstanceBuilder.Op :=
  [.setObjective .knapsack, .addBinType 10 10 10, .addItemType 6 6 6, .setItemTypeProfit 0 5,
    .addItemType 4 4 4, .setItemTypeProfit 1 (-3)]

/-- Two items of 3 × 3 × 1, one of 5 × 1 × 1, and two of 2 × 4 × 1 that may be turned, in a bin of
7 × 6 × 1. -/
def opsPinwheel : List InstanceBuilder.Op :=
  [.setObjective .feasibility, .addBinType 7 6 1, .addItemType 3 3 1, .setItemTypeCopies 0 2,
    .addItemType 5 1 1, .addItemType 2 4 1, .addItemTypeRotation 2 .xyz,
    .addItemTypeRotation 2 .yxz, .setItemTypeCopies 2 2]

end Ex

open Ex

/-! ## Concrete cases -/

section

/-- The hypotheses of C103 and C104 are met: an instance with rotations, two insertions. -/
example : InstanceBuilder.runOps .default ops = .ok (instOf ops) ∧ Positive (instOf ops)
    ∧ makeScheme (instOf ops) 100 = .ok (schemeOf ops 100)
    ∧ Reached (schemeOf ops 100) (nodeOf (schemeOf ops 100) [1, 0]) := by
  have h := runs_ok (ops := ops) (M := 100) (cs := [1, 0]) (by decide +kernel)
  exact ⟨h.1, ⟨by decide +kernel, by decide +kernel⟩, h.2.1, h.2.2.1⟩

/-- The export of a node: three items. -/
example : toSolution (schemeOf ops 100) (byProfit (schemeOf ops 100)) (nodeOf (schemeOf ops 100) [1, 0])
      = .ok (solOf (schemeOf ops 100) (nodeOf (schemeOf ops 100) [1, 0]))
    ∧ itemsOf (packingOf (solOf (schemeOf ops 100) (nodeOf (schemeOf ops 100) [1, 0])))
      = [⟨0, 0, 0, 0, .yxz⟩, ⟨1, 4, 0, 0, .xyz⟩, ⟨0, 5, 3, 0, .xyz⟩]
    ∧ (instOf ops).binTypeIds ≠ [] ∧ (instOf ops).objective = .knapsack :=
  ⟨(runs_ok (by decide +kernel)).2.2.2, by decide +kernel, by decide +kernel, by decide +kernel⟩

/-- The hypotheses about resources, weights, profits and the fitness are met. -/
example : (∀ r ∈ ((instOf ops).binType 0).resources, r.penalize = true)
    ∧ (∀ t ∈ (instOf ops).itemTypes, 0 ≤ t.profit) ∧ IgnoresValue (byProfit (schemeOf ops 100))
    ∧ ∃ i ∈ insertions (schemeOf ops 100) (root (schemeOf ops 100)), i.blockId = 3 :=
  ⟨by decide +kernel, by decide +kernel, fun _ _ => rfl, by decide +kernel⟩

/-- A complete node, which cuts every other node. -/
example : Reached (schemeOf ops 100) (nodeOf (schemeOf ops 100) [1, 0, 0])
    ∧ bound (schemeOf ops 100) (root (schemeOf ops 100)) (nodeOf (schemeOf ops 100) [1, 0, 0])
      = .ok true :=
  ⟨(runs_ok (by decide +kernel)).2.2.1, by decide +kernel⟩

/-- The hypotheses of C105 are met. -/
example : (instOf ops).numberOfItemTypes ≤ 3 ∧ 6 * (instOf ops).numberOfItemTypes ≤ 100
    ∧ (∀ t ∈ (instOf ops).binTypes, t.maximumWeight = .inf)
    ∧ ∃ guide : Node → Nat → ℚ, ∀ m b, 0 < guide m b :=
  ⟨by decide +kernel, by decide +kernel, by decide +kernel, fun _ _ => 1, by simp⟩

end

/-! ## What fails -/

/-- Without bins, setting up the search is undefined behaviour. -/
theorem spaces_no_bin : ∃ ops inst, InstanceBuilder.runOps .default ops = .ok inst ∧ Positive inst
    ∧ ∀ maximum, makeScheme inst maximum = .error .ub :=
  ⟨[.setObjective .knapsack, .addItemType 1 1 1], _, eq_ok_okD (d := noInst) (by decide +kernel),
    ⟨by decide +kernel, by decide +kernel⟩, fun _ => rfl⟩

/-- Hard resources are ignored: the search exports an infeasible solution. -/
theorem spaces_break_resource : ∃ ops inst s n guide sol, InstanceBuilder.runOps .default ops = .ok inst
    ∧ Positive inst ∧ makeScheme inst 100 = .ok s ∧ Reached s n ∧ toSolution s guide n = .ok sol
    ∧ sol.feasible = false := by
  have h := runs_ok (ops := opsResource) (M := 100) (cs := [0]) (by decide +kernel)
  exact ⟨opsResource, _, _, _, _, _, h.1, ⟨by decide +kernel, by decide +kernel⟩, h.2.1, h.2.2.1,
    h.2.2.2, by decide +kernel⟩

/-- The callback is ignored: the search exports solutions it refuses. -/
theorem spaces_break_callback : ∃ ops inst s n guide sol,
    InstanceBuilder.runOps .default ops = .ok inst ∧ Positive inst ∧ makeScheme inst 100 = .ok s
    ∧ Reached s n ∧ toSolution s guide n = .ok sol ∧ inst.callback (packingOf sol) = false
    ∧ sol.feasible = false := by
  have h := runs_ok (ops := opsCallback) (M := 100) (cs := [0]) (by decide +kernel)
  exact ⟨opsCallback, _, _, _, _, _, h.1, ⟨by decide +kernel, by decide +kernel⟩, h.2.1, h.2.2.1,
    h.2.2.2, by decide +kernel, by decide +kernel⟩

/-- The space chosen only has room for an item that is too heavy: the solution is left incomplete,
although another item fits elsewhere. -/
theorem spaces_weight_blocks : ∃ ops inst s n sol items, ∃ p : PlacedItem,
    InstanceBuilder.runOps .default ops = .ok inst ∧ Positive inst ∧ makeScheme inst 100 = .ok s
    ∧ inst.numberOfItemTypes ≤ 3 ∧ Reached s n
    ∧ toSolution s (byProfit s) n = .ok sol ∧ packingOf sol = [⟨0, 1, items⟩]
    ∧ BinValid inst 0 (items ++ [p]) ∧ WithinCopies inst (items ++ [p]) := by
  have h := runs_ok (ops := opsWeight) (M := 100) (cs := [1]) (by decide +kernel)
  refine ⟨opsWeight, _, _, _, _, [⟨0, 0, 0, 0, .xyz⟩], ⟨2, 8, 0, 0, .xyz⟩, h.1,
    ⟨by decide +kernel, by decide +kernel⟩, h.2.1, by decide +kernel, h.2.2.1, h.2.2.2,
    by decide +kernel, ⟨⟨?_, ?_, ?_, ?_⟩, ?_⟩, ?_⟩
  · decide +kernel
  · decide +kernel
  · unfold Inside; decide +kernel
  · unfold Separated; decide +kernel
  · intro _ m hm
    have e : ((instOf opsWeight).binType 0).maximumWeight = .fin 5 := by decide +kernel
    rw [e] at hm
    cases hm
    decide +kernel
  · unfold WithinCopies; decide +kernel

/-- A packing of all these items. -/
def pinwheel : List PlacedItem :=
  [⟨0, 0, 0, 0, .xyz⟩, ⟨2, 3, 0, 0, .yxz⟩, ⟨0, 4, 2, 0, .xyz⟩, ⟨2, 0, 3, 0, .yxz⟩,
    ⟨1, 0, 5, 0, .xyz⟩]

/-- The search is not exhaustive, even without weights and resources: all items can be
packed into the bin, but no node a search reaches, whatever the fitness, is exported to a feasible
solution, or to one with the same total profit.  (When such a search ends, the solver reports that
the instance is infeasible, or, with objective Knapsack, that the best profit found is a bound.) -/
theorem spaces_search_incomplete : ∃ ops inst s items, InstanceBuilder.runOps .default ops = .ok inst
    ∧ Positive inst ∧ makeScheme inst 10000 = .ok s ∧ inst.objective = .feasibility
    ∧ BinValid inst 0 items
    ∧ (∀ i, i < inst.numberOfItemTypes → count items i = (inst.itemType i).copies)
    ∧ ∀ n guide sol, Reached s n → toSolution s guide n = .ok sol → sol.feasible = false
      ∧ itemsProfit inst (itemsOf (packingOf sol)) < itemsProfit inst items := by
  have h := runs_ok (ops := opsPinwheel) (M := 10000) (cs := []) (by decide +kernel)
  have hp : Positive (instOf opsPinwheel) := ⟨by decide +kernel, by decide +kernel⟩
  refine ⟨opsPinwheel, _, _, pinwheel, h.1, hp, h.2.1, by decide +kernel,
    ⟨⟨?_, ?_, ?_, ?_⟩, ?_⟩, ?_, ?_⟩
  · decide +kernel
  · decide +kernel
  · unfold Inside; decide +kernel
  · unfold Separated; decide +kernel
  · intro _ m hm
    have e : ((instOf opsPinwheel).binType 0).maximumWeight = .inf := by decide +kernel
    rw [e] at hm
    cases hm
  · decide +kernel
  · intro n guide sol hn hs
    have hcl : closed (schemeOf opsPinwheel 10000) (below (schemeOf opsPinwheel 10000) 5
        [strip (root (schemeOf opsPinwheel 10000))]) = true := by
      decide +kernel
    have hx := ctx_of_scheme h.1 hp h.2.1
    obtain ⟨g, hg, e⟩ := closed_export hx hcl hn (closed_reached hcl (by decide +kernel) hn) hs
    have hall : ∀ g ∈ below (schemeOf opsPinwheel 10000) 5
        [strip (root (schemeOf opsPinwheel 10000))],
        itemsProfit (instOf opsPinwheel) (placedItems (schemeOf opsPinwheel 10000) g ++ [])
          < itemsProfit (instOf opsPinwheel) pinwheel
        ∧ ∃ i, i < (instOf opsPinwheel).numberOfItemTypes
          ∧ itemCopies [⟨(schemeOf opsPinwheel 10000).binTypeId, 1,
              placedItems (schemeOf opsPinwheel 10000) g⟩] i
            < ((instOf opsPinwheel).itemType i).copiesMin := by
      decide +kernel
    obtain ⟨h1, i, hi, h2⟩ := hall g hg
    refine ⟨?_, by rw [e]; exact h1⟩
    obtain ⟨-, sol', -, -, -, -, g5, g6, -⟩ := export_ok hx (inv_reached hx hn) guide
    rw [hs] at g5
    cases g5
    rw [(makeScheme_fields h.2.1).1] at g6
    have hf := feasible_iff_partial g6 (by rw [e]; simp) (instance_aggregates h.1).resourceIds
      (by
        intro b hb r hr
        have e1 : ∀ b ∈ (instOf opsPinwheel).binTypes, b.resources = [] := by decide +kernel
        rw [e1 b hb] at hr
        cases hr)
    cases hfe : sol.feasible with
    | false => rfl
    | true =>
      have := ((hf.mp hfe).1 i hi).1
      rw [e] at this
      exact absurd h2 (by simpa using this)

/-- The dominance rule loses solutions: a node may be discarded in favour of another one with the
same items although a solution below it is better than all those below the other one. -/
theorem spaces_dominance_loses : ∃ ops inst s n₁ n₂ guide, InstanceBuilder.runOps .default ops = .ok inst
    ∧ Positive inst ∧ makeScheme inst 100 = .ok s ∧ Reached s n₁ ∧ Reached s n₂
    ∧ IgnoresValue guide ∧ sameKey n₁ n₂ = true ∧ dominates n₁ n₂ = true
    ∧ ∃ m₂ sol₂, Descends s n₂ m₂ ∧ toSolution s guide m₂ = .ok sol₂
      ∧ ∀ m₁ guide₁ sol₁, Descends s n₁ m₁ → toSolution s guide₁ m₁ = .ok sol₁ →
        itemsProfit inst (itemsOf (packingOf sol₁)) < itemsProfit inst (itemsOf (packingOf sol₂)) := by
  have h1 := runs_ok (ops := opsDominance) (M := 100) (cs := [4]) (by decide +kernel)
  have h2 := runs_ok (ops := opsDominance) (M := 100) (cs := [5]) (by decide +kernel)
  have h3 := runs_ok (ops := opsDominance) (M := 100) (cs := [5, 0]) (by decide +kernel)
  have hp : Positive (instOf opsDominance) := ⟨by decide +kernel, by decide +kernel⟩
  refine ⟨opsDominance, _, _, _, _, byProfit _, h1.1, hp, h1.2.1, h1.2.2.1, h2.2.2.1,
    fun _ _ => rfl, by decide +kernel, by decide +kernel, _, _, ?_, h3.2.2.2, ?_⟩
  · exact follow_descends (guide := byProfit (schemeOf opsDominance 100)) [0] .self
      (by decide +kernel)
  · intro m₁ guide₁ sol₁ hd hs
    have hcl : closed (schemeOf opsDominance 100) (below (schemeOf opsDominance 100) 2
        [strip (nodeOf (schemeOf opsDominance 100) [4])]) = true := by
      decide +kernel
    have hx := ctx_of_scheme h1.1 hp h1.2.1
    have hr : ∀ {m}, Descends (schemeOf opsDominance 100) (nodeOf (schemeOf opsDominance 100) [4]) m →
        Reached (schemeOf opsDominance 100) m := by
      intro m hm
      induction hm with
      | self => exact h1.2.2.1
      | child _ hi hc ih => exact .child ih hi hc
    obtain ⟨g, hg, e⟩ := closed_export hx hcl (hr hd) (closed_descends hcl (by decide +kernel) hd) hs
    have hall : ∀ g ∈ below (schemeOf opsDominance 100) 2
        [strip (nodeOf (schemeOf opsDominance 100) [4])],
        itemsProfit (instOf opsDominance) (placedItems (schemeOf opsDominance 100) g ++ [])
          < itemsProfit (instOf opsDominance) (itemsOf (packingOf (solOf (schemeOf opsDominance 100)
            (nodeOf (schemeOf opsDominance 100) [5, 0])))) := by
      decide +kernel
    rw [e]
    exact hall g hg

/-- With objective Feasibility, a complete node is not better than the empty root if the items have
no profit. -/
theorem spaces_feasibility_not_better : ∃ ops inst s n guide sol,
    InstanceBuilder.runOps .default ops = .ok inst ∧ inst.objective = .feasibility ∧ Positive inst
    ∧ makeScheme inst 100 = .ok s ∧ Reached s n ∧ leaf s n = true
    ∧ toSolution s guide (root s) = .ok sol ∧ sol.feasible = false
    ∧ better s n (root s) = .ok false := by
  have h := runs_ok (ops := opsZero) (M := 100) (cs := [0]) (by decide +kernel)
  have h0 := runs_ok (ops := opsZero) (M := 100) (cs := []) (by decide +kernel)
  exact ⟨opsZero, _, _, _, _, _, h.1, by decide +kernel, ⟨by decide +kernel, by decide +kernel⟩, h.2.1,
    h.2.2.1, by decide +kernel, h0.2.2.2, by decide +kernel, by decide +kernel⟩

/-- With negative profits, a complete node cuts nodes that lead to a greater total profit. -/
theorem spaces_bound_negative_profit : ∃ ops inst s n₁ n₂ guide sol₁ sol₂,
    InstanceBuilder.runOps .default ops = .ok inst ∧ Positive inst ∧ makeScheme inst 100 = .ok s
    ∧ Reached s n₁ ∧ Reached s n₂ ∧ bound s n₁ n₂ = .ok true
    ∧ toSolution s guide n₁ = .ok sol₁ ∧ toSolution s guide n₂ = .ok sol₂
    ∧ itemsProfit inst (itemsOf (packingOf sol₂)) < itemsProfit inst (itemsOf (packingOf sol₁)) := by
  have h1 := runs_ok (ops := opsNegative) (M := 100) (cs := [0]) (by decide +kernel)
  have h2 := runs_ok (ops := opsNegative) (M := 100) (cs := [0, 0]) (by decide +kernel)
  exact ⟨opsNegative, _, _, _, _, _, _, _, h1.1, ⟨by decide +kernel, by decide +kernel⟩, h1.2.1,
    h1.2.2.1, h2.2.2.1, by decide +kernel, h1.2.2.2, h2.2.2.2, by decide +kernel⟩

/-- With four item types, blocks have waste, and an item may fit into the waste. -/
theorem spaces_waste_not_maximal : ∃ ops inst s n guide sol items, ∃ p : PlacedItem,
    InstanceBuilder.runOps .default ops = .ok inst ∧ Positive inst ∧ makeScheme inst 100 = .ok s
    ∧ Reached s n ∧ toSolution s guide n = .ok sol ∧ packingOf sol = [⟨0, 1, items⟩]
    ∧ BinValid inst 0 (items ++ [p]) ∧ WithinCopies inst (items ++ [p]) := by
  have h := runs_ok (ops := opsWaste) (M := 100) (cs := [6]) (by decide +kernel)
  refine ⟨opsWaste, _, _, _, _, _, [⟨0, 0, 0, 0, .xyz⟩, ⟨1, 2, 0, 0, .xyz⟩], ⟨2, 2, 2, 0, .xyz⟩, h.1,
    ⟨by decide +kernel, by decide +kernel⟩, h.2.1, h.2.2.1, h.2.2.2, by decide +kernel,
    ⟨⟨?_, ?_, ?_, ?_⟩, ?_⟩, ?_⟩
  · decide +kernel
  · decide +kernel
  · unfold Inside; decide +kernel
  · unfold Separated; decide +kernel
  · intro _ m hm
    have e : ((instOf opsWaste).binType 0).maximumWeight = .inf := by decide +kernel
    rw [e] at hm
    cases hm
  · unfold WithinCopies; decide +kernel

end PackingSolver.Box.MaximalSpaces
