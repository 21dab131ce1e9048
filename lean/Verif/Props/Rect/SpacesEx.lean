import Verif.Props.Rect.Spaces
import Verif.Lemmas.Rect.SpacesRun

/-!
# The search over maximal spaces: concrete cases, and what fails (C64–C66)
-/

namespace PackingSolver.Rect.MaximalSpaces

open Rect.Spec
open Rect.MaximalSpaces.Spec (Reached Descends IgnoresValue itemsOf)
open TreeSearch (instOf)

namespace Ex

/-- Two items of 4 × 3, which may be rotated, and one of 5 × 3, in a bin of 10 × 6 with a defect. -/
def ops : List InstanceBuilder.Op :=
  [.setObjective .knapsack, .addBinType 10 6, .addDefect 0 9 0 1 1, .addItemType 4 3 false,
    .setItemTypeCopies 0 2, .addItemType 5 3 true]

/-- Items of 10 × 1 (weight 10) and 2 × 5; a defect leaves room for each; maximum weight 5. -/
def opsWeight : List InstanceBuilder.Op :=
  [.setObjective .knapsack, .addBinType 10 5, .setBinTypeMaximumWeight 0 (.fin 5),
    .addDefect 0 0 3 8 2, .addItemType 10 1 true, .setItemTypeWeight 0 10, .addItemType 2 5 true]

/-- Five item types in a bin of 5 × 3; the first one, 3 × 2, may be rotated. -/
def opsDominance : List InstanceBuilder.Op :=
  [.setObjective .knapsack, .addBinType 5 3, .addItemType 3 2 false, .setItemTypeProfit 0 1,
    .addItemType 5 1 true, .setItemTypeProfit 1 3, .addItemType 3 3 true, .setItemTypeProfit 2 5,
    .addItemType 2 2 true, .setItemTypeProfit 3 3, .addItemType 2 3 true, .setItemTypeProfit 4 4]

/-- Four item types in a bin of 4 × 3. -/
def opsWaste : List InstanceBuilder.Op :=
  [.setObjective .knapsack, .addBinType 4 3, .addItemType 2 3 true, .addItemType 2 2 true,
    .addItemType 2 1 true, .addItemType 4 3 true]

/-- A hard resource of capacity 1, of which the item consumes 2. -/
def opsResource : List InstanceBuilder.Op :=
  [.setObjective .knapsack, .addBinType 10 10, .addBinTypeResource 0 1 false 0,
    .addItemType 6 6 true, .addResourceConsumption 0 0 0 0 2]

/-- An item that is not eligible for the only bin. -/
def opsEligible : List InstanceBuilder.Op :=
  [.setObjective .knapsack, .addBinType 10 10, .addItemType 6 6 true, .setItemTypeEligibility 0 3]

/-- An item without profit. -/
def opsZero : List InstanceBuilder.Op :=
  [.setObjective .feasibility, .addBinType 10 10, .addItemType 6 6 true, .setItemTypeProfit 0 0]

/-- An item with a negative profit. -/
def opsNegative : List InstanceBuilder.Op :=
  [.setObjective .knapsack, .addBinType 10 10, .addItemType 6 6 true, .setItemTypeProfit 0 5,
    .addItemType 4 4 true, .setItemTypeProfit 1 (-3)]

/-- Two items of 3 × 3, one of 5 × 1, and two of 2 × 4 that may be rotated, in a bin of 7 × 6. -/
def opsPinwheel : List InstanceBuilder.Op :=
  [.setObjective .feasibility, .addBinType 7 6, .addItemType 3 3 true, .setItemTypeCopies 0 2,
    .addItemType 5 1 true, .addItemType 2 4 false, .setItemTypeCopies 2 2]

end Ex

open Ex

/-! ## Concrete cases -/

section

/-- The hypotheses of C64 and C65 are met: an instance with a defect, two insertions. -/
example : InstanceBuilder.runOps ops = .ok (instOf ops) ∧ Positive (instOf ops)
    ∧ makeScheme (instOf ops) 100 = .ok (schemeOf ops 100)
    ∧ Reached (schemeOf ops 100) (nodeOf (schemeOf ops 100) [1, 0]) := by
  have h := runs_ok (ops := ops) (M := 100) (cs := [1, 0]) (by decide +kernel)
  exact ⟨h.1, ⟨by decide +kernel, by decide +kernel⟩, h.2.1, h.2.2.1⟩

/-- Its export: three items around the defect. -/
example : toSolution (schemeOf ops 100) (byProfit (schemeOf ops 100)) (nodeOf (schemeOf ops 100) [1])
      = .ok (solOf (schemeOf ops 100) (nodeOf (schemeOf ops 100) [1]))
    ∧ itemsOf (packingOf (solOf (schemeOf ops 100) (nodeOf (schemeOf ops 100) [1])))
      = [⟨0, 0, 0, true⟩, ⟨1, 4, 0, false⟩, ⟨0, 5, 3, false⟩]
    ∧ (instOf ops).binTypeIds ≠ [] ∧ (instOf ops).objective = .knapsack :=
  ⟨(runs_ok (by decide +kernel)).2.2.2, by decide +kernel, by decide +kernel, by decide +kernel⟩

/-- The hypotheses about resources, weights, profits and the fitness are met. -/
example : (∀ r ∈ ((instOf ops).binType 0).resources, r.penalize = true)
    ∧ (∀ t ∈ (instOf ops).itemTypes, 0 ≤ t.profit) ∧ IgnoresValue (byProfit (schemeOf ops 100))
    ∧ ∃ i ∈ insertions (schemeOf ops 100) (root (schemeOf ops 100)), i.blockId = 3 :=
  ⟨by decide +kernel, by decide +kernel, fun _ _ => rfl, by decide +kernel⟩

/-- A complete node, which cuts every other node. -/
example : Reached (schemeOf ops 100) (nodeOf (schemeOf ops 100) [1, 0, 0])
    ∧ bound (schemeOf ops 100) (root (schemeOf ops 100)) (nodeOf (schemeOf ops 100) [1, 0, 0])
      = .ok true :=
  ⟨(runs_ok (by decide +kernel)).2.2.1, by decide +kernel⟩

/-- The hypotheses of C66 are met. -/
example : (instOf ops).numberOfItemTypes ≤ 3 ∧ 2 * (instOf ops).numberOfItemTypes ≤ 100
    ∧ (∀ t ∈ (instOf ops).binTypes, t.maximumWeight = .inf)
    ∧ ∃ guide : Node → Nat → ℚ, ∀ m b, 0 < guide m b :=
  ⟨by decide +kernel, by decide +kernel, by decide +kernel, fun _ _ => 1, by simp⟩

end

/-! ## What fails -/

/-- Without bins, setting up the search is undefined behaviour. -/
theorem spaces_no_bin : ∃ ops inst, InstanceBuilder.runOps ops = .ok inst ∧ Positive inst
    ∧ ∀ maximum, makeScheme inst maximum = .error .ub :=
  ⟨[.setObjective .knapsack, .addItemType 1 1 true], _, eq_ok_okD (d := noInst) (by decide +kernel),
    ⟨by decide +kernel, by decide +kernel⟩, fun _ => rfl⟩

/-- Hard resources are ignored: the search exports an infeasible solution. -/
theorem spaces_break_resource : ∃ ops inst s n guide sol, InstanceBuilder.runOps ops = .ok inst
    ∧ Positive inst ∧ makeScheme inst 100 = .ok s ∧ Reached s n ∧ toSolution s guide n = .ok sol
    ∧ sol.feasible = false := by
  have h := runs_ok (ops := opsResource) (M := 100) (cs := [0]) (by decide +kernel)
  exact ⟨opsResource, _, _, _, _, _, h.1, ⟨by decide +kernel, by decide +kernel⟩, h.2.1, h.2.2.1,
    h.2.2.2, by decide +kernel⟩

/-- Eligibility is ignored. -/
theorem spaces_ineligible_packed : ∃ ops inst s n guide sol, InstanceBuilder.runOps ops = .ok inst
    ∧ Positive inst ∧ makeScheme inst 100 = .ok s ∧ Reached s n ∧ toSolution s guide n = .ok sol
    ∧ ¬ ∀ b ∈ packingOf sol, ∀ p ∈ b.items, EligibleIn inst p.itemTypeId b.binTypeId := by
  have h := runs_ok (ops := opsEligible) (M := 100) (cs := [0]) (by decide +kernel)
  refine ⟨opsEligible, _, _, _, _, _, h.1, ⟨by decide +kernel, by decide +kernel⟩, h.2.1, h.2.2.1,
    h.2.2.2, fun hall => ?_⟩
  have e : packingOf (solOf (schemeOf opsEligible 100) (nodeOf (schemeOf opsEligible 100) [0]))
      = [⟨0, 1, [⟨0, 0, 0, false⟩]⟩] := by decide +kernel
  rw [e] at hall
  have := hall _ (List.mem_singleton.mpr rfl) _ (List.mem_singleton.mpr rfl)
  revert this
  unfold EligibleIn
  decide +kernel

/-- The space chosen only has room for an item that is too heavy: the search stops at once with
an empty solution, although another item fits elsewhere. -/
theorem spaces_weight_blocks : ∃ ops inst s, InstanceBuilder.runOps ops = .ok inst ∧ Positive inst
    ∧ makeScheme inst 100 = .ok s
    ∧ (∃ p : PlacedItem, BinValid inst 0 [p] ∧ WithinCopies inst [p]
      ∧ EligibleIn inst p.itemTypeId 0)
    ∧ ∀ n guide sol, Reached s n → toSolution s guide n = .ok sol → itemsOf (packingOf sol) = [] := by
  have h := runs_ok (ops := opsWeight) (M := 100) (cs := []) (by decide +kernel)
  have hp : Positive (instOf opsWeight) := ⟨by decide +kernel, by decide +kernel⟩
  refine ⟨opsWeight, _, _, h.1, hp, h.2.1, ⟨⟨1, 8, 0, false⟩, ⟨⟨?_, ?_, ?_, ?_⟩, ?_, ?_, ?_⟩, ?_, ?_⟩, ?_⟩
  · decide +kernel
  · decide +kernel
  · unfold Inside; decide +kernel
  · exact List.pairwise_singleton _ _
  · unfold AvoidsDefects Separated; decide +kernel
  · intro _ m hm
    have e : ((instOf opsWeight).binType 0).maximumWeight = .fin 5 := by decide +kernel
    rw [e] at hm
    cases hm
    decide +kernel
  · intro r hr
    have e : ((instOf opsWeight).binType 0).resources = [] := by decide +kernel
    rw [e] at hr
    cases hr
  · unfold WithinCopies; decide +kernel
  · unfold EligibleIn; decide +kernel
  · intro n guide sol hn hs
    have hcl : closed (schemeOf opsWeight 100) [strip (root (schemeOf opsWeight 100))] = true := by
      decide +kernel
    have hx := ctx_of_scheme h.1 hp h.2.1
    obtain ⟨g, hg, e⟩ := closed_export hx hcl hn
      (closed_reached hcl (List.mem_singleton.mpr rfl) hn) hs
    rw [List.mem_singleton.mp hg] at e
    rw [e]
    decide +kernel

/-- Defects and the restriction to attainable lengths do not go together: no solution exported
contains the second item, although both items can be packed. -/
theorem spaces_defect_blocks : ∃ ops inst s, InstanceBuilder.runOps ops = .ok inst ∧ Positive inst
    ∧ makeScheme inst 100 = .ok s
    ∧ (∃ items, BinPacking inst 0 items ∧ AvoidsDefects inst 0 items
      ∧ ∀ i, i < inst.numberOfItemTypes → count items i = (inst.itemType i).copies)
    ∧ inst.numberOfItemTypes = 2 ∧ (inst.itemType 1).copies = 1
    ∧ ∀ n guide sol, Reached s n → toSolution s guide n = .ok sol →
      count (itemsOf (packingOf sol)) 1 = 0 := by
  have h := runs_ok (ops := BlockExamples.opsDefect) (M := 100) (cs := []) (by decide +kernel)
  have hp : Positive (instOf BlockExamples.opsDefect) := ⟨by decide +kernel, by decide +kernel⟩
  refine ⟨BlockExamples.opsDefect, _, _, h.1, hp, h.2.1,
    ⟨[⟨0, 0, 0, false⟩, ⟨1, 4, 0, false⟩], ⟨?_, ?_, ?_, ?_⟩, ?_, ?_⟩, ?_, ?_, ?_⟩
  · decide +kernel
  · decide +kernel
  · unfold Inside; decide +kernel
  · unfold Separated; decide +kernel
  · unfold AvoidsDefects Separated; decide +kernel
  · decide +kernel
  · decide +kernel
  · decide +kernel
  · intro n guide sol hn hs
    have hcl : closed (schemeOf BlockExamples.opsDefect 100)
        (below (schemeOf BlockExamples.opsDefect 100) 2
          [strip (root (schemeOf BlockExamples.opsDefect 100))]) = true := by
      decide +kernel
    have hx := ctx_of_scheme h.1 hp h.2.1
    obtain ⟨g, hg, e⟩ := closed_export hx hcl hn (closed_reached hcl (by decide +kernel) hn) hs
    have hall : ∀ g ∈ below (schemeOf BlockExamples.opsDefect 100) 2
        [strip (root (schemeOf BlockExamples.opsDefect 100))],
        count (placedItems (schemeOf BlockExamples.opsDefect 100) g ++ []) 1 = 0 := by
      decide +kernel
    rw [e]
    exact hall g hg

/-- A packing of all these items. -/
def pinwheel : List PlacedItem :=
  [⟨0, 0, 0, false⟩, ⟨2, 3, 0, true⟩, ⟨0, 4, 2, false⟩, ⟨2, 0, 3, true⟩, ⟨1, 0, 5, false⟩]

/-- The search is not exhaustive, even without defects, weights and resources: all items can be
packed into the bin, but no node a search reaches, whatever the fitness, is exported to a feasible
solution, or to one with the same total profit.  (When such a search ends, the solver reports that
the instance is infeasible, or, with objective Knapsack, that the best profit found is a bound.) -/
theorem spaces_search_incomplete : ∃ ops inst s items, InstanceBuilder.runOps ops = .ok inst
    ∧ Positive inst ∧ makeScheme inst 10000 = .ok s ∧ inst.objective = .feasibility
    ∧ BinValid inst 0 items
    ∧ (∀ i, i < inst.numberOfItemTypes → count items i = (inst.itemType i).copies)
    ∧ ∀ n guide sol, Reached s n → toSolution s guide n = .ok sol → sol.feasible = false
      ∧ itemsProfit inst (itemsOf (packingOf sol)) < itemsProfit inst items := by
  have h := runs_ok (ops := opsPinwheel) (M := 10000) (cs := []) (by decide +kernel)
  have hp : Positive (instOf opsPinwheel) := ⟨by decide +kernel, by decide +kernel⟩
  have e0 : ((instOf opsPinwheel).binType 0).resources = [] := by decide +kernel
  refine ⟨opsPinwheel, _, _, pinwheel, h.1, hp, h.2.1, by decide +kernel,
    ⟨⟨?_, ?_, ?_, ?_⟩, ?_, ?_, ?_⟩, ?_, ?_⟩
  · decide +kernel
  · decide +kernel
  · unfold Inside; decide +kernel
  · unfold Separated; decide +kernel
  · unfold AvoidsDefects Separated; decide +kernel
  · intro _ m hm
    have e : ((instOf opsPinwheel).binType 0).maximumWeight = .inf := by decide +kernel
    rw [e] at hm
    cases hm
  · intro r hr
    rw [e0] at hr
    cases hr
  · decide +kernel
  · intro n guide sol hn hs
    have hcl : closed (schemeOf opsPinwheel 10000) (below (schemeOf opsPinwheel 10000) 5
        [strip (root (schemeOf opsPinwheel 10000))]) = true := by
      decide +kernel
    have hx := ctx_of_scheme h.1 hp h.2.1
    obtain ⟨g, hg, e⟩ := closed_export hx hcl hn (closed_reached hcl (by decide +kernel) hn) hs
    have hall : ∀ g ∈ below (schemeOf opsPinwheel 10000) 5
        [strip (root (schemeOf opsPinwheel 10000))],
        itemsProfit (instOf opsPinwheel) (placedItems (schemeOf opsPinwheel 10000) g ++ [])
          < itemsProfit (instOf opsPinwheel) pinwheel
        ∧ ∃ i, i < (instOf opsPinwheel).numberOfItemTypes
          ∧ itemCopies [⟨(schemeOf opsPinwheel 10000).binTypeId, 1,
              placedItems (schemeOf opsPinwheel 10000) g⟩] i
            < ((instOf opsPinwheel).itemType i).copiesMin := by
      decide +kernel
    obtain ⟨h1, i, hi, h2⟩ := hall g hg
    refine ⟨?_, by rw [e]; exact h1⟩
    obtain ⟨-, sol', -, -, -, -, g5, g6, -⟩ := export_ok hx (inv_reached hx hn) guide
    rw [hs] at g5
    cases g5
    rw [(makeScheme_fields h.2.1).1] at g6
    have hf := feasible_iff_partial g6 (by rw [e]; simp) (build_aggregates h.1).resourceIds
      (by
        intro b hb r hr
        have e1 : ∀ b ∈ (instOf opsPinwheel).binTypes, b.resources = [] := by decide +kernel
        rw [e1 b hb] at hr
        cases hr)
    cases hfe : sol.feasible with
    | false => rfl
    | true =>
      have := ((hf.mp hfe).1 i hi).1
      rw [e] at this
      exact absurd h2 (by simpa using this)

/-- The dominance rule loses solutions: a node may be discarded in favour of another one with the
same items although a solution below it is better than all those below the other one. -/
theorem spaces_dominance_loses : ∃ ops inst s n₁ n₂ guide, InstanceBuilder.runOps ops = .ok inst
    ∧ Positive inst ∧ makeScheme inst 100 = .ok s ∧ Reached s n₁ ∧ Reached s n₂
    ∧ IgnoresValue guide ∧ sameKey n₁ n₂ = true ∧ dominates n₁ n₂ = true
    ∧ ∃ m₂ sol₂, Descends s n₂ m₂ ∧ toSolution s guide m₂ = .ok sol₂
      ∧ ∀ m₁ guide₁ sol₁, Descends s n₁ m₁ → toSolution s guide₁ m₁ = .ok sol₁ →
        itemsProfit inst (itemsOf (packingOf sol₁)) < itemsProfit inst (itemsOf (packingOf sol₂)) := by
  have h1 := runs_ok (ops := opsDominance) (M := 100) (cs := [4]) (by decide +kernel)
  have h2 := runs_ok (ops := opsDominance) (M := 100) (cs := [5]) (by decide +kernel)
  have h3 := runs_ok (ops := opsDominance) (M := 100) (cs := [5, 0]) (by decide +kernel)
  have hp : Positive (instOf opsDominance) := ⟨by decide +kernel, by decide +kernel⟩
  refine ⟨opsDominance, _, _, _, _, byProfit _, h1.1, hp, h1.2.1, h1.2.2.1, h2.2.2.1,
    fun _ _ => rfl, by decide +kernel, by decide +kernel, _, _, ?_, h3.2.2.2, ?_⟩
  · exact follow_descends (guide := byProfit (schemeOf opsDominance 100)) [0] .self
      (by decide +kernel)
  · intro m₁ guide₁ sol₁ hd hs
    have hcl : closed (schemeOf opsDominance 100) (below (schemeOf opsDominance 100) 2
        [strip (nodeOf (schemeOf opsDominance 100) [4])]) = true := by
      decide +kernel
    have hx := ctx_of_scheme h1.1 hp h1.2.1
    have hr : ∀ {m}, Descends (schemeOf opsDominance 100) (nodeOf (schemeOf opsDominance 100) [4]) m →
        Reached (schemeOf opsDominance 100) m := by
      intro m hm
      induction hm with
      | self => exact h1.2.2.1
      | child _ hi hc ih => exact .child ih hi hc
    obtain ⟨g, hg, e⟩ := closed_export hx hcl (hr hd) (closed_descends hcl (by decide +kernel) hd) hs
    have hall : ∀ g ∈ below (schemeOf opsDominance 100) 2
        [strip (nodeOf (schemeOf opsDominance 100) [4])],
        itemsProfit (instOf opsDominance) (placedItems (schemeOf opsDominance 100) g ++ [])
          < itemsProfit (instOf opsDominance) (itemsOf (packingOf (solOf (schemeOf opsDominance 100)
            (nodeOf (schemeOf opsDominance 100) [5, 0])))) := by
      decide +kernel
    rw [e]
    exact hall g hg

/-- With objective Feasibility, a complete node is not better than the empty root if the items have
no profit. -/
theorem spaces_feasibility_not_better : ∃ ops inst s n guide sol,
    InstanceBuilder.runOps ops = .ok inst ∧ inst.objective = .feasibility ∧ Positive inst
    ∧ makeScheme inst 100 = .ok s ∧ Reached s n ∧ leaf s n = true
    ∧ toSolution s guide (root s) = .ok sol ∧ sol.feasible = false
    ∧ better s n (root s) = .ok false := by
  have h := runs_ok (ops := opsZero) (M := 100) (cs := [0]) (by decide +kernel)
  have h0 := runs_ok (ops := opsZero) (M := 100) (cs := []) (by decide +kernel)
  exact ⟨opsZero, _, _, _, _, _, h.1, by decide +kernel, ⟨by decide +kernel, by decide +kernel⟩, h.2.1,
    h.2.2.1, by decide +kernel, h0.2.2.2, by decide +kernel, by decide +kernel⟩

/-- With negative profits, a complete node cuts nodes that lead to a greater total profit. -/
theorem spaces_bound_negative_profit : ∃ ops inst s n₁ n₂ guide sol₁ sol₂,
    InstanceBuilder.runOps ops = .ok inst ∧ Positive inst ∧ makeScheme inst 100 = .ok s
    ∧ Reached s n₁ ∧ Reached s n₂ ∧ bound s n₁ n₂ = .ok true
    ∧ toSolution s guide n₁ = .ok sol₁ ∧ toSolution s guide n₂ = .ok sol₂
    ∧ itemsProfit inst (itemsOf (packingOf sol₂)) < itemsProfit inst (itemsOf (packingOf sol₁)) := by
  have h1 := runs_ok (ops := opsNegative) (M := 100) (cs := [0]) (by decide +kernel)
  have h2 := runs_ok (ops := opsNegative) (M := 100) (cs := [0, 0]) (by decide +kernel)
  exact ⟨opsNegative, _, _, _, _, _, _, _, h1.1, ⟨by decide +kernel, by decide +kernel⟩, h1.2.1,
    h1.2.2.1, h2.2.2.1, by decide +kernel, h1.2.2.2, h2.2.2.2, by decide +kernel⟩

/-- With four item types, blocks have waste, and an item may fit into the waste. -/
theorem spaces_waste_not_maximal : ∃ ops inst s n guide sol items, ∃ p : PlacedItem,
    InstanceBuilder.runOps ops = .ok inst ∧ Positive inst ∧ makeScheme inst 100 = .ok s
    ∧ Reached s n ∧ toSolution s guide n = .ok sol ∧ packingOf sol = [⟨0, 1, items⟩]
    ∧ BinValid inst 0 (items ++ [p]) ∧ WithinCopies inst (items ++ [p]) := by
  have h := runs_ok (ops := opsWaste) (M := 100) (cs := [6]) (by decide +kernel)
  refine ⟨opsWaste, _, _, _, _, _, [⟨0, 0, 0, false⟩, ⟨1, 2, 0, false⟩], ⟨2, 2, 2, false⟩, h.1,
    ⟨by decide +kernel, by decide +kernel⟩, h.2.1, h.2.2.1, h.2.2.2, by decide +kernel,
    ⟨⟨?_, ?_, ?_, ?_⟩, ?_, ?_, ?_⟩, ?_⟩
  · decide +kernel
  · decide +kernel
  · unfold Inside; decide +kernel
  · unfold Separated; decide +kernel
  · unfold AvoidsDefects Separated; decide +kernel
  · intro _ m hm
    have e : ((instOf opsWaste).binType 0).maximumWeight = .inf := by decide +kernel
    rw [e] at hm
    cases hm
  · intro r hr
    have e : ((instOf opsWaste).binType 0).resources = [] := by decide +kernel
    rw [e] at hr
    cases hr
  · unfold WithinCopies; decide +kernel

end PackingSolver.Rect.MaximalSpaces
