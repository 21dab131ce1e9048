import Verif.Props.Box.TreeSearchEx
import Mathlib.Data.Prod.Lex
import Mathlib.Data.Finset.Max

/-!
# Item types withheld by the box tree search
-/

namespace PackingSolver.Box.TreeSearch

open PackingSolver.OneDim.Examples (okD)

variable {o : Objective} {inst : Instance} {params : Parameters} {s : Scheme} {n : Node}

/-- Item type `j` is packed before item type `i`: same sides, same rotations, and at least as good:
no less profit and no more weight; between two that are as good, the first one is. -/
structure Ahead (inst : Instance) (i j : Nat) : Prop where
  exists_ : j < inst.numberOfItemTypes
  other : j ≠ i
  sides : (inst.itemType j).box = (inst.itemType i).box
  rotations : (inst.itemType j).rotations = (inst.itemType i).rotations
  profit : (inst.itemType i).profit ≤ (inst.itemType j).profit
  weight : (inst.itemType j).weight ≤ (inst.itemType i).weight
  first : (inst.itemType j).profit = (inst.itemType i).profit →
    (inst.itemType j).weight = (inst.itemType i).weight → j < i

theorem ahead_iff (i j : Nat) (hj : j < inst.numberOfItemTypes) :
    isPredecessor inst i j = true ↔ Ahead inst i j := by
  unfold isPredecessor itemTypeDominates
  simp only [Bool.and_eq_true, Bool.not_eq_true', Bool.and_eq_false_iff, decide_eq_true_eq,
    decide_eq_false_iff_not]
  constructor
  · rintro ⟨⟨⟨h1, h2, h3⟩, h4⟩, ⟨⟨h5, h6⟩, h7⟩, h8⟩
    refine ⟨hj, fun e => h1 e.symm, ?_, h8.symm, h2, h3, fun e1 e2 => ?_⟩
    · generalize (inst.itemType j).box = b at *
      generalize (inst.itemType i).box = b' at *
      cases b; cases b'
      simp only at h5 h6 h7
      rw [h5, h6, h7]
    · rcases h4 with h | h | h
      · omega
      · exact absurd (le_of_eq e1) h
      · exact absurd (le_of_eq e2.symm) h
  · rintro ⟨-, h1, h2, h3, h4, h5, h6⟩
    refine ⟨⟨⟨fun e => h1 e.symm, h4, h5⟩, ?_⟩, ⟨⟨by rw [h2], by rw [h2]⟩, by rw [h2]⟩, h3.symm⟩
    by_cases hij : i < j
    · by_cases hp : (inst.itemType j).profit ≤ (inst.itemType i).profit
      · right; right
        intro hw
        have := h6 (le_antisymm hp h4) (le_antisymm h5 hw)
        omega
      · right; left; exact hp
    · left; exact hij

theorem scheme_predecessors (h : Scheme.new o inst params = .ok s) :
    s.inst = inst ∧ s.predecessors = predecessorTable inst := by
  unfold Scheme.new at h
  obtain ⟨fy, -, h⟩ := bind_ok.mp h
  obtain ⟨fz, -, h⟩ := bind_ok.mp h
  cases h
  exact ⟨rfl, rfl⟩

/-- **C113**: an item type is offered exactly if it has copies left and every item type that is ahead
of it has none. -/
theorem offered_iff (h : Scheme.new o inst params = .ok s) {i : Nat}
    (hi : i < inst.numberOfItemTypes) :
    considered s inst n i = true ↔ n.itemNumberOfCopies.getD i 0 ≠ (inst.itemType i).copies
      ∧ ∀ j, Ahead inst i j → n.itemNumberOfCopies.getD j 0 = (inst.itemType j).copies := by
  obtain ⟨e1, e2⟩ := scheme_predecessors h
  unfold considered allPacked
  rw [e1, e2, Bool.and_eq_true, List.all_eq_true]
  have hrow : (predecessorTable inst).getD i []
      = (List.range inst.numberOfItemTypes).filter (isPredecessor inst i) := by
    unfold predecessorTable
    rw [List.getD_eq_getElem _ _ (by simpa using hi)]
    simp
  rw [hrow]
  simp only [List.mem_filter, List.mem_range, Bool.not_eq_true', decide_eq_false_iff_not, not_not]
  constructor
  · rintro ⟨h1, h2⟩
    exact ⟨h2, fun j hj => h1 j ⟨hj.exists_, (ahead_iff i j hj.exists_).mpr hj⟩⟩
  · rintro ⟨h1, h2⟩
    exact ⟨fun j ⟨hj, hp⟩ => h2 j ((ahead_iff i j hj).mp hp), h1⟩

/-- **C113**: the item types never wait for each other in a circle: as long as some item type has
copies left, one is offered. -/
theorem some_offered (h : Scheme.new o inst params = .ok s)
    (hl : ∃ i < inst.numberOfItemTypes, n.itemNumberOfCopies.getD i 0 ≠ (inst.itemType i).copies) :
    ∃ i < inst.numberOfItemTypes, considered s inst n i = true := by
  classical
  let S : Finset Nat := (Finset.range inst.numberOfItemTypes).filter
    fun i => n.itemNumberOfCopies.getD i 0 ≠ (inst.itemType i).copies
  have hS : S.Nonempty := by
    obtain ⟨i, hi, hc⟩ := hl
    exact ⟨i, Finset.mem_filter.mpr ⟨Finset.mem_range.mpr hi, hc⟩⟩
  obtain ⟨i, hi, hmin⟩ := Finset.exists_min_image S
    (fun i => toLex (-(inst.itemType i).profit, toLex ((inst.itemType i).weight, i))) hS
  obtain ⟨hi1, hi2⟩ := Finset.mem_filter.mp hi
  have hi1 := Finset.mem_range.mp hi1
  refine ⟨i, hi1, (offered_iff h hi1).mpr ⟨hi2, fun j hj => ?_⟩⟩
  by_contra hne
  have hjS : j ∈ S := Finset.mem_filter.mpr ⟨Finset.mem_range.mpr hj.exists_, hne⟩
  have := hmin j hjS
  rw [Prod.Lex.le_iff] at this
  simp only [ofLex_toLex] at this
  rcases this with h1 | ⟨h1, h2⟩
  · have := hj.profit; linarith
  · rw [Prod.Lex.le_iff] at h2
    simp only [ofLex_toLex] at h2
    have hp : (inst.itemType j).profit = (inst.itemType i).profit := by linarith
    rcases h2 with h2 | ⟨h2, h3⟩
    · exact absurd h2 (not_lt.mpr hj.weight)
    · have := hj.first hp h2.symm; omega

namespace ExWithheld

/-- Two item types of the same shape, the second one better, and a third one of another shape. -/
def ops : List InstanceBuilder.Op :=
  [.setObjective .knapsack, .addBinType 10 10 10, .addItemType 4 2 2, .setItemTypeProfit 0 2,
   .addItemType 4 2 2, .setItemTypeProfit 1 3, .addItemType 1 2 3]

/-- The hypotheses are met: at the root the first item type is withheld, the others are offered. -/
example : Scheme.new .default (instOf ops) { direction := .x } = .ok (schemeOf ops { direction := .x })
    ∧ (∃ i < (instOf ops).numberOfItemTypes,
      (schemeOf ops { direction := .x }).rootNode.itemNumberOfCopies.getD i 0
        ≠ ((instOf ops).itemType i).copies)
    ∧ (List.range 3).map (considered (schemeOf ops { direction := .x }) (instOf ops)
      (schemeOf ops { direction := .x }).rootNode) = [false, true, true] := by
  have h := runs_ok (ops := ops) (p := { direction := .x }) (cs := []) (by decide +kernel)
  exact ⟨h.2.1, ⟨0, by decide +kernel, by decide +kernel⟩, by decide +kernel⟩

end ExWithheld

end PackingSolver.Box.TreeSearch
