import Verif.Lemmas.OneDim.Positions
import Verif.Props.OneDim.Solution

/-!
# C48: positions, weights and consumptions of the listed bins
-/

namespace PackingSolver.OneDim

open Spec

variable {inst : Instance} {s : Solution}

/-- **C48**: in every bin of a solution, the start of each item is the end of the
items before it minus its nesting length (0 for the first item), and the end, the
weight and the consumption of every resource are those of the listed items. -/
theorem positions_exact (h : Reachable inst s) (b : SolutionBin) (hb : b ∈ s.bins) :
    (∀ k it, b.items[k]? = some it →
      it.start = itemStart inst (b.items.map (·.itemTypeId)) k)
    ∧ b.endPos = binEnd inst (b.items.map (·.itemTypeId))
    ∧ b.weight = Spec.weight inst (b.items.map (·.itemTypeId))
    ∧ (ResourceIdsOk inst → ∀ r, r < (inst.binType b.binTypeId).resources.length →
      b.resourceConsumption.getD r 0 = consumption inst
        ((inst.binType b.binTypeId).resources.getD r {}) (b.items.map (·.itemTypeId))) := by
  have he := h.exact b hb
  exact ⟨he.starts, he.endPos, he.weight, fun hR => (he.resources hR).2⟩

/-- Items that do not nest do not overlap: each starts where the previous one ends. -/
theorem items_do_not_overlap (h : Reachable inst s) (b : SolutionBin) (hb : b ∈ s.bins)
    (hnest : ∀ i, i < inst.numberOfItemTypes → (inst.itemType i).nestingLength = 0)
    (k : Nat) (it it' : SolutionItem) (hk : b.items[k]? = some it)
    (hk' : b.items[k + 1]? = some it') :
    it'.start = it.start + (inst.itemType it.itemTypeId).length := by
  obtain ⟨hs, -⟩ := positions_exact h b hb
  rw [hs k it hk, hs (k + 1) it' hk']
  set l := b.items.map (·.itemTypeId) with hl
  have hk1 : l[k]? = some it.itemTypeId := by rw [hl, List.getElem?_map, hk]; rfl
  have hk2 : l[k + 1]? = some it'.itemTypeId := by rw [hl, List.getElem?_map, hk']; rfl
  have htyped : ∀ i ∈ l, (inst.itemType i).nestingLength = 0 := fun i hi =>
    hnest i ((h.good.typed _ (List.mem_map.mpr ⟨b, hb, rfl⟩)).2.2 i hi)
  have hend : ∀ n, binEnd inst (l.take n)
      = ((l.take n).map fun i => (inst.itemType i).length).sum := by
    intro n
    unfold binEnd
    have : ((l.take n).tail.map fun i => (inst.itemType i).nestingLength).sum = 0 := by
      apply List.sum_eq_zero
      intro x hx
      obtain ⟨i, hi, rfl⟩ := List.mem_map.mp hx
      exact htyped i (List.mem_of_mem_take (List.mem_of_mem_tail hi))
    rw [this, sub_zero]
  have hg1 : (inst.itemType (l.getD k 0)).nestingLength = 0 :=
    htyped _ (by rw [List.getD_eq_getElem?_getD, hk1]; exact List.mem_of_getElem? hk1)
  have hg2 : (inst.itemType (l.getD (k + 1) 0)).nestingLength = 0 :=
    htyped _ (by rw [List.getD_eq_getElem?_getD, hk2]; exact List.mem_of_getElem? hk2)
  unfold itemStart
  rw [hg1, hg2, hend, hend, List.take_add_one, hk1]
  simp

example : Reachable Examples.ex Examples.exSol ∧ Examples.exSol.bins ≠ []
    ∧ ResourceIdsOk Examples.ex :=
  ⟨Examples.exSol_reachable, by decide +kernel, Examples.ex_resourceIds⟩

/-- Two items of length 3 in one bin. -/
def twoItems : Instance := {
  objective := .knapsack
  itemTypes := [{ length := 3, profit := 1, copies := 2, copiesMin := 0, resourceIds := [[]] }]
  binTypes := [{ length := 10, cost := 1, copies := 1, copiesMin := 0 }] }

example : ∃ s b it it', Reachable twoItems s ∧ b ∈ s.bins
    ∧ (∀ i, i < twoItems.numberOfItemTypes → (twoItems.itemType i).nestingLength = 0)
    ∧ b.items[0]? = some it ∧ b.items[1]? = some it' := by
  let ops : List BuilderOp := [.addBin 0 1, .addItem 0 0, .addItem 0 0]
  let s := Examples.okD {} (SolutionBuilder.runOps twoItems ops)
  exact ⟨s, s.bins.getD 0 default, ⟨0, 0⟩, ⟨0, 3⟩,
    .built ops s (by intro t c h; simp [ops] at h; omega) (by decide +kernel),
    by decide +kernel, by decide, by decide +kernel, by decide +kernel⟩

end PackingSolver.OneDim
