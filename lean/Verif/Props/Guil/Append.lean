import Verif.Lemmas.Guil.Append
import Verif.Spec.GuillotineAssembled
import Verif.Props.Guil.Compare
import Verif.Props.Guil.SolutionEx

/-!
# C73: solutions assembled by appending bins
-/

namespace PackingSolver.Guil

open Guil.Spec

section
variable {inst : Instance} {s other s' : Solution} {pos : Nat} {copies : Int}
  {binTypeIds itemTypeIds : List Nat}

theorem assembly (h : Assembled inst s) : Assembly inst s := by
  induction h with
  | empty inst =>
    have h0 := indic_init (inst := inst) []
    refine ⟨h0.toCore, h0.toLastBin, (by intro b hb; cases hb), ?_, fun h => absurd rfl h⟩
    intro _ _
    show (0 : Int) = _
    unfold cutsCost
    split_ifs <;> rfl
  | built h =>
    obtain ⟨g, hcb, _⟩ := build_indic h
    refine ⟨g.toCore, g.toLastBin, ?_, ?_, hcb⟩
    · intro b hb
      obtain ⟨b0, hd, _, c, rfl⟩ := built_bin h hb
      exact hd.tree.shaped
    · intro hw ho
      rw [g.cuttingCost ho, hw]
      simp
  | append h1 h2 h3 ih1 ih2 => exact appendBin_assembly ih1 ih2.shaped h3

/-! ## What is appended -/

theorem relabel_renamed {ids : List Nat} {i j : Nat} (h : relabel ids i = some j) :
    j = renamed ids i := by
  unfold relabel at h
  unfold renamed
  by_cases he : ids = []
  · subst he
    rw [if_pos rfl]
    cases h; rfl
  · rw [if_neg he]
    have : ids.isEmpty = false := by
      cases ids with
      | nil => exact absurd rfl he
      | cons a l => rfl
    rw [this] at h
    have h' : ids[i]? = some j := h
    rw [List.getD_eq_getElem?_getD, h']
    rfl

theorem relabelNode_imported {bt : BinType} {b : Nat} {ids : List Nat} {n m : Node}
    (h : relabelNode bt b ids n = some m) (ht : n.t ≠ -4) : m = importedNode bt b ids n := by
  unfold relabelNode at h
  rw [if_neg ht] at h
  unfold importedNode
  by_cases hf : n.f = none
  · rw [if_pos hf] at h ⊢
    cases h; rfl
  · rw [if_neg hf] at h ⊢
    by_cases hi : n.itemTypeId ≥ 0
    · rw [if_pos hi] at h
      rw [if_neg (by omega)]
      cases hj : relabel ids n.itemTypeId.toNat with
      | none => rw [hj] at h; cases h
      | some j =>
        rw [hj] at h
        cases h
        rw [relabel_renamed hj]
    · rw [if_neg hi] at h
      rw [if_pos (by omega)]
      cases h; rfl

theorem clearResidual_plates (s : Solution) :
    plates s.clearResidual = withoutResidual (plates s) := by
  unfold Solution.clearResidual
  rcases List.eq_nil_or_concat s.bins with hb | ⟨front, b, hb⟩
  · rw [hb]; dsimp only [List.getLast?_nil]
    unfold plates
    rw [hb]; rfl
  · rw [List.concat_eq_append] at hb
    have hps : plates s = front.map plateOf ++ [plateOf b] := by
      rw [← plates_eq, hb]; simp
    rw [hps]
    unfold withoutResidual
    rw [List.reverse_append]
    show _ = (front.map plateOf).reverse.reverse ++ _
    rw [List.reverse_reverse, hb, List.getLast?_concat]
    dsimp only
    rcases List.eq_nil_or_concat b.nodes with hn | ⟨l, n, hn⟩
    · rw [hn]
      dsimp only [List.getLast?_nil, List.reverse_nil]
      rw [hps]
      show _ ++ [(⟨b.binTypeId, b.copies, b.firstCutOrientation, b.nodes⟩ : Plate)] = _
      rw [hn]
    · rw [List.concat_eq_append] at hn
      rw [hn, List.getLast?_concat, List.reverse_append]
      show _ = _ ++ [(⟨b.binTypeId, b.copies, b.firstCutOrientation, l.reverse.reverse
        ++ [if n.itemTypeId = -3 then { n with itemTypeId := -1 } else n]⟩ : Plate)]
      rw [List.reverse_reverse]
      dsimp only
      by_cases h3 : n.itemTypeId = -3
      · rw [if_pos h3, if_pos h3]
        unfold plates
        dsimp only
        simp
      · rw [if_neg h3, if_neg h3, hps]
        show _ ++ [(⟨b.binTypeId, b.copies, b.firstCutOrientation, b.nodes⟩ : Plate)] = _
        rw [hn]

/-- **C73**: appending a bin keeps the bins, except that the residual of the last one becomes waste,
and adds the given bin with the given number of copies, its types renamed. -/
theorem append_bin_plates (h : s.appendBin inst other pos copies binTypeIds itemTypeIds = .ok s')
    (ht : ∀ p ∈ plates other, ∀ n ∈ p.nodes, 0 ≤ n.t) :
    ∃ p, (plates other)[pos]? = some p ∧ renamed binTypeIds p.binTypeId < inst.numberOfBinTypes
      ∧ plates s' = withoutResidual (plates s) ++ [⟨renamed binTypeIds p.binTypeId, copies,
        p.orientation, p.nodes.map (importedNode
          (inst.binType (renamed binTypeIds p.binTypeId)) (renamed binTypeIds p.binTypeId)
          itemTypeIds)⟩] := by
  obtain ⟨old, b, nodes, ho, hb, hlt, hn, hu⟩ := appendBin_ok h
  have hp : (plates other)[pos]? = some (plateOf old) := by
    unfold plates
    rw [List.getElem?_map, ho]; rfl
  have hbe := relabel_renamed hb
  have hne : nodes = old.nodes.map (importedNode (inst.binType b) b itemTypeIds) := by
    have hall : ∀ n ∈ old.nodes, n.t ≠ -4 := by
      intro n hn' he
      have := ht (plateOf old) (List.mem_of_getElem? hp) n hn'
      omega
    clear hp hu ho h ht
    generalize old.nodes = ol at hn hall
    induction hn with
    | nil => rfl
    | cons h1 h2 ih =>
      rw [List.map_cons, ← ih fun n hn' => hall n (List.mem_cons_of_mem _ hn'),
        relabelNode_imported h1 (hall _ (List.mem_cons_self ..))]
  refine ⟨plateOf old, hp, ?_, ?_⟩
  · show renamed binTypeIds old.binTypeId < _
    rw [← hbe]; exact hlt
  · show plates s' = _ ++ [⟨renamed binTypeIds old.binTypeId, copies, old.firstCutOrientation,
      old.nodes.map (importedNode (inst.binType (renamed binTypeIds old.binTypeId))
        (renamed binTypeIds old.binTypeId) itemTypeIds)⟩]
    rw [← hbe, ← hne, ← clearResidual_plates]
    obtain ⟨_, _, he⟩ := updateIndicators_ok hu
    rw [he]
    generalize s.clearResidual = t
    generalize hnb : ({ binTypeId := b, copies := copies, firstCutOrientation := old.firstCutOrientation, nodes := nodes } : SolutionBin) = nb
    show plates (({ t with bins := t.bins ++ [nb] } : Solution).updateNodes inst t.bins.length) = _
    unfold Solution.updateNodes plates
    have hget : ({ t with bins := t.bins ++ [nb] } : Solution).bins.getD t.bins.length default
        = nb := by simp
    rw [hget]
    dsimp only
    rw [List.set_append_right _ _ (le_refl _), Nat.sub_self, List.set_cons_zero, List.map_append]
    congr 1
    rw [List.map_singleton, ← hnb]
    rfl

/-! ## Totals -/

/-- **C73**: the numbers reported by a solution assembled in any way are those of the bins it lists. -/
theorem assembled_totals (h : Assembled inst s) :
    (s.numberOfBins = numberOfBins (plates s)
      ∧ (∀ b < inst.numberOfBinTypes, s.binCopies.getD b 0 = binCopies (plates s) b)
      ∧ s.cost = cost inst (plates s)
      ∧ s.fullArea = fullArea inst (plates s))
    ∧ (s.numberOfItems = numberOfItems (plates s)
      ∧ s.itemArea = itemArea inst (plates s)
      ∧ (∀ i < inst.numberOfItemTypes, s.itemCopies.getD i 0 = itemCopies (plates s) i)
      ∧ s.numberOfInfeasibleItemCopiesMin = missing inst (plates s))
    ∧ (s.waste = fullArea inst (plates s) - residualArea (plates s) - itemArea inst (plates s)
      ∧ s.fullWaste = fullArea inst (plates s) - itemArea inst (plates s))
    ∧ (IsMaxWithZero ((usedNodes (plates s)).map (·.r)) s.width
      ∧ IsMaxWithZero ((usedNodes (plates s)).map (·.t)) s.height
      ∧ s.secondLeftoverValue = secondLeftover (plates s)
      ∧ IsMaxWithZero (s.bins.map (·.numberOfStages)) s.numberOfStages) := by
  obtain ⟨g, l, _, _, _⟩ := assembly h
  refine ⟨⟨g.numberOfBins, g.binCopies, g.cost, g.fullArea⟩,
    ⟨g.numberOfItems, g.itemArea, g.itemCopies, g.missing⟩, ?_,
    ⟨l.width, l.height, l.leftover, g.stages⟩⟩
  unfold Solution.waste Solution.fullWaste
  rw [l.area, g.itemArea, g.fullArea]
  exact ⟨rfl, rfl⟩

/-- **C73**: the profit of an assembled solution. -/
theorem assembled_profit (h : Assembled inst s) (hR : ResourceIdsOk inst)
    (hcap : CapacitiesNonneg inst) (hnn : ConsumptionsNonneg inst) :
    s.profit = reportedProfit inst (plates s) :=
  (assembly h).core.profit hR hcap hnn

/-- **C73**, partial: the cutting cost of an assembled solution, if waste costs nothing.  Missing
from the full statement: with a cost of waste the cost is wrong after a bin is appended, see
`NegEx.append_bin_cutting_cost`. -/
theorem assembled_cutting_cost_partial (h : Assembled inst s)
    (hw : inst.parameters.wasteCost = 0) (ho : ∀ p ∈ plates s, p.orientation ≠ .any) :
    s.cuttingCost = cutsCost inst (plates s) :=
  (assembly h).cut hw fun b hb => ho (plateOf b) (List.mem_map_of_mem hb)

/-- **C73**: the feasibility of an assembled solution, with the same conditions and reservations as
C70. -/
theorem assembled_feasible_iff (h : Assembled inst s)
    (hne : s.bins ≠ []) (hst : 0 ≤ inst.parameters.numberOfStages)
    (hc : ∀ p ∈ plates s, 0 ≤ p.copies)
    (hi : ∀ i < inst.numberOfItemTypes, 0 ≤ (inst.itemType i).copies)
    (hR : ResourceIdsOk inst) (hcap : CapacitiesNonneg inst) :
    s.feasible = true ↔
      (∀ b ∈ s.bins, b.numberOfStages ≤ inst.parameters.numberOfStages)
      ∧ (∀ p ∈ plates s, WasteOk inst p
        ∧ DistancesOk 1 inst.parameters.minimumDistance1Cuts
            inst.parameters.maximumDistance1Cuts p
        ∧ DistancesOk 2 inst.parameters.minimumDistance2Cuts
            inst.parameters.maximumDistance2Cuts p
        ∧ Number1Ok inst p ∧ Number2Ok inst p ∧ DefectsOk inst p ∧ CutThroughOk inst p
        ∧ ResourcesOk inst p.binTypeId p.items)
      ∧ StacksOk inst (plates s) ∧ CopiesOk inst (plates s) ∧ inst.callback s.bins = true :=
  feasible_iff_core (assembly h).core ((assembly h).callback hne) hst hc hi hR hcap

/-- **C73**: `append_bins`, `append_empty_bin`: if they return, the result is an assembled solution,
to which the above applies. -/
theorem append_bins_assembled {inst' : Instance} (hs : Assembled inst s)
    (ho : Assembled inst' other)
    (h : s.appendBins inst other binTypeIds itemTypeIds = .ok s') : Assembled inst s' := by
  unfold Solution.appendBins at h
  generalize List.range other.numberOfBins.toNat = l at h
  induction l generalizing s with
  | nil =>
    rw [List.foldlM_nil] at h
    cases h; exact hs
  | cons a l ih =>
    rw [List.foldlM_cons] at h
    obtain ⟨s1, h1, h2⟩ := bind_ok.mp h
    exact ih (.append hs ho h1) h2

end

namespace AppendEx

/-- A bin with one item. -/
def one : Solution := NegEx.made NegEx.instPlain [.addBin 0 1 .vertical, .addNode 1 10, .setItem 0]

/-- The same bin appended with two copies. -/
def two : Solution := match one.appendBin NegEx.instPlain one 0 2 [] [] with
  | .ok s => s
  | .error _ => {}

/-- The same bin appended once more, with the types renamed. -/
def three : Solution := match two.appendBin NegEx.instPlain one 0 1 [0] [0] with
  | .ok s => s
  | .error _ => {}

end AppendEx

open AppendEx in
/-- Two bins appended to a built solution of one bin: the result is assembled and feasible. -/
example : Assembled NegEx.instPlain three
    ∧ (one.appendBin NegEx.instPlain one 0 2 [] [] = .ok two
      ∧ two.appendBin NegEx.instPlain one 0 1 [0] [0] = .ok three)
    ∧ (three.feasible = true ∧ three.numberOfBins = 4 ∧ three.numberOfItems = 4
      ∧ three.bins.length = 3)
    ∧ ∀ p ∈ plates one, ∀ n ∈ p.nodes, 0 ≤ n.t := by
  have h1 : (SolutionBuilder.run NegEx.instPlain
      [.addBin 0 1 .vertical, .addNode 1 10, .setItem 0]).build NegEx.instPlain = .ok one := by
    decide +kernel
  have h2 : one.appendBin NegEx.instPlain one 0 2 [] [] = .ok two := by decide +kernel
  have h3 : two.appendBin NegEx.instPlain one 0 1 [0] [0] = .ok three := by decide +kernel
  exact ⟨.append (.append (.built h1) (.built h1) h2) (.built h1) h3, ⟨h2, h3⟩, by decide +kernel,
    by decide +kernel⟩

end PackingSolver.Guil
