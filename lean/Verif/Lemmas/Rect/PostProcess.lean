import Verif.Model.Rect.PostProcess
import Verif.Lemmas.Grouping
import Verif.Lemmas.Rect.Reach

/-! Helper lemmas: the solution with grouped bins. -/

namespace PackingSolver.Rect

open Spec Grouping Grouping.Spec

namespace GroupLemmas

variable {inst : Instance}

/-- What makes two listed bins identical. -/
abbrev content (b : PackedBin) : Nat × List PlacedItem := (b.binTypeId, b.items)

theorem relabelItems_nil (items : List PlacedItem) : relabelItems [] items = some items := by
  unfold relabelItems
  induction items with
  | nil => rfl
  | cons a l ih =>
    rw [List.mapM_cons, ih]
    rfl

theorem relabelBin_nil (b : PackedBin) : relabelBin [] [] b = b := by
  cases b
  simp [relabelBin, mapId]

theorem inRange_of_typed {s : Solution} {k : Nat} (hk : k < s.bins.length)
    (h : (s.bins.getD k default).binTypeId < inst.numberOfBinTypes
      ∧ ∀ i ∈ (s.bins.getD k default).items, i.itemTypeId < inst.numberOfItemTypes) :
    s.inRange inst k = true := by
  unfold Solution.inRange
  simp only [Bool.and_eq_true, decide_eq_true_eq, List.all_eq_true]
  exact ⟨⟨hk, h.1⟩, h.2⟩

theorem appendBin_progress {s other : Solution} {pos : Nat} (copies : Int)
    (ht : WellTyped inst (binsView other.bins)) (hp : pos < other.bins.length) :
    ∃ s', s.appendBin inst other pos copies [] [] = .ok s' := by
  have hb : other.bins[pos]? = some other.bins[pos] := List.getElem?_eq_getElem hp
  have htb := ht (viewBin other.bins[pos]) (List.mem_map.mpr ⟨_, List.getElem_mem hp, rfl⟩)
  unfold Solution.appendBin
  rw [hb]
  simp only [relabelItems_nil]
  rw [show relabel [] other.bins[pos].binTypeId = some other.bins[pos].binTypeId from rfl]
  unfold Solution.pushBin Solution.updateIndicators
  dsimp only
  rw [if_pos]
  · exact ⟨_, rfl⟩
  · apply inRange_of_typed
    · simp
    · simpa [viewBin] using htb

theorem appendList {s0 other : Solution} (gs : List (Nat × Int)) (h0 : Reachable inst s0)
    (ht : WellTyped inst (binsView other.bins)) (hlt : ∀ g ∈ gs, g.1 < other.bins.length) :
    ∃ s', gs.foldlM (fun n g => n.appendBin inst other g.1 g.2 [] []) s0 = .ok s'
      ∧ Reachable inst s'
      ∧ binsView s'.bins = binsView s0.bins
        ++ gs.map fun g => { viewBin (other.bins.getD g.1 default) with copies := g.2 } := by
  induction gs generalizing s0 with
  | nil => exact ⟨s0, rfl, h0, by simp⟩
  | cons g gs ih =>
    obtain ⟨s1, h1⟩ := appendBin_progress (s := s0) g.2 ht (hlt g (by simp))
    obtain ⟨-, -, hv⟩ := appendBin_ok h0.good h1
    obtain ⟨s', h2, hr, hv2⟩ := ih (.appendBin _ _ other g.1 g.2 [] [] h0 h1)
      (fun x hx => hlt x (by simp [hx]))
    refine ⟨s', ?_, hr, ?_⟩
    · rw [List.foldlM_cons, h1]; exact h2
    · rw [hv2, hv, relabelBin_nil]; simp

theorem grouped {s : Solution} (h : Reachable inst s) :
    ∃ s', groupIdenticalBins inst s = .ok s' ∧ Reachable inst s'
      ∧ ((binsView s'.bins).map fun b => (content b, b.copies))
        = insAll ((binsView s.bins).map fun b => (content b, b.copies)) := by
  obtain ⟨hview, hlt⟩ := binGroups_view binContent (fun b : SolutionBin => b.copies) s.bins
  obtain ⟨s', h1, hr, hv⟩ := appendList (other := s) _ (.init) h.good.typed hlt
  refine ⟨s', h1, hr, ?_⟩
  have e : (binsView s.bins).map (fun b => (content b, b.copies))
      = s.bins.map fun b => (binContent b, b.copies) := by
    unfold binsView
    rw [List.map_map]
    rfl
  rw [e, ← hview, hv]
  unfold groupView
  rw [show binsView (Solution.init inst).bins = [] from rfl, List.nil_append, List.map_map]
  rfl

theorem penalties_zero {p : Packing} (ht : WellTyped inst p)
    (hpen : ∀ b ∈ inst.binTypes, ∀ r ∈ b.resources, r.penalize = false) :
    reportedProfit inst p = (p.map fun b => (b.copies : ℚ) * itemsProfit inst b.items).sum := by
  unfold reportedProfit
  congr 1
  refine List.map_congr_left fun b hb => ?_
  have hz : penalties inst b.binTypeId b.items = 0 := by
    apply List.sum_eq_zero
    intro x hx
    obtain ⟨r, hr, rfl⟩ := List.mem_map.mp hx
    have hbt : inst.binType b.binTypeId ∈ inst.binTypes := by
      unfold Instance.binType
      rw [List.getD_eq_getElem _ _ (ht b hb).1]
      exact List.getElem_mem _
    rw [hpen _ hbt r hr]
    simp
  rw [hz, sub_zero]

end GroupLemmas

end PackingSolver.Rect
