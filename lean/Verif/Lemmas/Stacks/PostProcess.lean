import Verif.Model.Stacks.PostProcess
import Verif.Lemmas.Grouping
import Verif.Lemmas.Stacks.Succeed

/-! Helper lemmas: the solution with grouped bins. -/

namespace PackingSolver.Stacks

open Spec Grouping Grouping.Spec
open PackingSolver.Box (Rotation)

namespace GroupLemmas

variable {inst : Instance}

/-- What makes two listed bins identical. -/
abbrev content (b : PackedBin) : Nat × List PackedStack := (b.binTypeId, b.piles)

/-- A stack without the heights. -/
def flatPile (p : PileContent) : PackedStack :=
  ⟨p.xStart, p.xEnd, p.yStart, p.yEnd, p.items.map fun i => (i.itemTypeId, i.rotation)⟩

/-- A bin without the heights. -/
def flat (c : Nat × List PileContent) : Nat × List PackedStack := (c.1, c.2.map flatPile)

theorem flat_content (b : SolutionBin) : flat (binContent b) = content (viewBin b) := by
  unfold flat binContent content viewBin
  rw [List.map_map]
  rfl

/-- The heights of a stack follow from its items. -/
theorem pile_determined {p q : SolutionStack} (hp : PileGood inst p) (hq : PileGood inst q)
    (h : viewPile p = viewPile q) : pileContent p = pileContent q := by
  unfold viewPile at h
  injection h with h1 h2 h3 h4 h5
  have hv : p.items.map viewItem = q.items.map viewItem := h5
  have hz : p.zEnd = q.zEnd := by rw [hp.height, hq.height, hv]
  have hl : p.items.length = q.items.length := by
    have := congrArg List.length hv
    simpa using this
  have hi : p.items = q.items := by
    apply List.ext_getElem hl
    intro k k1 k2
    have e : viewItem p.items[k] = viewItem q.items[k] := by
      have := congrArg (fun l => l[k]?) hv
      simpa [List.getElem?_map, List.getElem?_eq_getElem k1, List.getElem?_eq_getElem k2] using this
    have b1 := hp.bottoms k k1
    have b2 := hq.bottoms k k2
    rw [hv, ← b2, e] at b1
    unfold viewItem at e
    injection e with e1 e2
    have : p.items[k].zStart = q.items[k].zStart := by omega
    generalize p.items[k] = x at *
    generalize q.items[k] = y at *
    cases x; cases y
    simp_all
  unfold pileContent
  rw [h1, h2, h3, h4, hz, hi]

theorem bin_determined {b c : SolutionBin} (hb : BinGood inst b) (hc : BinGood inst c)
    (h : content (viewBin b) = content (viewBin c)) : binContent b = binContent c := by
  unfold content viewBin at h
  injection h with h1 h2
  have key : ∀ (l m : List SolutionStack), (∀ p ∈ l, PileGood inst p) → (∀ p ∈ m, PileGood inst p) →
      l.map viewPile = m.map viewPile → l.map pileContent = m.map pileContent := by
    intro l
    induction l with
    | nil =>
      intro m _ _ e
      cases m with
      | nil => rfl
      | cons a m => simp at e
    | cons a l ih =>
      intro m hl hm e
      cases m with
      | nil => simp at e
      | cons a' m =>
        rw [List.map_cons, List.map_cons] at e
        injection e with e1 e2
        rw [List.map_cons, List.map_cons, pile_determined (hl a (by simp)) (hm a' (by simp)) e1,
          ih m (fun p hp => hl p (by simp [hp])) (fun p hp => hm p (by simp [hp])) e2]
  unfold binContent
  rw [key _ _ hb.piles hc.piles h2]
  exact Prod.ext h1 rfl

theorem relabelBin_nil (b : PackedBin) : relabelBin [] [] b = b := by
  cases b
  simp [relabelBin, mapId]

theorem appendList {s0 other : Solution} (gs : List (Nat × Int)) (h0 : Reachable inst s0)
    (ht : ∀ b ∈ binsView other.bins, BinTyped inst b) (hlt : ∀ g ∈ gs, g.1 < other.bins.length) :
    ∃ s', gs.foldlM (fun n g => n.appendBin inst other g.1 g.2 [] []) s0 = .ok s'
      ∧ Reachable inst s'
      ∧ binsView s'.bins = binsView s0.bins
        ++ gs.map fun g => { viewBin (other.bins.getD g.1 default) with copies := g.2 } := by
  induction gs generalizing s0 with
  | nil => exact ⟨s0, rfl, h0, by simp⟩
  | cons g gs ih =>
    have hg := hlt g (by simp)
    have hty : BinTyped inst (viewBin (other.bins.getD g.1 default)) := by
      rw [List.getD_eq_getElem _ _ hg]
      exact ht _ (List.mem_map_of_mem (List.getElem_mem hg))
    obtain ⟨s1, h1⟩ := appendBin_succeeds (c := g.2) (mb := []) (mi := []) h0.good hg (.inl rfl)
      (fun _ _ => .inl rfl) (by rw [relabelBin_nil]; exact hty)
    obtain ⟨-, -, hv⟩ := appendBin_ok h0.good h1
    obtain ⟨s', h2, hr, hv2⟩ := ih (.appendBin _ _ other g.1 g.2 [] [] h0 h1)
      (fun x hx => hlt x (by simp [hx]))
    refine ⟨s', ?_, hr, ?_⟩
    · rw [List.foldlM_cons, h1]; exact h2
    · rw [hv2, hv, relabelBin_nil]; simp

theorem grouped {s : Solution} (h : Reachable inst s) :
    ∃ s', groupIdenticalBins inst s = .ok s' ∧ Reachable inst s'
      ∧ ((binsView s'.bins).map fun b => (content b, b.copies))
        = insAll ((binsView s.bins).map fun b => (content b, b.copies)) := by
  obtain ⟨hview, hlt⟩ := binGroups_view binContent (fun b : SolutionBin => b.copies) s.bins
  obtain ⟨s', h1, hr, hv⟩ := appendList (other := s) _ (.init) h.good.typed hlt
  refine ⟨s', h1, hr, ?_⟩
  have e : (binsView s.bins).map (fun b => (content b, b.copies))
      = (s.bins.map fun b => (binContent b, b.copies)).map fun x => (flat x.1, x.2) := by
    unfold binsView
    rw [List.map_map, List.map_map]
    refine List.map_congr_left fun b _ => ?_
    exact Prod.ext (flat_content b).symm rfl
  have hinj : ∀ x ∈ s.bins.map (fun b => (binContent b, b.copies)),
      ∀ y ∈ s.bins.map (fun b => (binContent b, b.copies)), flat x.1 = flat y.1 → x.1 = y.1 := by
    intro x hx y hy hf
    obtain ⟨b, hb, rfl⟩ := List.mem_map.mp hx
    obtain ⟨c, hc, rfl⟩ := List.mem_map.mp hy
    have hf : flat (binContent b) = flat (binContent c) := hf
    rw [flat_content, flat_content] at hf
    exact bin_determined (h.good.bins b hb) (h.good.bins c hc) hf
  rw [e, insAll_map flat _ hinj, ← hview, hv]
  unfold groupView
  rw [show binsView (Solution.init inst).bins = [] from rfl, List.nil_append, List.map_map,
    List.map_map]
  refine List.map_congr_left fun g _ => ?_
  exact Prod.ext (flat_content _).symm rfl

end GroupLemmas

end PackingSolver.Stacks
