import Verif.Lemmas.Guil.RdpTable
import Verif.Model.Guil.SolutionBuilder

/-!
# What the dynamic programs of the guillotine algorithms compute

Properties C78 and C79.
-/

namespace PackingSolver.Guil

open Guil.Spec

/-- An instance the algorithms are meant for: it has a first bin type, what remains of it without
its trims is not empty, and cuts have a thickness. -/
structure HasPlate (inst : Instance) (bt : BinType) : Prop where
  first : inst.binTypes.head? = some bt
  width : 0 < bt.w - bt.leftTrim - bt.rightTrim
  height : 0 < bt.h - bt.bottomTrim - bt.topTrim
  thickness : 0 ≤ inst.parameters.cutThickness

namespace HypergraphEx

/-- A plate of 10 × 5 with cuts of thickness 1; items 4 × 5 (profit 20) and 2 × 3 (profit 7). -/
def inst : Instance :=
  { objective := .knapsack
    itemTypes := [{ w := 4, h := 5, profit := 20, copies := 1 }, { w := 2, h := 3, profit := 7, copies := 3 }]
    binTypes := [{ w := 10, h := 5 }]
    parameters := { cutThickness := 1 } }

theorem hasPlate : HasPlate inst { w := 10, h := 5 } := ⟨rfl, by decide, by decide, by decide⟩

/-- A plate of 10 × 5, cuts of thickness 2 and one item 8 × 5. -/
def instThick : Instance :=
  { objective := .knapsack
    itemTypes := [{ w := 8, h := 5, profit := 40, copiesMin := 0, oriented := true, stackId := 0, resourceIds := [[]] }]
    binTypes := [{ w := 10, h := 5 }]
    parameters := { cutThickness := 2 }
    binTypeIds := [0]
    previousBinsArea := [0]
    numberOfItems := 1
    itemTypeIds := [0]
    stackOffsets := [0, 1] }

theorem hasPlateThick : HasPlate instThick { w := 10, h := 5 } :=
  ⟨rfl, by decide, by decide, by decide⟩

end HypergraphEx

section
variable {inst : Instance} {bt : BinType} {tbl : List ℚ}

theorem computeDp_ok (hp : HasPlate inst bt) :
    ∃ tbl, computeDp inst = .ok tbl ∧ IsTable (effWidth bt) (effHeight bt) tbl
      ∧ ∀ a b, 0 < a → a ≤ effWidth bt → 0 < b → b ≤ effHeight bt →
        Best inst.itemTypes inst.parameters.cutThickness a b (entry 0 (effWidth bt) tbl a b) := by
  obtain ⟨h1, h2, h3, h4⟩ := hp
  unfold computeDp
  cases hb : inst.binTypes with
  | nil => rw [hb] at h1; cases h1
  | cons x rest =>
    rw [hb] at h1
    cases h1
    exact dpTable_ok _ h2 h3 h4

/-! ## C78: the table of best profits -/

/-- **C78**: the table can always be computed, and it has an entry for every box that fits in the
plate. -/
theorem dp_defined (hp : HasPlate inst bt) :
    ∃ tbl, computeDp inst = .ok tbl
      ∧ ∀ w h, 0 < w → w ≤ bt.w - bt.leftTrim - bt.rightTrim →
        0 < h → h ≤ bt.h - bt.bottomTrim - bt.topTrim →
        ∃ v, EntryIs tbl (bt.w - bt.leftTrim - bt.rightTrim) w h v := by
  obtain ⟨tbl, e, ht, -⟩ := computeDp_ok hp
  exact ⟨tbl, e, fun w h h1 h2 h3 h4 => ⟨_, entryIs_entry 0 ht ⟨h1.le, h2, h3.le, h4⟩⟩⟩

theorem dp_best_good (hp : HasPlate inst bt) (he : computeDp inst = .ok tbl) {w h : Int}
    (hw : 0 < w) (hwW : w ≤ bt.w - bt.leftTrim - bt.rightTrim)
    (hh : 0 < h) (hhH : h ≤ bt.h - bt.bottomTrim - bt.topTrim)
    {v : ℚ} (hv : EntryIs tbl (bt.w - bt.leftTrim - bt.rightTrim) w h v) :
    Best inst.itemTypes inst.parameters.cutThickness w h v := by
  obtain ⟨tbl', e, ht, hbest⟩ := computeDp_ok hp
  rw [he] at e
  cases e
  have := hbest w h hw hwW hh hhH
  rwa [show effWidth bt = bt.w - bt.leftTrim - bt.rightTrim from rfl, entry_of_entryIs hv] at this

/-- **C78**: the entry of a box is the largest profit of its patterns, copies being unlimited.
Partial: among the patterns in which every cut leaves material on both sides; see `dp_best` for cuts
without thickness and `dp_misses_lost_cut` for the rest. -/
theorem dp_best_partial (hp : HasPlate inst bt) (he : computeDp inst = .ok tbl) {w h : Int}
    (hw : 0 < w) (hwW : w ≤ bt.w - bt.leftTrim - bt.rightTrim)
    (hh : 0 < h) (hhH : h ≤ bt.h - bt.bottomTrim - bt.topTrim)
    {v : ℚ} (hv : EntryIs tbl (bt.w - bt.leftTrim - bt.rightTrim) w h v) :
    IsBestProfit inst.itemTypes
      (fun p => p.Fits inst.itemTypes inst.parameters.cutThickness w h
        ∧ p.TwoSided inst.parameters.cutThickness w h) v :=
  dp_best_good hp he hw hwW hh hhH hv

theorem fits_twoSided {items : List ItemType} {p : Pattern} {w h : Int} (hp : p.Fits items 0 w h) :
    p.TwoSided 0 w h := by
  induction p generalizing w h with
  | waste => trivial
  | item => trivial
  | vertical x l r ihl ihr =>
    obtain ⟨h1, h2, h3, h4 | h4⟩ := hp
    · exact ⟨h4.1, ihl h3, ihr h4.2⟩
    · omega
  | horizontal x l r ihl ihr =>
    obtain ⟨h1, h2, h3, h4 | h4⟩ := hp
    · exact ⟨h4.1, ihl h3, ihr h4.2⟩
    · omega

/-- **C78**: when cuts have no thickness, the entry of a box is the largest profit of all its
guillotine patterns, copies being unlimited. -/
theorem dp_best (hp : HasPlate inst bt) (ht : inst.parameters.cutThickness = 0)
    (he : computeDp inst = .ok tbl) {w h : Int}
    (hw : 0 < w) (hwW : w ≤ bt.w - bt.leftTrim - bt.rightTrim)
    (hh : 0 < h) (hhH : h ≤ bt.h - bt.bottomTrim - bt.topTrim)
    {v : ℚ} (hv : EntryIs tbl (bt.w - bt.leftTrim - bt.rightTrim) w h v) :
    IsBestProfit inst.itemTypes (fun p => p.Fits inst.itemTypes 0 w h) v := by
  have := dp_best_good hp he hw hwW hh hhH hv
  rw [ht] at this
  refine ⟨?_, fun p hp => this.2 p ⟨hp, fits_twoSided hp⟩⟩
  obtain ⟨p, h1, h2⟩ := this.1
  exact ⟨p, h1.1, h2⟩

/-- **C78**: the entry of a box is always reached by a pattern of the box, whatever the thickness
of the cuts: the table never promises too much. -/
theorem dp_reached (hp : HasPlate inst bt) (he : computeDp inst = .ok tbl) {w h : Int}
    (hw : 0 < w) (hwW : w ≤ bt.w - bt.leftTrim - bt.rightTrim)
    (hh : 0 < h) (hhH : h ≤ bt.h - bt.bottomTrim - bt.topTrim)
    {v : ℚ} (hv : EntryIs tbl (bt.w - bt.leftTrim - bt.rightTrim) w h v) :
    ∃ p : Pattern, p.Fits inst.itemTypes inst.parameters.cutThickness w h
      ∧ p.profit inst.itemTypes = v := by
  obtain ⟨p, h1, h2⟩ := (dp_best_good hp he hw hwW hh hhH hv).1
  exact ⟨p, h1.1, h2⟩

/-- **C78**: copies being limited only makes things worse: the entry of a box bounds the profit of
every pattern of the box, in particular of those that respect the copies. -/
theorem dp_bounds_limited (hp : HasPlate inst bt) (ht : inst.parameters.cutThickness = 0)
    (he : computeDp inst = .ok tbl) {w h : Int}
    (hw : 0 < w) (hwW : w ≤ bt.w - bt.leftTrim - bt.rightTrim)
    (hh : 0 < h) (hhH : h ≤ bt.h - bt.bottomTrim - bt.topTrim)
    {v : ℚ} (hv : EntryIs tbl (bt.w - bt.leftTrim - bt.rightTrim) w h v)
    {p : Pattern} (hfit : p.Fits inst.itemTypes 0 w h)
    (_hcopies : ∀ i it, inst.itemTypes[i]? = some it → (p.count i : Int) ≤ it.copies) :
    p.profit inst.itemTypes ≤ v :=
  (dp_best hp ht he hw hwW hh hhH hv).2 p hfit

end

namespace HypergraphEx

/-- The table of the example. -/
theorem dp_entry :
    (computeDp inst).toOption.map (fun tbl => (tbl[10 + 11 * 5]?, tbl[9 + 11 * 5]?, tbl[4 + 11 * 5]?,
      tbl[2 + 11 * 5]?)) = some (some 35, some 40, some 20, some 7) := by decide +kernel

/-- The hypotheses of the theorems of C78 are met: a 4 × 5, a cut, and three 2 × 3, two of them in
the plate's 5 × 5 that remains turned by a quarter, give 35. -/
example : ∃ tbl, computeDp inst = .ok tbl ∧ EntryIs tbl (10 - 0 - 0) 10 5 35
    ∧ ∀ p : Pattern, p.Fits inst.itemTypes 1 10 5 ∧ p.TwoSided 1 10 5 →
      p.profit inst.itemTypes ≤ 35 := by
  cases h : computeDp inst with
  | error e =>
    have := dp_entry
    rw [h] at this
    cases this
  | ok tbl =>
    have he : EntryIs tbl (10 - 0 - 0) 10 5 35 := by
      have := dp_entry
      rw [h] at this
      simp only [Except.toOption, Option.map_some, Option.some.injEq, Prod.mk.injEq] at this
      exact ⟨by decide, this.1⟩
    exact ⟨tbl, rfl, he, (dp_best_partial hasPlate h (by decide) (by decide) (by decide) (by decide)
      he).2⟩

/-- **C78, negative**: the entries do not grow with the box: with cuts of thickness 1 the table says
40 for 9 × 5 (two items 4 × 5) and 35 for 10 × 5. -/
theorem dp_not_monotone :
    ∃ tbl, computeDp inst = .ok tbl ∧ EntryIs tbl 10 9 5 40 ∧ EntryIs tbl 10 10 5 35 := by
  cases h : computeDp inst with
  | error e =>
    have := dp_entry
    rw [h] at this
    cases this
  | ok tbl =>
    have := dp_entry
    rw [h] at this
    simp only [Except.toOption, Option.map_some, Option.some.injEq, Prod.mk.injEq] at this
    exact ⟨tbl, rfl, ⟨by decide, this.2.1⟩, ⟨by decide, this.1⟩⟩

/-- **C78, negative**: with cuts of thickness 2, the item 8 × 5 in the plate 10 × 5 is missed: a cut
at 8 yields it, the two units beyond are lost in the cut; the table says that nothing fits. -/
theorem dp_misses_lost_cut :
    ∃ tbl, computeDp instThick = .ok tbl
      ∧ EntryIs tbl 10 10 5 0
      ∧ ∃ p : Pattern, p.Fits instThick.itemTypes 2 10 5 ∧ p.profit instThick.itemTypes = 40 := by
  have hd : (computeDp instThick).toOption.map (fun tbl => tbl[10 + 11 * 5]?) = some (some 0) := by
    decide +kernel
  cases h : computeDp instThick with
  | error e => rw [h] at hd; cases hd
  | ok tbl =>
    rw [h] at hd
    simp only [Except.toOption, Option.map_some, Option.some.injEq] at hd
    refine ⟨tbl, rfl, ⟨by decide, hd⟩, .vertical 8 (.item 0 false) .waste, ?_, by decide +kernel⟩
    exact ⟨by decide, by decide, ⟨_, rfl, by decide⟩, Or.inr ⟨by decide, rfl⟩⟩

/-- The solution builder accepts this pattern: a first cut at 8 and the item. -/
theorem lost_cut_is_a_solution :
    let ops : List Op := [.addBin 0 1 .vertical, .addNode 1 8, .setItem 0]
    ((SolutionBuilder.run instThick ops).build instThick).toOption.map
      (fun s => (s.profit, s.feasible)) = some (40, true) := by decide +kernel

end HypergraphEx

/-! ## C79: the table of best completions -/

section
variable {inst : Instance} {bt : BinType} {dp : List ℚ} {rdp : List (WithBot ℚ)}

theorem computeRdp_best (hp : HasPlate inst bt) (he : computeDp inst = .ok dp) :
    ∃ tbl, computeRdp dp (effWidth bt) (effHeight bt) inst.parameters.cutThickness = .ok tbl
      ∧ IsTable (effWidth bt) (effHeight bt) tbl
      ∧ ∀ a b, 0 < a → a ≤ effWidth bt → 0 < b → b ≤ effHeight bt →
        IsBestCompletion inst.itemTypes inst.parameters.cutThickness (effWidth bt) (effHeight bt) a b
          (entry ⊥ (effWidth bt) tbl a b) := by
  obtain ⟨tbl', e, ht, hbest⟩ := computeDp_ok hp
  rw [he] at e
  cases e
  exact computeRdp_ok hp.width hp.height hp.thickness ht hbest

/-- **C79**: the second table can always be computed from the first, with an entry for every box. -/
theorem rdp_defined (hp : HasPlate inst bt) (he : computeDp inst = .ok dp) :
    ∃ tbl, computeRdp dp (bt.w - bt.leftTrim - bt.rightTrim) (bt.h - bt.bottomTrim - bt.topTrim)
        inst.parameters.cutThickness = .ok tbl
      ∧ ∀ w h, 0 < w → w ≤ bt.w - bt.leftTrim - bt.rightTrim →
        0 < h → h ≤ bt.h - bt.bottomTrim - bt.topTrim →
        ∃ v, EntryIs tbl (bt.w - bt.leftTrim - bt.rightTrim) w h v := by
  obtain ⟨tbl, e, ht, -⟩ := computeRdp_best hp he
  exact ⟨tbl, e, fun w h h1 h2 h3 h4 => ⟨_, entryIs_entry ⊥ ht ⟨h1.le, h2, h3.le, h4⟩⟩⟩

/-- **C79**: the entry of a box is the largest profit that can be made outside of such a box in a
pattern of the plate (`⊥` if the box cannot be obtained).  Partial: every cut leaves material on both
sides. -/
theorem rdp_best_partial (hp : HasPlate inst bt) (he : computeDp inst = .ok dp)
    (hr : computeRdp dp (bt.w - bt.leftTrim - bt.rightTrim) (bt.h - bt.bottomTrim - bt.topTrim)
      inst.parameters.cutThickness = .ok rdp) {w h : Int}
    (hw : 0 < w) (hwW : w ≤ bt.w - bt.leftTrim - bt.rightTrim)
    (hh : 0 < h) (hhH : h ≤ bt.h - bt.bottomTrim - bt.topTrim)
    {v : WithBot ℚ} (hv : EntryIs rdp (bt.w - bt.leftTrim - bt.rightTrim) w h v) :
    IsBestCompletion inst.itemTypes inst.parameters.cutThickness
      (bt.w - bt.leftTrim - bt.rightTrim) (bt.h - bt.bottomTrim - bt.topTrim) w h v := by
  obtain ⟨tbl', e, ht, hbest⟩ := computeRdp_best hp he
  have e' := e.symm.trans hr
  cases e'
  have := hbest w h hw hwW hh hhH
  rwa [show effWidth bt = bt.w - bt.leftTrim - bt.rightTrim from rfl, entry_of_entryIs hv] at this

theorem completion_occurs {items : List ItemType} {t W H : Int}
    {P p : Pattern} {w h w' h' : Int} (ho : Occurs t P w h p w' h')
    (hf : P.Fits items t w h) (h2 : P.TwoSided t w h) {v : ℚ}
    (hc : Completion items t W H w h v) :
    ∃ v', Completion items t W H w' h' v' ∧ v + P.profit items = v' + p.profit items := by
  induction ho generalizing v with
  | self => exact ⟨v, hc, rfl⟩
  | left h1 ih =>
    rename_i x w h w' h' l r p
    obtain ⟨f1, f2, f3, f4⟩ := hf
    obtain ⟨g1, g2, g3⟩ := h2
    have f4 : r.Fits items t (w - x - t) h := by
      rcases f4 with f4 | f4
      · exact f4.2
      · omega
    have hc' : Completion items t W H (x + t + (w - x - t)) h v := by
      rw [show x + t + (w - x - t) = w by omega]; exact hc
    obtain ⟨v', c', e'⟩ := ih f3 g2 (Completion.beside (by omega) f4 g3 hc')
    refine ⟨v', c', ?_⟩
    simp only [Pattern.profit]
    rw [← e']
    ring
  | right h1 ih =>
    rename_i x w h w' h' l r p
    obtain ⟨f1, f2, f3, f4⟩ := hf
    obtain ⟨g1, g2, g3⟩ := h2
    have f4 : r.Fits items t (w - x - t) h := by
      rcases f4 with f4 | f4
      · exact f4.2
      · omega
    have hc' : Completion items t W H (w - x - t + t + x) h v := by
      rw [show w - x - t + t + x = w by omega]; exact hc
    obtain ⟨v', c', e'⟩ := ih f4 g3 (Completion.beside f1 f3 g2 hc')
    refine ⟨v', c', ?_⟩
    simp only [Pattern.profit]
    rw [← e']
    ring
  | lower h1 ih =>
    rename_i x w h w' h' l r p
    obtain ⟨f1, f2, f3, f4⟩ := hf
    obtain ⟨g1, g2, g3⟩ := h2
    have f4 : r.Fits items t w (h - x - t) := by
      rcases f4 with f4 | f4
      · exact f4.2
      · omega
    have hc' : Completion items t W H w (x + t + (h - x - t)) v := by
      rw [show x + t + (h - x - t) = h by omega]; exact hc
    obtain ⟨v', c', e'⟩ := ih f3 g2 (Completion.above (by omega) f4 g3 hc')
    refine ⟨v', c', ?_⟩
    simp only [Pattern.profit]
    rw [← e']
    ring
  | upper h1 ih =>
    rename_i x w h w' h' l r p
    obtain ⟨f1, f2, f3, f4⟩ := hf
    obtain ⟨g1, g2, g3⟩ := h2
    have f4 : r.Fits items t w (h - x - t) := by
      rcases f4 with f4 | f4
      · exact f4.2
      · omega
    have hc' : Completion items t W H w (h - x - t + t + x) v := by
      rw [show h - x - t + t + x = h by omega]; exact hc
    obtain ⟨v', c', e'⟩ := ih f4 g3 (Completion.above f1 f3 g2 hc')
    refine ⟨v', c', ?_⟩
    simp only [Pattern.profit]
    rw [← e']
    ring

theorem occurs_pos {items : List ItemType} {t : Int} (ht : 0 ≤ t)
    {P p : Pattern} {w h w' h' : Int} (ho : Occurs t P w h p w' h')
    (hf : P.Fits items t w h) (h2 : P.TwoSided t w h) (hw : 0 < w) (hh : 0 < h) :
    0 < w' ∧ w' ≤ w ∧ 0 < h' ∧ h' ≤ h := by
  induction ho with
  | self => exact ⟨hw, le_refl _, hh, le_refl _⟩
  | left h1 ih =>
    obtain ⟨f1, f2, f3, f4⟩ := hf
    have := ih f3 h2.2.1 f1 hh
    omega
  | right h1 ih =>
    obtain ⟨f1, f2, f3, f4⟩ := hf
    have g := h2.1
    have := ih (by rcases f4 with f4 | f4; exacts [f4.2, by omega]) h2.2.2 (by omega) hh
    omega
  | lower h1 ih =>
    obtain ⟨f1, f2, f3, f4⟩ := hf
    have := ih f3 h2.2.1 hw f1
    omega
  | upper h1 ih =>
    obtain ⟨f1, f2, f3, f4⟩ := hf
    have g := h2.1
    have := ih (by rcases f4 with f4 | f4; exacts [f4.2, by omega]) h2.2.2 hw (by omega)
    omega

/-- **C79**: the bound the search relies on: the profit of a pattern of the plate is at most the
profit of the pattern of any rectangle that occurs in it plus the entry of that rectangle.  Partial:
every cut leaves material on both sides. -/
theorem rdp_bounds_partial (hp : HasPlate inst bt) (he : computeDp inst = .ok dp)
    (hr : computeRdp dp (bt.w - bt.leftTrim - bt.rightTrim) (bt.h - bt.bottomTrim - bt.topTrim)
      inst.parameters.cutThickness = .ok rdp)
    {P p : Pattern} {w h : Int}
    (ho : Occurs inst.parameters.cutThickness P (bt.w - bt.leftTrim - bt.rightTrim)
      (bt.h - bt.bottomTrim - bt.topTrim) p w h)
    (hf : P.Fits inst.itemTypes inst.parameters.cutThickness (bt.w - bt.leftTrim - bt.rightTrim)
      (bt.h - bt.bottomTrim - bt.topTrim))
    (h2 : P.TwoSided inst.parameters.cutThickness (bt.w - bt.leftTrim - bt.rightTrim)
      (bt.h - bt.bottomTrim - bt.topTrim))
    {v : WithBot ℚ} (hv : EntryIs rdp (bt.w - bt.leftTrim - bt.rightTrim) w h v) :
    ((P.profit inst.itemTypes : ℚ) : WithBot ℚ) ≤ (p.profit inst.itemTypes : WithBot ℚ) + v := by
  obtain ⟨a, b, c, d⟩ := occurs_pos hp.thickness ho hf h2 hp.width hp.height
  have hb := rdp_best_partial hp he hr a b c d hv
  obtain ⟨v', c', e'⟩ := completion_occurs ho hf h2
    (Completion.whole (items := inst.itemTypes))
  rw [zero_add] at e'
  rw [e', add_comm, WithBot.coe_add]
  exact add_le_add le_rfl (hb.1 _ c')

/-- **C79**: when cuts have no thickness, the bound holds for all patterns of the plate. -/
theorem rdp_bounds (hp : HasPlate inst bt) (ht : inst.parameters.cutThickness = 0)
    (he : computeDp inst = .ok dp)
    (hr : computeRdp dp (bt.w - bt.leftTrim - bt.rightTrim) (bt.h - bt.bottomTrim - bt.topTrim) 0
      = .ok rdp)
    {P p : Pattern} {w h : Int}
    (ho : Occurs 0 P (bt.w - bt.leftTrim - bt.rightTrim) (bt.h - bt.bottomTrim - bt.topTrim) p w h)
    (hf : P.Fits inst.itemTypes 0 (bt.w - bt.leftTrim - bt.rightTrim)
      (bt.h - bt.bottomTrim - bt.topTrim))
    {v : WithBot ℚ} (hv : EntryIs rdp (bt.w - bt.leftTrim - bt.rightTrim) w h v) :
    ((P.profit inst.itemTypes : ℚ) : WithBot ℚ) ≤ (p.profit inst.itemTypes : WithBot ℚ) + v := by
  have hf2 := fits_twoSided hf
  rw [← ht] at hr ho hf hf2
  exact rdp_bounds_partial hp he hr ho hf hf2 hv

/-- A completion is a pattern around the box. -/
theorem completion_realized {items : List ItemType} {t W H w h : Int} {v : ℚ} (ht : 0 ≤ t)
    (hw : 0 < w) (hh : 0 < h) (hc : Completion items t W H w h v) {p : Pattern}
    (hf : p.Fits items t w h) (h2 : p.TwoSided t w h) :
    ∃ P : Pattern, P.Fits items t W H ∧ P.TwoSided t W H ∧ Occurs t P W H p w h
      ∧ P.profit items = v + p.profit items := by
  suffices hs : ∀ p0 w0 h0, 0 < w → 0 < h → ∀ p : Pattern, p.Fits items t w h →
      p.TwoSided t w h → Occurs t p w h p0 w0 h0 →
      ∃ P : Pattern, P.Fits items t W H ∧ P.TwoSided t W H ∧ Occurs t P W H p0 w0 h0
        ∧ P.profit items = v + p.profit items from
    hs p w h hw hh p hf h2 Occurs.self
  clear hw hh hf h2 p
  intro p0 w0 h0 hw hh
  induction hc with
  | whole => exact fun p h1 h2 h3 => ⟨p, h1, h2, h3, by ring⟩
  | @beside w h c v q hc hq hq2 h1 ih =>
    intro p f1 f2 f3
    have e : w + t + c - w - t = c := by omega
    obtain ⟨P, a, b, c', d⟩ := ih (by omega) hh (.vertical w p q)
      ⟨hw, by omega, f1, Or.inl ⟨by omega, by rw [e]; exact hq⟩⟩
      ⟨by omega, f2, by rw [e]; exact hq2⟩ (Occurs.left f3)
    refine ⟨P, a, b, c', ?_⟩
    rw [d]
    simp only [Pattern.profit]
    ring
  | @above w h c v q hc hq hq2 h1 ih =>
    intro p f1 f2 f3
    have e : h + t + c - h - t = c := by omega
    obtain ⟨P, a, b, c', d⟩ := ih hw (by omega) (.horizontal h p q)
      ⟨hh, by omega, f1, Or.inl ⟨by omega, by rw [e]; exact hq⟩⟩
      ⟨by omega, f2, by rw [e]; exact hq2⟩ (Occurs.lower f3)
    refine ⟨P, a, b, c', ?_⟩
    rw [d]
    simp only [Pattern.profit]
    ring

/-- **C79**: the entry of a box is not too large either: there is a pattern of the plate, containing
a given pattern of such a box, with exactly this profit outside. -/
theorem rdp_reached (hp : HasPlate inst bt) (he : computeDp inst = .ok dp)
    (hr : computeRdp dp (bt.w - bt.leftTrim - bt.rightTrim) (bt.h - bt.bottomTrim - bt.topTrim)
      inst.parameters.cutThickness = .ok rdp) {w h : Int}
    (hw : 0 < w) (hwW : w ≤ bt.w - bt.leftTrim - bt.rightTrim)
    (hh : 0 < h) (hhH : h ≤ bt.h - bt.bottomTrim - bt.topTrim)
    {v : ℚ} (hv : EntryIs rdp (bt.w - bt.leftTrim - bt.rightTrim) w h (v : WithBot ℚ))
    {p : Pattern} (hf : p.Fits inst.itemTypes inst.parameters.cutThickness w h)
    (h2 : p.TwoSided inst.parameters.cutThickness w h) :
    ∃ P : Pattern, P.Fits inst.itemTypes inst.parameters.cutThickness
        (bt.w - bt.leftTrim - bt.rightTrim) (bt.h - bt.bottomTrim - bt.topTrim)
      ∧ Occurs inst.parameters.cutThickness P (bt.w - bt.leftTrim - bt.rightTrim)
        (bt.h - bt.bottomTrim - bt.topTrim) p w h
      ∧ P.profit inst.itemTypes = v + p.profit inst.itemTypes := by
  have hb := rdp_best_partial hp he hr hw hwW hh hhH hv
  obtain ⟨P, a, -, c, d⟩ := completion_realized hp.thickness hw hh (hb.2 v rfl) hf h2
  exact ⟨P, a, c, d⟩

end

namespace HypergraphEx

/-- The second table of the example: a box of width 9 cannot be obtained in this plate. -/
theorem rdp_entry :
    ((computeDp inst).toOption.bind fun dp => (computeRdp dp 10 5 1).toOption.map
      (fun tbl => (tbl[4 + 11 * 5]?, tbl[7 + 11 * 5]?, tbl[10 + 11 * 5]?, tbl[9 + 11 * 5]?)))
    = some (some ((14 : ℚ) : WithBot ℚ), some ((7 : ℚ) : WithBot ℚ), some ((0 : ℚ) : WithBot ℚ), some ⊥) := by decide +kernel

/-- The hypotheses of the theorems of C79 are met. -/
example : ∃ dp rdp, computeDp inst = .ok dp ∧ computeRdp dp (10 - 0 - 0) (5 - 0 - 0) 1 = .ok rdp
    ∧ EntryIs rdp (10 - 0 - 0) 4 5 ((14 : ℚ) : WithBot ℚ)
    ∧ ∃ P : Pattern, P.Fits inst.itemTypes 1 (10 - 0 - 0) (5 - 0 - 0)
      ∧ Occurs 1 P (10 - 0 - 0) (5 - 0 - 0) (.item 0 false) 4 5
      ∧ P.profit inst.itemTypes = 14 + (Pattern.item 0 false).profit inst.itemTypes := by
  obtain ⟨dp, h1, -⟩ := dp_defined hasPlate
  obtain ⟨rdp, h2, -⟩ := rdp_defined hasPlate h1
  have hent := rdp_entry
  rw [h1] at hent
  simp only [Except.toOption, Option.bind_some] at hent
  rw [show computeRdp dp 10 5 1 = .ok rdp from h2] at hent
  simp only [Option.map_some, Option.some.injEq, Prod.mk.injEq] at hent
  have he : EntryIs rdp (10 - 0 - 0) 4 5 ((14 : ℚ) : WithBot ℚ) := ⟨by decide, hent.1⟩
  exact ⟨dp, rdp, h1, h2, he, rdp_reached hasPlate h1 h2 (by decide) (by decide) (by decide)
    (by decide) he ⟨_, rfl, by decide⟩ trivial⟩

end HypergraphEx

end PackingSolver.Guil
