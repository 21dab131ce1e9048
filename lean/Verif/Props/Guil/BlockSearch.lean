import Verif.Props.Guil.Hypergraph
import Verif.Lemmas.Guil.BlockEnds

/-!
# What the block search for one guillotine bin finds

Properties C80 and C81.
-/

namespace PackingSolver.Guil

open Guil.Spec

section
variable {inst : Instance} {bt : BinType} {bk : ℚ → Bucketing} {timer : Nat → Bool} {s : Search}

/-- The search proper, once the tables are there. -/
theorem search_context (hp : HasPlate inst bt) (hi : PosItems inst) (bk : ℚ → Bucketing)
    (timer : Nat → Bool) :
    ∃ dp rdp init, computeDp inst = .ok dp
      ∧ computeRdp dp (effWidth bt) (effHeight bt) inst.parameters.cutThickness = .ok rdp
      ∧ init = entry 0 (effWidth bt) dp (effWidth bt) (effHeight bt)
      ∧ CtxOk ⟨inst, effWidth bt, effHeight bt, inst.parameters.cutThickness, rdp, bk init, timer⟩
      ∧ ∀ fuel, treeSearchHypergraph inst bk timer fuel
        = runSearch ⟨inst, effWidth bt, effHeight bt, inst.parameters.cutThickness, rdp, bk init,
          timer⟩ fuel := by
  obtain ⟨dp, e1, t1, -⟩ := computeDp_ok hp
  obtain ⟨rdp, e2, t2, -⟩ := computeRdp_best hp e1
  refine ⟨dp, rdp, _, e1, e2, rfl, ⟨hp.width, hp.height, hp.thickness, t2, hi⟩, fun fuel => ?_⟩
  unfold treeSearchHypergraph
  cases hb : inst.binTypes with
  | nil => have := hp.first; rw [hb] at this; cases this
  | cons x rest =>
    have := hp.first
    rw [hb] at this
    cases this
    dsimp only
    rw [e1]
    show (do let rdp ← computeRdp dp (effWidth bt) (effHeight bt) inst.parameters.cutThickness
             let bound ← initBound dp (effWidth bt) (effHeight bt)
             runSearch ⟨inst, effWidth bt, effHeight bt, inst.parameters.cutThickness, rdp, bk bound, timer⟩ fuel) = _
    rw [e2]
    show (do let bound ← initBound dp (effWidth bt) (effHeight bt)
             runSearch ⟨inst, effWidth bt, effHeight bt, inst.parameters.cutThickness, rdp, bk bound, timer⟩ fuel) = _
    have e3 : initBound dp (effWidth bt) (effHeight bt)
        = .ok (entry 0 (effWidth bt) dp (effWidth bt) (effHeight bt)) :=
      read_ok 0 t1 ⟨hp.width.le, le_refl _, hp.height.le, le_refl _⟩
    rw [e3]
    rfl

/-! ## C80: what is reported is right, and the search ends -/

theorem blockOk_pattern {c : HyperContext} {ret : List Block} {b : Block} (hc : CtxOk c)
    (hb : BlockOk c ret b) :
    ∃ p : Pattern, p.Fits c.inst.itemTypes c.t c.effW c.effH ∧ p.Respects c.inst.itemTypes
      ∧ p.profit c.inst.itemTypes = b.profit
      ∧ ∀ i, (p.count i : Int) = sparseCount b.itemCopies i := by
  have pos := hb.1.pos hc.items hc.thickness
  obtain ⟨p, f, e, n⟩ := hb.1.pattern hc.items hc.thickness
  obtain ⟨p', f', e', n'⟩ := fits_enlarge hc.thickness pos.1 pos.2 hb.2.1 hb.2.2 f
  have cp := hb.1.copies
  refine ⟨p', f', ?_, e'.trans e, fun i => by rw [n', n]⟩
  intro i it hit hi
  have h1 := (all_copiesOk_iff _ cp.1).mp cp.2.2 i
  rw [← n i, ← n' i, itemType_of_some hit] at h1
  exact h1 (by omega)

/-- **C80**: the search never fails and always ends, whatever the timer says. -/
theorem search_ends (hp : HasPlate inst bt) (hi : PosItems inst) (bk : ℚ → Bucketing)
    (timer : Nat → Bool) :
    ∃ steps s, ∀ fuel, steps ≤ fuel → treeSearchHypergraph inst bk timer fuel = .ok (some s) := by
  obtain ⟨dp, rdp, init, -, -, -, hc, e⟩ := search_context hp hi bk timer
  obtain ⟨steps, s, h⟩ := runSearch_ends hc
  exact ⟨steps, s, fun fuel hf => by rw [e]; exact h fuel hf⟩

/-- **C80**: every block that is reported stands for a pattern of the plate that respects the
copies and has the profit of the block; each one is better than all before, and the best profit is
that of the last one.  The timer may stop the search at any moment. -/
theorem search_sound (hp : HasPlate inst bt) (hi : PosItems inst) {fuel : Nat}
    (he : treeSearchHypergraph inst bk timer fuel = .ok (some s)) :
    (∀ b ∈ s.reported, ∃ p : Pattern,
      p.Fits inst.itemTypes inst.parameters.cutThickness (bt.w - bt.leftTrim - bt.rightTrim)
        (bt.h - bt.bottomTrim - bt.topTrim)
      ∧ p.Respects inst.itemTypes ∧ p.profit inst.itemTypes = b.profit)
    ∧ s.reported.Pairwise (fun a b => a.profit < b.profit)
    ∧ (s.best = 0 ∧ s.reported = [] ∨ ∃ b, s.reported.getLast? = some b ∧ b.profit = s.best)
    ∧ ∀ b ∈ s.reported, 0 < b.profit := by
  obtain ⟨dp, rdp, init, -, -, -, hc, e⟩ := search_context hp hi bk timer
  obtain ⟨r, e1, h1⟩ := sinv_runSearch hc fuel
  rw [e, e1] at he
  cases he
  have h := h1 s rfl
  refine ⟨?_, h.increasing, ?_, fun b hb => (h.le_best b hb).1⟩
  · intro b hb
    obtain ⟨p, f, r, ep, -⟩ := blockOk_pattern hc (h.reported b hb)
    exact ⟨p, f, r, ep⟩
  · rcases h.best with ⟨h2, h3⟩ | h2
    · exact Or.inl ⟨h3, h2⟩
    · exact Or.inr h2

/-- **C80**: the best profit of the search is the profit of a pattern of the plate. -/
theorem search_best_reached (hp : HasPlate inst bt) (hi : PosItems inst) {fuel : Nat}
    (he : treeSearchHypergraph inst bk timer fuel = .ok (some s)) :
    ∃ p : Pattern, p.Fits inst.itemTypes inst.parameters.cutThickness
        (bt.w - bt.leftTrim - bt.rightTrim) (bt.h - bt.bottomTrim - bt.topTrim)
      ∧ p.Respects inst.itemTypes ∧ p.profit inst.itemTypes = s.best := by
  obtain ⟨h1, -, h3, -⟩ := search_sound hp hi he
  rcases h3 with ⟨h3, -⟩ | ⟨b, hb, e⟩
  · exact ⟨.waste, trivial, fun i it _ h0 => by simp [Pattern.count] at h0, by rw [h3]; rfl⟩
  · obtain ⟨p, f, r, ep⟩ := h1 b (List.mem_of_getLast? hb)
    exact ⟨p, f, r, ep.trans e⟩

/-! ## C81: nothing better exists -/

theorem ctxFull (hp : HasPlate inst bt)
    (ht : inst.parameters.cutThickness = 0) {dp : List ℚ} {rdp : List (WithBot ℚ)} {init : ℚ}
    (e1 : computeDp inst = .ok dp)
    (e2 : computeRdp dp (effWidth bt) (effHeight bt) inst.parameters.cutThickness = .ok rdp)
    (ei : init = entry 0 (effWidth bt) dp (effWidth bt) (effHeight bt))
    (hv : ∀ init, 0 ≤ init → (bk init).Valid init)
    (hc : CtxOk ⟨inst, effWidth bt, effHeight bt, inst.parameters.cutThickness, rdp, bk init,
      timer⟩) :
    CtxFull ⟨inst, effWidth bt, effHeight bt, inst.parameters.cutThickness, rdp, bk init, timer⟩
      init (entry 0 (effWidth bt) dp) := by
  have hW : 0 < effWidth bt := hp.width
  have hH : 0 < effHeight bt := hp.height
  obtain ⟨dp', e1', -, hbest⟩ := computeDp_ok hp
  rw [e1] at e1'
  cases e1'
  obtain ⟨rdp', e2', -, hcomp⟩ := computeRdp_best hp e1
  rw [e2] at e2'
  cases e2'
  rw [ht] at hbest hcomp
  have hfits : ∀ (p : Pattern) w h, 0 < w → w ≤ effWidth bt → 0 < h → h ≤ effHeight bt →
      p.Fits inst.itemTypes 0 w h → p.profit inst.itemTypes ≤ entry 0 (effWidth bt) dp w h :=
    fun p w h h1 h2 h3 h4 hf => (hbest w h h1 h2 h3 h4).2 p ⟨hf, fits_twoSided hf⟩
  have hinit : 0 ≤ init := by
    rw [ei]
    have := hfits .waste _ _ hW (le_refl _) hH (le_refl _) trivial
    simpa [Pattern.profit] using this
  refine { toCtxOk := hc, thin := ht, step_x := ?_, step_y := ?_, fits := hfits, top := ?_,
           whole := ?_, valid := hv init hinit }
  · intro w a h hw ha hwW hh hhH
    dsimp only at hwW hhH
    show entry ⊥ (effWidth bt) rdp (w + a) h + _ ≤ entry ⊥ (effWidth bt) rdp w h
    have c1 := hcomp (w + a) h (by omega) hwW hh hhH
    have c2 := hcomp w h hw (by omega) hh hhH
    cases hr : entry ⊥ (effWidth bt) rdp (w + a) h with
    | bot => rw [WithBot.bot_add]; exact bot_le
    | coe v =>
      obtain ⟨p, hg, ep⟩ := (hbest a h ha (by omega) hh hhH).1
      have := Completion.beside (w := w) ha hg.1 hg.2 (by
        rw [show w + 0 + a = w + a by omega]; exact c1.2 v hr)
      rw [← ep]
      exact c2.1 _ this
  · intro w a h hw hwW hh ha hhH
    dsimp only at hwW hhH
    show entry ⊥ (effWidth bt) rdp w (h + a) + _ ≤ entry ⊥ (effWidth bt) rdp w h
    have c1 := hcomp w (h + a) hw hwW (by omega) hhH
    have c2 := hcomp w h hw hwW hh (by omega)
    cases hr : entry ⊥ (effWidth bt) rdp w (h + a) with
    | bot => rw [WithBot.bot_add]; exact bot_le
    | coe v =>
      obtain ⟨p, hg, ep⟩ := (hbest w a hw hwW ha (by omega)).1
      have := Completion.above (h := h) ha hg.1 hg.2 (by
        rw [show h + 0 + a = h + a by omega]; exact c1.2 v hr)
      rw [← ep]
      exact c2.1 _ this
  · intro p w h hw hwW hh hhH hf
    dsimp only at hwW hhH hf
    show (p.profit inst.itemTypes : WithBot ℚ) + entry ⊥ (effWidth bt) rdp w h ≤ _
    have c1 := hcomp w h hw hwW hh hhH
    cases hr : entry ⊥ (effWidth bt) rdp w h with
    | bot => rw [WithBot.add_bot]; exact bot_le
    | coe v =>
      obtain ⟨P, f, f2, -, ep⟩ := completion_realized (le_refl 0) hw hh (c1.2 v hr) hf
        (fits_twoSided hf)
      have := hfits P _ _ hW (le_refl _) hH (le_refl _) f
      rw [ep, ← show init = _ from ei, add_comm] at this
      exact WithBot.coe_le_coe.mpr this
  · show entry ⊥ (effWidth bt) rdp (effWidth bt) (effHeight bt) = _
    have c1 := hcomp _ _ hW (le_refl _) hH (le_refl _)
    have c2 := completion_whole (items := inst.itemTypes) (W := effWidth bt) (H := effHeight bt)
      (le_refl 0)
    have h1 := c1.1 0 .whole
    cases hr : entry ⊥ (effWidth bt) rdp (effWidth bt) (effHeight bt) with
    | bot => rw [hr] at h1; exact absurd h1 (by simp)
    | coe v =>
      rw [hr] at h1
      exact le_antisymm (c2.1 v (c1.2 v hr)) h1

/-- **C81**: when cuts have no thickness and the timer does not interfere, the profit the search
ends with is the largest profit of all guillotine patterns of the plate that respect the copies.
Partial: the buckets are only assumed to be ordered by priority, see `search_optimal_code_partial`
for those of the code; cuts have no thickness, see `BlockSearchEx.thick_search_misses`. -/
theorem search_optimal_partial (hp : HasPlate inst bt) (hi : PosItems inst)
    (ht : inst.parameters.cutThickness = 0) (hv : ∀ init, 0 ≤ init → (bk init).Valid init)
    (htimer : ∀ n, timer n = false) {fuel : Nat}
    (he : treeSearchHypergraph inst bk timer fuel = .ok (some s)) :
    IsBestProfit inst.itemTypes
      (fun p => p.Fits inst.itemTypes 0 (bt.w - bt.leftTrim - bt.rightTrim)
        (bt.h - bt.bottomTrim - bt.topTrim) ∧ p.Respects inst.itemTypes) s.best := by
  constructor
  · obtain ⟨p, f, r, ep⟩ := search_best_reached hp hi he
    rw [ht] at f
    exact ⟨p, ⟨f, r⟩, ep⟩
  · rintro p ⟨hf, hr⟩
    obtain ⟨dp, rdp, init, e1, e2, ei, hc, e⟩ := search_context hp hi bk timer
    rw [e] at he
    refine runSearch_complete (ctxFull hp ht e1 e2 ei hv hc) htimer he hf ?_
    intro i hpos
    obtain ⟨it, hit⟩ := count_some hf hpos
    show _ ≤ (inst.itemType i).copies
    rw [itemType_of_some hit]
    exact hr i it hit hpos

/-- **C81**: the same with the buckets of the code, and the search ends.  Partial: cuts have no
thickness. -/
theorem search_optimal_code_partial (hp : HasPlate inst bt) (hi : PosItems inst)
    (ht : inst.parameters.cutThickness = 0) (htimer : ∀ n, timer n = false) :
    ∃ steps s, (∀ fuel, steps ≤ fuel →
        treeSearchHypergraph inst codeBucketing timer fuel = .ok (some s))
      ∧ IsBestProfit inst.itemTypes
        (fun p => p.Fits inst.itemTypes 0 (bt.w - bt.leftTrim - bt.rightTrim)
          (bt.h - bt.bottomTrim - bt.topTrim) ∧ p.Respects inst.itemTypes) s.best := by
  obtain ⟨steps, s, h⟩ := search_ends hp hi codeBucketing timer
  exact ⟨steps, s, h, search_optimal_partial hp hi ht (fun _ h => codeBucketing_valid h) htimer
    (h steps (le_refl _))⟩

end

namespace BlockSearchEx

/-- A single bucket. -/
def oneBucket (init : ℚ) : Bucketing := ⟨1, fun _ => 0, fun _ => init⟩

theorem oneBucket_valid {init : ℚ} : (oneBucket init).Valid init :=
  ⟨fun _ => Nat.zero_lt_one, fun _ _ h => h, fun _ _ _ _ _ => le_refl _, fun _ _ _ => le_refl _⟩

/-- A plate of 5 × 3; one item 2 × 3 of profit 6, two items 3 × 1 of profit 4. -/
def inst : Instance :=
  { objective := .knapsack
    itemTypes := [{ w := 2, h := 3, profit := 6, copies := 1, oriented := true }, { w := 3, h := 1, profit := 4, copies := 2 }]
    binTypes := [{ w := 5, h := 3 }] }

theorem hasPlate : HasPlate inst { w := 5, h := 3 } := ⟨rfl, by decide, by decide, by decide⟩

theorem posItems : PosItems inst := by
  intro it hit
  simp only [inst, List.mem_cons, List.not_mem_nil, or_false] at hit
  rcases hit with rfl | rfl <;> decide

theorem search_result :
    ((treeSearchHypergraph inst oneBucket (fun _ => false) 60).toOption.bind id).map
      (fun s => (s.best, s.reported.map (·.profit))) = some (14, [6, 8, 10, 14]) := by
  decide +kernel

/-- The hypotheses are met, and the search finds 14: one 2 × 3 and two 3 × 1. -/
example : ∃ s, treeSearchHypergraph inst oneBucket (fun _ => false) 60 = .ok (some s)
    ∧ s.best = 14
    ∧ IsBestProfit inst.itemTypes
      (fun p => p.Fits inst.itemTypes 0 (5 - 0 - 0) (3 - 0 - 0) ∧ p.Respects inst.itemTypes) 14 := by
  have h := search_result
  cases hr : treeSearchHypergraph inst oneBucket (fun _ => false) 60 with
  | error e => rw [hr] at h; cases h
  | ok r =>
    cases r with
    | none => rw [hr] at h; cases h
    | some s =>
      rw [hr] at h
      have hb : s.best = 14 := by
        simp only [Except.toOption, Option.bind_some, id, Option.map_some, Option.some.injEq,
          Prod.mk.injEq] at h
        exact h.1
      refine ⟨s, rfl, hb, ?_⟩
      rw [← hb]
      exact search_optimal_partial hasPlate posItems rfl (fun _ _ => oneBucket_valid)
        (fun _ => rfl) hr

/-- The hypotheses of `search_optimal_code_partial` are met. -/
example : ∃ steps s, (∀ fuel, steps ≤ fuel →
      treeSearchHypergraph inst codeBucketing (fun _ => false) fuel = .ok (some s))
    ∧ IsBestProfit inst.itemTypes
      (fun p => p.Fits inst.itemTypes 0 (5 - 0 - 0) (3 - 0 - 0) ∧ p.Respects inst.itemTypes) s.best :=
  search_optimal_code_partial hasPlate posItems rfl fun _ => rfl

/-- **C81, negative**: with cuts of thickness 2, the item 8 × 5 fits in the plate 10 × 5 (the rest
is lost in the cut, and the solution builder accepts it, see
`HypergraphEx.lost_cut_is_a_solution`), but the search ends without having found anything. -/
theorem thick_search_misses :
    (∃ s, treeSearchHypergraph HypergraphEx.instThick oneBucket (fun _ => false) 10
        = .ok (some s) ∧ s.best = 0 ∧ s.reported = [])
    ∧ ∃ p : Pattern, p.Fits HypergraphEx.instThick.itemTypes 2 10 5
      ∧ p.Respects HypergraphEx.instThick.itemTypes
      ∧ p.profit HypergraphEx.instThick.itemTypes = 40 := by
  constructor
  · have h : ((treeSearchHypergraph HypergraphEx.instThick oneBucket (fun _ => false) 10).toOption.bind
        id).map (fun s => (s.best, s.reported)) = some (0, []) := by decide +kernel
    cases hr : treeSearchHypergraph HypergraphEx.instThick oneBucket (fun _ => false) 10 with
    | error e => rw [hr] at h; cases h
    | ok r =>
      cases r with
      | none => rw [hr] at h; cases h
      | some s =>
        rw [hr] at h
        simp only [Except.toOption, Option.bind_some, id, Option.map_some, Option.some.injEq,
          Prod.mk.injEq] at h
        exact ⟨s, rfl, h.1, h.2⟩
  · refine ⟨.vertical 8 (.item 0 false) .waste, ⟨by decide, by decide, ⟨_, rfl, by decide⟩,
      Or.inr ⟨by decide, rfl⟩⟩, ?_, by decide +kernel⟩
    intro i it hit hi
    match i with
    | 0 => cases hit; decide
    | i + 1 => simp [HypergraphEx.instThick] at hit

end BlockSearchEx

end PackingSolver.Guil
