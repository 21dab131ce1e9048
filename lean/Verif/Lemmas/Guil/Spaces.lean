import Verif.Model.Guil.Spaces
import Verif.Lemmas.Guil.SpaceBlockLoop
import Mathlib.Algebra.Group.Prod
import Mathlib.Algebra.Group.Pi.Basic

/-!
# Lemmas about the states of the search over unused rectangles
-/

namespace PackingSolver.Guil.Spaces

open PackingSolver.Guil.Spec
open PackingSolver.Rect.Block (cnt cnt_cons cnt_nil Incr Pos mem_iff_cnt cnt_eq_zero)

/-! ### The loop that removes spaces -/

theorem prune_aux {α : Type} {keep : α → Bool} : ∀ (n : Nat) (A C : List α), C.length ≤ n →
    (pruneLoop keep n A.length (A ++ C)).Perm (A ++ C.filter keep) := by
  intro n
  induction n with
  | zero =>
    intro A C h
    have : C = [] := List.length_eq_zero_iff.mp (by omega)
    subst this
    unfold pruneLoop
    simp
  | succ n ih =>
    intro A C h
    cases C with
    | nil =>
      rw [pruneLoop, List.append_nil, List.getElem?_eq_none (le_refl _)]
      simp
    | cons a B =>
      rw [List.length_cons] at h
      have hget : (A ++ a :: B)[A.length]? = some a := by simp
      rw [pruneLoop, hget]
      by_cases hk : keep a = true
      · have := ih (A ++ [a]) B (by omega)
        rw [List.length_append, List.length_singleton, List.append_assoc, List.append_assoc] at this
        rw [List.getLast?_append, List.getLast?_cons]
        simp only [Option.some_or, hk, if_true]
        rw [List.filter_cons_of_pos hk]
        exact this
      · rw [List.filter_cons_of_neg hk]
        rcases List.eq_nil_or_concat B with rfl | ⟨B', z, rfl⟩
        · have := ih A [] (by simp)
          simp only [List.append_nil, List.filter_nil] at this
          simp [hk, this]
        · have := ih A (z :: B') (by simp at h ⊢; omega)
          have e0 : A ++ a :: B'.concat z = (A ++ a :: B') ++ [z] := by simp
          have e : (A ++ a :: B'.concat z).getLast? = some z := by rw [e0, List.getLast?_concat]
          have e2 : ((A ++ a :: B'.concat z).set A.length z).dropLast = A ++ z :: B' := by
            rw [List.set_append_right _ _ (le_refl _), Nat.sub_self, List.set_cons_zero,
              show A ++ z :: B'.concat z = (A ++ z :: B') ++ [z] by simp, List.dropLast_concat]
          rw [e]
          dsimp only
          rw [if_neg hk, e2]
          refine this.trans (List.Perm.append_left _ (List.Perm.filter _ ?_))
          rw [List.concat_eq_append]
          exact (List.perm_append_singleton _ _).symm

theorem prune_perm {α : Type} (keep : α → Bool) (l : List α) :
    (prune keep l).Perm (l.filter keep) := by
  have := prune_aux (keep := keep) l.length [] l (le_refl _)
  simpa [prune] using this

/-! ### Rectangles that are still to be cut -/

/-- Numbers of copies, profit, area and number of some items. -/
abbrev Load := (Nat → Int) × ℚ × Int × Int

/-- A rectangle can be cut into items of the given load. -/
def CutL (inst : Instance) (w h : Int) (q : Load) : Prop := Cut inst w h q.1 q.2.1 q.2.2.1 q.2.2.2

/-- The rectangle `w × h` can be cut into items of the given load and what is cut from the spaces. -/
def Holed (inst : Instance) (w h : Int) : List Space → Load → Prop
  | [], q => CutL inst w h q
  | s :: l, q => ∀ q', CutL inst s.w s.h q' → Holed inst w h l (q + q')

section
variable {inst : Instance} {w h : Int} {l l' : List Space} {q q' : Load} {s : Space}

theorem cutL_zero (inst : Instance) (w h : Int) : CutL inst w h 0 := cut_waste inst w h

theorem Holed.perm (hp : l.Perm l') : ∀ {q : Load}, Holed inst w h l q → Holed inst w h l' q := by
  induction hp with
  | nil => exact id
  | cons a _ ih => intro q hq r hr; exact ih (hq r hr)
  | swap a b l =>
    intro q hq r hr r' hr'
    have := hq r' hr' r hr
    rwa [add_right_comm] at this
  | trans _ _ ih1 ih2 => intro q hq; exact ih2 (ih1 hq)

theorem Holed.drop (hq : Holed inst w h (s :: l) q) : Holed inst w h l q := by
  have := hq 0 (cutL_zero inst _ _)
  rwa [add_zero] at this

theorem Holed.filter (keep : Space → Bool) : ∀ {l : List Space} {q : Load}, Holed inst w h l q →
    Holed inst w h (l.filter keep) q := by
  intro l
  induction l with
  | nil => intro q hq; exact hq
  | cons s l ih =>
    intro q hq
    by_cases hk : keep s = true
    · rw [List.filter_cons_of_pos hk]
      exact fun r hr => ih (hq r hr)
    · rw [List.filter_cons_of_neg hk]
      exact ih hq.drop

theorem Holed.closed : ∀ {l : List Space} {q : Load}, Holed inst w h l q → CutL inst w h q := by
  intro l
  induction l with
  | nil => intro q hq; exact hq
  | cons s l ih => intro q hq; exact ih hq.drop

theorem Holed.compose : ∀ {new : List Space} {r : Load}, Holed inst w h (s :: l) q →
    Holed inst s.w s.h new r → Holed inst w h (new ++ l) (q + r) := by
  intro new
  induction new with
  | nil => intro r hq hr; exact hq r hr
  | cons a new ih =>
    intro r hq hr r' hr'
    rw [add_assoc]
    exact ih hq (hr r' hr')

/-- What is left of a space around a block. -/
theorem holed_newSpaces {bw bh : Int} (co : CutOrientation)
    (ht : 0 ≤ inst.parameters.cutThickness) (hw : 0 < bw) (hh : 0 < bh) (fw : bw ≤ s.w)
    (fh : bh ≤ s.h) (hc : CutL inst bw bh q) :
    Holed inst s.w s.h (newSpaces inst.parameters.cutThickness s bw bh co) q := by
  unfold newSpaces
  dsimp only
  have e1 : s.w = bw + (s.x + s.w - s.x - bw - inst.parameters.cutThickness)
      + inst.parameters.cutThickness := by omega
  have e2 : s.h = bh + (s.y + s.h - s.y - bh - inst.parameters.cutThickness)
      + inst.parameters.cutThickness := by omega
  by_cases v : cutsVertically s.depth co = true
  · rw [if_pos v]
    -- the column of the block
    have right : ∀ r, CutL inst bw s.h r → Holed inst s.w s.h
        (if s.x + s.w > s.x + bw + inst.parameters.cutThickness then
          [{ x := s.x + bw + inst.parameters.cutThickness, y := s.y, w := s.x + s.w - s.x - bw - inst.parameters.cutThickness, h := s.h, depth := s.depth + 1, co := co }]
        else []) r := by
      intro r hr
      by_cases g : s.x + s.w > s.x + bw + inst.parameters.cutThickness
      · rw [if_pos g]
        intro r' hr'
        exact cut_vertical ht hw (by dsimp only; omega) hr hr' e1 (fun _ => rfl) rfl rfl rfl
      · rw [if_neg g]
        exact cut_wider hw fw hr
    by_cases g : s.y + s.h > s.y + bh + inst.parameters.cutThickness
    · rw [if_pos g]
      refine Holed.perm List.perm_append_comm ?_
      intro r' hr'
      refine right _ ?_
      exact cut_horizontal ht hh (by dsimp only; omega) hc hr' e2 (fun _ => rfl) rfl rfl rfl
    · rw [if_neg g, List.append_nil]
      exact right _ (cut_taller hh fh hc)
  · rw [if_neg v]
    have above : ∀ r, CutL inst s.w bh r → Holed inst s.w s.h
        (if s.y + s.h > s.y + bh + inst.parameters.cutThickness then
          [{ x := s.x, y := s.y + bh + inst.parameters.cutThickness, w := s.w, h := s.y + s.h - s.y - bh - inst.parameters.cutThickness, depth := s.depth + 1, co := co }]
        else []) r := by
      intro r hr
      by_cases g : s.y + s.h > s.y + bh + inst.parameters.cutThickness
      · rw [if_pos g]
        intro r' hr'
        exact cut_horizontal ht hh (by dsimp only; omega) hr hr' e2 (fun _ => rfl) rfl rfl rfl
      · rw [if_neg g]
        exact cut_taller hh fh hr
    by_cases g : s.x + s.w > s.x + bw + inst.parameters.cutThickness
    · rw [if_pos g]
      refine Holed.perm List.perm_append_comm ?_
      intro r' hr'
      refine above _ ?_
      exact cut_vertical ht hw (by dsimp only; omega) hc hr' e1 (fun _ => rfl) rfl rfl rfl
    · rw [if_neg g, List.append_nil]
      exact above _ (cut_wider hw fw hc)

end

/-! ### The choice of a space and of a block -/

theorem bestSpaceLoop_spec : ∀ (l : List Space) (i : Nat) (best : Option (Nat × Int × Int)),
    (bestSpaceLoop i best l = best.map (·.1) ∧ (∀ s ∈ l, ∃ j a d, best = some (j, a, d)
      ∧ (a < s.area ∨ (a = s.area ∧ d ≤ s.x + s.y))))
    ∨ ∃ k s, bestSpaceLoop i best l = some (i + k) ∧ l[k]? = some s
      ∧ (∀ s' ∈ l, s.area < s'.area ∨ (s.area = s'.area ∧ s.x + s.y ≤ s'.x + s'.y))
      ∧ (∀ j a d, best = some (j, a, d) → s.area < a ∨ (s.area = a ∧ s.x + s.y < d)) := by
  intro l
  induction l with
  | nil => intro i best; exact .inl ⟨rfl, by simp⟩
  | cons c l ih =>
    intro i best
    rw [bestSpaceLoop]
    generalize hb : improves c best = b
    cases b with
    | true =>
      rw [if_pos rfl]
      right
      have hprev : ∀ j a d, best = some (j, a, d) →
          c.area < a ∨ (c.area = a ∧ c.x + c.y < d) := by
        intro j a d hbest
        rw [hbest] at hb
        simpa [improves] using hb
      rcases ih (i + 1) (some (i, c.area, c.x + c.y)) with ⟨e, hl⟩ | ⟨k, s, e, hs, hl, hp⟩
      · refine ⟨0, c, by rw [e]; rfl, rfl, ?_, hprev⟩
        intro s' hs'
        rcases List.mem_cons.mp hs' with rfl | hs'
        · exact .inr ⟨rfl, le_refl _⟩
        · obtain ⟨j, a, d, e', h'⟩ := hl s' hs'
          cases e'
          exact h'
      · have h0 := hp i c.area (c.x + c.y) rfl
        refine ⟨k + 1, s, by rw [e]; congr 1; omega, by simpa using hs, ?_, ?_⟩
        · intro s' hs'
          rcases List.mem_cons.mp hs' with rfl | hs'
          · omega
          · exact hl s' hs'
        · intro j a d hbest
          have := hprev j a d hbest
          omega
    | false =>
      rw [if_neg (by simp)]
      obtain ⟨⟨j, a, d⟩, hbest⟩ : ∃ p, best = some p := by
        cases best with
        | none => simp [improves] at hb
        | some p => exact ⟨p, rfl⟩
      rw [hbest] at hb
      simp only [improves, decide_eq_false_iff_not] at hb
      rcases ih (i + 1) best with ⟨e, hl⟩ | ⟨k, s, e, hs, hl, hp⟩
      · refine .inl ⟨e, ?_⟩
        intro s' hs'
        rcases List.mem_cons.mp hs' with rfl | hs'
        · exact ⟨j, a, d, hbest, by omega⟩
        · exact hl s' hs'
      · have h0 := hp j a d hbest
        refine .inr ⟨k + 1, s, by rw [e]; congr 1; omega, by simpa using hs, ?_, hp⟩
        intro s' hs'
        rcases List.mem_cons.mp hs' with rfl | hs'
        · omega
        · exact hl s' hs'

theorem bestSpace_none {l : List Space} : bestSpace l = none ↔ l = [] := by
  constructor
  · intro h
    rcases bestSpaceLoop_spec l 0 none with ⟨e, hl⟩ | ⟨k, s, e, -⟩
    · cases l with
      | nil => rfl
      | cons a l =>
        obtain ⟨j, a, d, e', -⟩ := hl a (by simp)
        cases e'
    · rw [bestSpace, e] at h; cases h
  · rintro rfl; rfl

theorem bestSpace_some {l : List Space} {k : Nat} (h : bestSpace l = some k) :
    ∃ s, l[k]? = some s
      ∧ ∀ s' ∈ l, s.area < s'.area ∨ (s.area = s'.area ∧ s.x + s.y ≤ s'.x + s'.y) := by
  rcases bestSpaceLoop_spec l 0 none with ⟨e, hl⟩ | ⟨k', s, e, hs, hl, -⟩
  · rw [bestSpace, e] at h; cases h
  · rw [bestSpace, e] at h
    have : k = k' := by simp at h; omega
    subst this
    exact ⟨s, hs, hl⟩

theorem mem_insertions {sc : Scheme} {n : State} {ins : Insertion} :
    ins ∈ sc.insertions n ↔ ∃ s, bestSpace n.spaces = some ins.spaceId
      ∧ n.spaces[ins.spaceId]? = some s ∧ ins.blockId ∈ n.valid
      ∧ (sc.block ins.blockId).w ≤ s.w ∧ (sc.block ins.blockId).h ≤ s.h
      ∧ ins.guide = guideOf s (sc.block ins.blockId)
      ∧ (if s.co = .any then ins.co = .vertical ∨ ins.co = .horizontal else ins.co = s.co) := by
  obtain ⟨id, k, co, g⟩ := ins
  unfold Scheme.insertions
  cases hb : bestSpace n.spaces with
  | none => simp
  | some k' =>
    obtain ⟨s, hs, -⟩ := bestSpace_some hb
    dsimp only
    rw [hs]
    simp only [List.mem_flatMap]
    constructor
    · rintro ⟨id', hv, hm⟩
      by_cases hf : fits s (sc.block id') = true
      · rw [hf] at hm
        have hf' : (sc.block id').w ≤ s.w ∧ (sc.block id').h ≤ s.h := by
          unfold fits at hf
          simp only [Bool.not_eq_true', Bool.or_eq_false_iff, decide_eq_false_iff_not] at hf
          omega
        by_cases hco : s.co = .any
        · simp only [Bool.not_true, Bool.false_eq_true, if_false, hco, if_true, List.mem_cons,
            List.not_mem_nil, or_false, Insertion.mk.injEq] at hm
          rcases hm with ⟨rfl, rfl, rfl, rfl⟩ | ⟨rfl, rfl, rfl, rfl⟩ <;>
            exact ⟨s, rfl, hs, hv, hf'.1, hf'.2, rfl, by simp [hco]⟩
        · simp only [Bool.not_true, Bool.false_eq_true, if_false, hco,
            List.mem_singleton, Insertion.mk.injEq] at hm
          obtain ⟨rfl, rfl, rfl, rfl⟩ := hm
          exact ⟨s, rfl, hs, hv, hf'.1, hf'.2, rfl, by simp [hco]⟩
      · simp [hf] at hm
    · rintro ⟨s', hk, hs', hv, h1, h2, hg, hco⟩
      cases hk
      rw [hs] at hs'
      cases hs'
      refine ⟨id, hv, ?_⟩
      have hf : fits s (sc.block id) = true := by
        unfold fits
        simp only [Bool.not_eq_true', Bool.or_eq_false_iff, decide_eq_false_iff_not]
        omega
      simp only [hf, Bool.not_true, Bool.false_eq_true, if_false, hg]
      by_cases hs : s.co = .any
      · rw [if_pos hs] at hco ⊢
        rcases hco with rfl | rfl <;> simp
      · rw [if_neg hs] at hco ⊢
        rw [hco]; simp

theorem fits_iff {s : Space} {b : Block} : fits s b = true ↔ b.w ≤ s.w ∧ b.h ≤ s.h := by
  unfold fits
  simp only [Bool.not_eq_true', Bool.or_eq_false_iff, decide_eq_false_iff_not]
  omega

theorem bestInsertionLoop_spec {sc : Scheme} {s : Space} {k : Nat} {co : CutOrientation} :
    ∀ (l : List Nat) (best : Option Insertion) (g : ℚ),
    (sc.bestInsertionLoop s k co best g l = best
      ∧ ∀ id ∈ l, fits s (sc.block id) = true → guideOf s (sc.block id) ≤ g)
    ∨ ∃ id ∈ l, fits s (sc.block id) = true ∧ g < guideOf s (sc.block id)
      ∧ sc.bestInsertionLoop s k co best g l = some ⟨id, k, co, guideOf s (sc.block id)⟩
      ∧ ∀ id' ∈ l, fits s (sc.block id') = true →
        guideOf s (sc.block id') ≤ guideOf s (sc.block id) := by
  intro l
  induction l with
  | nil => intro best g; exact .inl ⟨rfl, by simp⟩
  | cons c l ih =>
    intro best g
    rw [Scheme.bestInsertionLoop]
    by_cases hf : fits s (sc.block c) = true
    · rw [hf]
      simp only [Bool.not_true, Bool.false_eq_true, if_false]
      by_cases hg : guideOf s (sc.block c) > g
      · rw [if_pos hg]
        right
        rcases ih (some ⟨c, k, co, guideOf s (sc.block c)⟩) (guideOf s (sc.block c)) with
          ⟨e, hl⟩ | ⟨id, hm, h1, h2, e, hl⟩
        · refine ⟨c, by simp, hf, hg, e, ?_⟩
          intro id' hid'
          rcases List.mem_cons.mp hid' with rfl | hid'
          · intro _; exact le_refl _
          · exact hl id' hid'
        · refine ⟨id, by simp [hm], h1, lt_trans hg h2, e, ?_⟩
          intro id' hid'
          rcases List.mem_cons.mp hid' with rfl | hid'
          · intro _; exact h2.le
          · exact hl id' hid'
      · rw [if_neg hg]
        rcases ih best g with ⟨e, hl⟩ | ⟨id, hm, h1, h2, e, hl⟩
        · refine .inl ⟨e, ?_⟩
          intro id' hid'
          rcases List.mem_cons.mp hid' with rfl | hid'
          · intro _; exact not_lt.mp hg
          · exact hl id' hid'
        · refine .inr ⟨id, by simp [hm], h1, h2, e, ?_⟩
          intro id' hid'
          rcases List.mem_cons.mp hid' with rfl | hid'
          · intro _; exact (lt_of_le_of_lt (not_lt.mp hg) h2).le
          · exact hl id' hid'
    · simp only [hf, Bool.not_false, if_true]
      rcases ih best g with ⟨e, hl⟩ | ⟨id, hm, h1, h2, e, hl⟩
      · refine .inl ⟨e, ?_⟩
        intro id' hid'
        rcases List.mem_cons.mp hid' with rfl | hid'
        · intro h; exact absurd h hf
        · exact hl id' hid'
      · refine .inr ⟨id, by simp [hm], h1, h2, e, ?_⟩
        intro id' hid'
        rcases List.mem_cons.mp hid' with rfl | hid'
        · intro h; exact absurd h hf
        · exact hl id' hid'

/-- The insertion of the greedy completion is one of the insertions, with the largest guide. -/
theorem bestInsertion_some {sc : Scheme} {n : State} {ins : Insertion}
    (h : sc.bestInsertion n = some ins) : ins ∈ sc.insertions n
      ∧ ∀ ins' ∈ sc.insertions n, ins'.guide ≤ ins.guide := by
  unfold Scheme.bestInsertion at h
  cases hb : bestSpace n.spaces with
  | none => rw [hb] at h; cases h
  | some k =>
    obtain ⟨s, hs, -⟩ := bestSpace_some hb
    rw [hb] at h
    dsimp only at h
    rw [hs] at h
    dsimp only at h
    rcases bestInsertionLoop_spec (sc := sc) (s := s) (k := k)
      (co := if s.co = .any then .vertical else s.co) n.valid none (-1) with
      ⟨e, -⟩ | ⟨id, hm, h1, h2, e, hl⟩
    · rw [e] at h; cases h
    · rw [e] at h
      cases h
      constructor
      · refine mem_insertions.mpr ⟨s, hb, hs, hm, (fits_iff.mp h1).1, (fits_iff.mp h1).2, rfl, ?_⟩
        by_cases hco : s.co = .any <;> simp [hco]
      · intro ins' hi'
        obtain ⟨s', hb', hs', hv', f1, f2, hg, -⟩ := mem_insertions.mp hi'
        rw [hb] at hb'
        cases hb'
        rw [hs] at hs'
        cases hs'
        rw [hg]
        exact hl _ hv' (fits_iff.mpr ⟨f1, f2⟩)

theorem bestInsertion_none {sc : Scheme} {n : State} (h : sc.bestInsertion n = none) :
    ∀ ins ∈ sc.insertions n, ins.guide ≤ -1 := by
  intro ins hi
  obtain ⟨s, hb, hs, hv, f1, f2, hg, -⟩ := mem_insertions.mp hi
  unfold Scheme.bestInsertion at h
  rw [hb] at h
  dsimp only at h
  rw [hs] at h
  dsimp only at h
  rcases bestInsertionLoop_spec (sc := sc) (s := s) (k := ins.spaceId)
    (co := if s.co = .any then .vertical else s.co) n.valid none (-1) with
    ⟨e, hl⟩ | ⟨id, hm, h1, h2, e, hl⟩
  · rw [hg]; exact hl _ hv (fits_iff.mpr ⟨f1, f2⟩)
  · rw [e] at h; cases h

/-! ### Numbers of copies -/

theorem addCopies_length (l : List (Nat × Int)) : ∀ copies, (addCopies copies l).length
    = copies.length := by
  induction l with
  | nil => intro copies; rfl
  | cons p l ih =>
    intro copies
    show (addCopies (copies.modify p.1 (· + p.2)) l).length = _
    rw [ih, List.length_modify]

theorem addCopies_getD (l : List (Nat × Int)) : ∀ copies : List Int,
    (∀ p ∈ l, p.1 < copies.length) → ∀ i, (addCopies copies l).getD i 0
      = copies.getD i 0 + cnt l i := by
  induction l with
  | nil => intro copies _ i; simp [addCopies]
  | cons p l ih =>
    intro copies hl i
    show (addCopies (copies.modify p.1 (· + p.2)) l).getD i 0 = _
    rw [ih _ (fun p' hp' => by rw [List.length_modify]; exact hl p' (by simp [hp'])), cnt_cons,
      List.getD_eq_getElem?_getD, List.getD_eq_getElem?_getD, List.getElem?_modify]
    by_cases hpi : p.1 = i
    · have : i < copies.length := hpi ▸ hl p (by simp)
      simp only [hpi, if_true, List.getElem?_eq_getElem this, Option.map_eq_map, Option.map_some,
        Option.getD_some]
      ring
    · simp [hpi]

theorem addCopies_sum (l : List (Nat × Int)) : ∀ copies : List Int,
    (∀ p ∈ l, p.1 < copies.length) →
      (addCopies copies l).sum = copies.sum + (l.map fun p => p.2).sum := by
  have hmod : ∀ (l : List Int) (i : Nat) (c : Int), i < l.length →
      (l.modify i (· + c)).sum = l.sum + c := by
    intro l
    induction l with
    | nil => intro i c h; simp at h
    | cons a l ih =>
      intro i c h
      cases i with
      | zero => simp; ring
      | succ i => simp only [List.modify_succ_cons, List.sum_cons]; rw [ih i c (by simpa using h)]; ring
  induction l with
  | nil => intro copies _; simp [addCopies]
  | cons p l ih =>
    intro copies hl
    show (addCopies (copies.modify p.1 (· + p.2)) l).sum = _
    rw [ih _ (fun p' hp' => by rw [List.length_modify]; exact hl p' (by simp [hp'])),
      hmod _ _ _ (hl p (by simp))]
    simp; ring

end PackingSolver.Guil.Spaces
