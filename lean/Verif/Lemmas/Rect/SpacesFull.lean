import Verif.Lemmas.Rect.SpacesNode
import Verif.Lemmas.Rect.Columns

/-! Helper lemmas: blocks without waste, usable spaces, exhausted nodes. -/

namespace PackingSolver.Rect.MaximalSpaces

open Rect.Spec
open Rect.MaximalSpaces.Spec (Reached)
open Block (shift occupies_shift)

/-! ## Blocks without waste -/

theorem mainLoop_full {inst : Instance} {bt : BinType} {M : Nat} (h3 : inst.numberOfItemTypes ≤ 3) :
    ∀ (n : Nat) (q : Block.Queue) (R l : List Block), (∀ b ∈ R, b.fillRate = 1) →
      Block.mainLoop inst bt M n q R = some l → ∀ b ∈ l, b.fillRate = 1 := by
  intro n
  induction n with
  | zero => intro q R l _ h; cases h
  | succ n ih =>
    intro q R l hR h
    unfold Block.mainLoop at h
    cases hq : q.blocks.getLast? with
    | none => rw [hq] at h; cases h; exact hR
    | some block =>
      rw [hq] at h
      dsimp only at h
      by_cases h1 : R.length ≥ M
      · rw [if_pos h1] at h; cases h; exact hR
      · rw [if_neg h1] at h
        by_cases h2 : inst.numberOfItemTypes ≤ 3 ∧ block.fillRate ≠ 1
        · rw [if_pos h2] at h; exact ih _ _ _ hR h
        · rw [if_neg h2] at h
          refine ih _ _ _ ?_ h
          intro b hb
          rcases List.mem_append.mp hb with hb | hb
          · exact hR b hb
          · rw [List.mem_singleton.mp hb]
            by_contra hne
            exact h2 ⟨h3, hne⟩

theorem computeBlocks_full {inst : Instance} {b M : Nat} {l : List Block}
    (h3 : inst.numberOfItemTypes ≤ 3) (h : Block.computeBlocks inst b M = .ok l) :
    ∀ c ∈ l, c.fillRate = 1 := by
  unfold Block.computeBlocks at h
  dsimp only at h
  split_ifs at h
  split at h
  · next l' hl =>
    cases h
    exact mainLoop_full h3 _ _ _ _ (by simp) hl
  · cases h

/-- Rectangles that fill a box leave no room in it. -/
theorem no_room {W H : Int} {L : List Placed} (hW : 0 < W) (hH : 0 < H)
    (hpos : ∀ r ∈ L, 0 < r.w ∧ 0 < r.h) (hin : ∀ r ∈ L, Inside W H r)
    (hsep : L.Pairwise Separated) (hfull : (L.map fun r => r.w * r.h).sum = W * H) {q : Placed}
    (h1 : 0 < q.w) (h2 : 0 < q.h) (hq : ∀ r ∈ L, Separated q r) : Separated q ⟨0, 0, W, H⟩ := by
  by_contra hno
  unfold Separated at hno
  dsimp only at hno
  push Not at hno
  let q' : Placed := ⟨max q.x 0, max q.y 0, min (q.x + q.w) W - max q.x 0,
    min (q.y + q.h) H - max q.y 0⟩
  have hpq : 0 < q'.w ∧ 0 < q'.h := by
    constructor
    · show 0 < min (q.x + q.w) W - max q.x 0; omega
    · show 0 < min (q.y + q.h) H - max q.y 0; omega
  have hiq : Inside W H q' := by
    refine ⟨?_, ?_, ?_, ?_⟩
    · show 0 ≤ max q.x 0; omega
    · show max q.x 0 + (min (q.x + q.w) W - max q.x 0) ≤ W; omega
    · show 0 ≤ max q.y 0; omega
    · show max q.y 0 + (min (q.y + q.h) H - max q.y 0) ≤ H; omega
  have hsq : ∀ r ∈ L, Separated q' r := by
    intro r hr
    have := hq r hr
    unfold Separated at this ⊢
    show max q.x 0 + (min (q.x + q.w) W - max q.x 0) ≤ r.x ∨ r.x + r.w ≤ max q.x 0
      ∨ max q.y 0 + (min (q.y + q.h) H - max q.y 0) ≤ r.y ∨ r.y + r.h ≤ max q.y 0
    omega
  have := Columns.product_bound (fun r : Placed => r.x) (fun r => r.y) (fun r => r.w) (fun r => r.h)
    W H (fun r => r.w) (fun r => r.h) W H hH.le hW.le (q' :: L)
    (by
      intro r hr
      rcases List.mem_cons.mp hr with rfl | hr
      · exact hpq.1
      · exact (hpos r hr).1)
    (by
      intro r hr
      rcases List.mem_cons.mp hr with rfl | hr
      · exact hpq.2
      · exact (hpos r hr).2)
    (by
      intro r hr
      rcases List.mem_cons.mp hr with rfl | hr
      · exact hiq
      · exact hin r hr)
    (List.pairwise_cons.mpr ⟨hsq, hsep⟩)
    (by
      intro r hr
      rcases List.mem_cons.mp hr with rfl | hr
      · exact hpq.2.le
      · exact (hpos r hr).2.le)
    (fun c _ hc => hc) (fun c _ hc => hc)
  rw [List.map_cons, List.sum_cons, hfull] at this
  have hmul := Int.mul_pos hpq.1 hpq.2
  omega

/-- A rectangle that overlaps no item of a placed block without waste does not overlap the block. -/
theorem separated_block {inst : Instance} {bt : BinType} {b : Block} (hb : Block.Inv inst bt b)
    (hpos : ∀ p ∈ b.items, 0 < (occupies inst p).w ∧ 0 < (occupies inst p).h)
    (hfull : b.fillRate = 1) {x y : Int} {q : Placed} (h1 : 0 < q.w) (h2 : 0 < q.h)
    (hq : ∀ p ∈ b.items.map (shift x y), Separated q (occupies inst p)) :
    Separated q ⟨x, y, b.x, b.y⟩ := by
  have harea : b.itemArea = b.x * b.y := by
    unfold Block.fillRate at hfull
    have hne : ((b.area : Int) : ℚ) ≠ 0 := by
      have := Int.mul_pos hb.posX hb.posY
      unfold Block.area
      exact_mod_cast ne_of_gt this
    rw [div_eq_one_iff_eq hne] at hfull
    exact_mod_cast hfull
  have := no_room (L := b.items.map (occupies inst)) hb.posX hb.posY
    (by
      intro r hr
      obtain ⟨p, hp, rfl⟩ := List.mem_map.mp hr
      exact hpos p hp)
    (by
      intro r hr
      obtain ⟨p, hp, rfl⟩ := List.mem_map.mp hr
      exact hb.inside p hp)
    (List.pairwise_map.mpr hb.separated)
    (by
      rw [List.map_map, ← harea, hb.area]
      congr 1
      apply List.map_congr_left
      intro p _
      exact Block.width_mul_height _ _)
    (q := ⟨q.x - x, q.y - y, q.w, q.h⟩) h1 h2
    (by
      intro r hr
      obtain ⟨p, hp, rfl⟩ := List.mem_map.mp hr
      have := hq (shift x y p) (List.mem_map_of_mem hp)
      rw [occupies_shift] at this
      unfold Separated at this ⊢
      dsimp only at this ⊢
      omega)
  unfold Separated at this ⊢
  dsimp only at this ⊢
  omega

/-! ## Usable spaces -/

/-- Every space is the whole part of the bin or can receive a block. -/
def Usable (s : Scheme) (n : Node) : Prop :=
  ∀ e ∈ n.emptySpaces, e = ⟨0, 0, s.binX, s.binY⟩
    ∨ ∃ b ∈ n.validBlockIds, fitsSpace (s.block b) e = true

theorem usable_removeUnusable (s : Scheme) (n : Node) : Usable s (removeUnusable s n) := by
  intro e he
  obtain ⟨b, hb, hf⟩ := List.any_eq_true.mp (mem_swapFilter.mp he).2
  exact Or.inr ⟨b, hb, hf⟩

theorem usable_root (s : Scheme) : Usable s (root s) := by
  unfold root
  dsimp only
  split_ifs with h
  · intro e he
    rw [List.isEmpty_iff] at h
    rw [h] at he
    exact Or.inl (List.mem_singleton.mp he)
  · exact usable_removeUnusable _ _

theorem usable_apply (s : Scheme) (n : Node) (i : Insertion) : Usable s (applyInsertion s n i) :=
  usable_removeUnusable _ _

theorem usable_reached {s : Scheme} {n : Node} (h : Reached s n) : Usable s n := by
  cases h with
  | root => exact usable_root s
  | child _ _ hc =>
    unfold child at hc
    dsimp only at hc
    split at hc
    · cases hc
    · cases hc; exact usable_apply s _ _

theorem usable_greedy {s : Scheme} {guide : Node → Nat → ℚ} : ∀ (k : Nat) {n g : Node},
    Usable s n → greedyLoop s guide k n = some g → Usable s g
  | 0, _, _, _, h => by cases h
  | k + 1, n, g, hu, h => by
    unfold greedyLoop at h
    cases hb : bestInsertion s guide n with
    | none => rw [hb] at h; cases h; exact hu
    | some i => rw [hb] at h; exact usable_greedy k (usable_apply s n i) h

theorem bestInsertion_none {s : Scheme} {guide : Node → Nat → ℚ} {n : Node}
    (hg : ∀ b ∈ n.validBlockIds, 0 < guide n b) (h : bestInsertion s guide n = none) :
    insertions s n = [] := by
  have key : ∀ (l : List Insertion), (∀ i ∈ l, 0 < guide n i.blockId) →
      ∀ (b : Option Insertion × ℚ), (b.1 = none → b.2 = 0) →
      (l.foldl (fun (best : Option Insertion × ℚ) i =>
        if guide n i.blockId > best.2 then (some i, guide n i.blockId) else best) b).1 = none →
      b.1 = none ∧ l = [] := by
    intro l
    induction l with
    | nil => intro _ b _ hb; exact ⟨hb, rfl⟩
    | cons a l ih =>
      intro hp b hb0 hb
      have := ih (fun i hi => hp i (List.mem_cons_of_mem _ hi)) _ (by
        dsimp only
        by_cases hg' : guide n a.blockId > b.2
        · rw [if_pos hg']; intro h; cases h
        · rw [if_neg hg']; exact hb0) hb
      have h1 := this.1
      dsimp only at h1
      by_cases hg' : guide n a.blockId > b.2
      · rw [if_pos hg'] at h1; cases h1
      · rw [if_neg hg'] at h1
        exact absurd (by rw [hb0 h1]; exact hp a (by simp)) hg'
  exact (key _ (fun i hi => hg _ (mem_insertions hi).1) _ (fun _ => rfl) h).2

/-- When nothing can be inserted and weights do not matter, no block fits in a free rectangle. -/
theorem exhausted {s : Scheme} (hc : Ctx s) {n : Node} (h : Inv s n) (hu : Usable s n)
    (hw : s.binType.maximumWeight = .inf) (hi : insertions s n = []) {q : Placed}
    (q1 : Inside s.binX s.binY q) (q2 : ∀ p ∈ n.placedBlocks, Separated q (rectOf s p))
    (q3 : ∀ d ∈ s.binType.defects, Separated q ⟨d.posX, d.posY, d.x, d.y⟩)
    {b : Nat} (hb : b ∈ n.validBlockIds) (hx : (s.block b).x ≤ q.w) (hy : (s.block b).y ≤ q.h) :
    False := by
  obtain ⟨e, he, hq⟩ := h.cover q q1 q2 q3 ⟨b, hb, hx, hy⟩
  have hwt : ∀ c, weightOk s n (s.block c) = true := by
    intro c; unfold weightOk; rw [hw]
  have hnofit : ∀ f a, findBestSpace s n = some (f, a) → ∀ c ∈ n.validBlockIds,
      fitsSpace (s.block c) f = true → False := by
    intro f a hf c hcv hfit
    unfold insertions at hi
    rw [hf] at hi
    dsimp only at hi
    rw [List.filterMap_eq_nil_iff] at hi
    have := hi c hcv
    rw [hfit, hwt] at this
    simp at this
  cases hf : findBestSpace s n with
  | none =>
    have := (findBest_none s n.emptySpaces none hf).2
    rw [this] at he
    simp at he
  | some fa =>
    obtain ⟨f, a⟩ := fa
    have hmem : f ∈ n.emptySpaces := by
      rcases findBest_mem s n.emptySpaces none hf with h | h
      · cases h
      · exact h.1
    rcases hu f hmem with rfl | ⟨c, hcv, hfit⟩
    · refine hnofit _ _ hf b hb ?_
      unfold fitsSpace
      unfold Inside at q1
      have := hc.binX
      simp only [Bool.and_eq_true, decide_eq_true_eq]
      omega
    · exact hnofit _ _ hf c hcv hfit

end PackingSolver.Rect.MaximalSpaces
