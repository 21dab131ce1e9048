import Verif.Lemmas.Box.SpacesNode
import Verif.Lemmas.Box.Columns
import Verif.Lemmas.Box.TreeLast

/-! Helper lemmas: blocks without waste, usable spaces of boxes, exhausted nodes. -/

namespace PackingSolver.Box.MaximalSpaces

open Box.Spec
open Box.MaximalSpaces.Spec (Reached)
open Rect.MaximalSpaces (swapFilter mem_swapFilter)

/-! ## Blocks without waste -/

theorem mainLoop_full {inst : Instance} {bt : BinType} {M : Nat} (h3 : inst.numberOfItemTypes ≤ 3) :
    ∀ (n : Nat) (q : Block.Queue) (R l : List Block), (∀ b ∈ R, b.fillRate = 1) →
      Block.mainLoop inst bt M n q R = some l → ∀ b ∈ l, b.fillRate = 1 := by
  intro n
  induction n with
  | zero => intro q R l _ h; cases h
  | succ n ih =>
    intro q R l hR h
    unfold Block.mainLoop at h
    cases hq : q.blocks.getLast? with
    | none => rw [hq] at h; cases h; exact hR
    | some block =>
      rw [hq] at h
      dsimp only at h
      by_cases h1 : R.length ≥ M
      · rw [if_pos h1] at h; cases h; exact hR
      · rw [if_neg h1] at h
        by_cases h2 : inst.numberOfItemTypes ≤ 3 ∧ block.fillRate ≠ 1
        · rw [if_pos h2] at h; exact ih _ _ _ hR h
        · rw [if_neg h2] at h
          refine ih _ _ _ ?_ h
          intro b hb
          rcases List.mem_append.mp hb with hb | hb
          · exact hR b hb
          · rw [List.mem_singleton.mp hb]
            by_contra hne
            exact h2 ⟨h3, hne⟩

theorem computeBlocks_full {inst : Instance} {b M : Nat} {l : List Block}
    (h3 : inst.numberOfItemTypes ≤ 3) (h : Block.computeBlocks inst b M = .ok l) :
    ∀ c ∈ l, c.fillRate = 1 := by
  unfold Block.computeBlocks at h
  dsimp only at h
  split_ifs at h
  split at h
  · next l' hl =>
    cases h
    exact mainLoop_full h3 _ _ _ _ (by simp) hl
  · cases h

/-- Boxes that fill a box leave no room in it. -/
theorem no_room {D : Dims} {L : List Placed} (hX : 0 < D.x) (hY : 0 < D.y) (hZ : 0 < D.z)
    (hpos : ∀ r ∈ L, 0 < r.dx ∧ 0 < r.dy ∧ 0 < r.dz) (hin : ∀ r ∈ L, Inside D r)
    (hsep : L.Pairwise Separated) (hfull : (L.map fun r => r.dx * (r.dy * r.dz)).sum = D.x * (D.y * D.z))
    {q : Placed} (h1 : 0 < q.dx) (h2 : 0 < q.dy) (h3 : 0 < q.dz) (hq : ∀ r ∈ L, Separated q r) :
    Separated q ⟨0, 0, 0, D.x, D.y, D.z⟩ := by
  by_contra hno
  unfold Separated at hno
  dsimp only at hno
  push Not at hno
  let q' : Placed := ⟨max q.x 0, max q.y 0, max q.z 0, min (q.x + q.dx) D.x - max q.x 0,
    min (q.y + q.dy) D.y - max q.y 0, min (q.z + q.dz) D.z - max q.z 0⟩
  have e1 : q'.x = max q.x 0 := rfl
  have e2 : q'.y = max q.y 0 := rfl
  have e3 : q'.z = max q.z 0 := rfl
  have e4 : q'.dx = min (q.x + q.dx) D.x - max q.x 0 := rfl
  have e5 : q'.dy = min (q.y + q.dy) D.y - max q.y 0 := rfl
  have e6 : q'.dz = min (q.z + q.dz) D.z - max q.z 0 := rfl
  have hpq : 0 < q'.dx ∧ 0 < q'.dy ∧ 0 < q'.dz := by omega
  have hiq : Inside D q' := by unfold Inside; omega
  have hsq : ∀ r ∈ L, Separated q' r := by
    intro r hr
    have := hq r hr
    unfold Separated at this ⊢
    omega
  have hin' : ∀ r ∈ q' :: L, Inside D r := by
    intro r hr
    rcases List.mem_cons.mp hr with rfl | hr
    · exact hiq
    · exact hin r hr
  have hpos' : ∀ r ∈ q' :: L, 0 < r.dx ∧ 0 < r.dy ∧ 0 < r.dz := by
    intro r hr
    rcases List.mem_cons.mp hr with rfl | hr
    · exact hpq
    · exact hpos r hr
  have := Columns.product_bound (fun r : Placed => r.x) (fun r => r.y) (fun r => r.z) (fun r => r.dx)
    (fun r => r.dy) (fun r => r.dz) D.x D.y D.z (fun r => r.dx) (fun r => r.dy) (fun r => r.dz)
    D.x D.y D.z hX.le hY.le hZ.le (q' :: L)
    (fun r hr => (hpos' r hr).1) (fun r hr => (hpos' r hr).2.1) (fun r hr => (hpos' r hr).2.2)
    (fun r hr => by have := hin' r hr; unfold Inside at this; omega)
    (fun r hr => by have := hin' r hr; unfold Inside at this; omega)
    (fun r hr => by have := hin' r hr; unfold Inside at this; omega)
    (List.pairwise_cons.mpr ⟨hsq, hsep⟩)
    (fun r hr => (hpos' r hr).2.1.le) (fun r hr => (hpos' r hr).2.2.le)
    (fun c _ hc => hc) (fun c _ hc => hc) (fun c _ hc => hc)
  rw [List.map_cons, List.sum_cons, hfull] at this
  have hmul := Int.mul_pos hpq.1 (Int.mul_pos hpq.2.1 hpq.2.2)
  omega

theorem volume_rotated (d : Dims) (r : Rotation) :
    (rotated d r).x * ((rotated d r).y * (rotated d r).z) = volumeOf d := by
  cases r <;> simp only [rotated, volumeOf] <;> ring

/-- A box that overlaps no item of a placed block without waste does not overlap the block. -/
theorem separated_block {inst : Instance} {bt : BinType} {b : Block} (hb : Block.Inv inst bt b)
    (hpos : ∀ p ∈ b.items, 0 < (occupies inst p).dx ∧ 0 < (occupies inst p).dy
      ∧ 0 < (occupies inst p).dz)
    (hfull : b.fillRate = 1) {c : Corner} {q : Placed} (h1 : 0 < q.dx) (h2 : 0 < q.dy)
    (h3 : 0 < q.dz) (hq : ∀ p ∈ b.items.map (shift c), Separated q (occupies inst p)) :
    Separated q (boxAt c b.box) := by
  have sx : 0 < b.box.x := hb.side .x
  have sy : 0 < b.box.y := hb.side .y
  have sz : 0 < b.box.z := hb.side .z
  have hvol : b.itemVolume = b.box.x * (b.box.y * b.box.z) := by
    unfold Block.fillRate at hfull
    have hpv : 0 < b.box.volume := by
      unfold Dims.volume
      exact Int.mul_pos (Int.mul_pos sx sy) sz
    have hne : ((b.box.volume : Int) : ℚ) ≠ 0 := by exact_mod_cast ne_of_gt hpv
    rw [div_eq_one_iff_eq hne] at hfull
    have : b.itemVolume = b.box.volume := by exact_mod_cast hfull
    rw [this]
    unfold Dims.volume
    ring
  have := no_room (D := b.box) (L := b.items.map (occupies inst)) sx sy sz
    (by
      intro r hr
      obtain ⟨p, hp, rfl⟩ := List.mem_map.mp hr
      exact hpos p hp)
    (by
      intro r hr
      obtain ⟨p, hp, rfl⟩ := List.mem_map.mp hr
      exact inside_axis.mpr (hb.inside p hp))
    (List.pairwise_map.mpr hb.separated)
    (by
      rw [List.map_map, ← hvol, hb.volume]
      congr 1
      apply List.map_congr_left
      intro p _
      exact volume_rotated _ _)
    (q := ⟨q.x - c.x, q.y - c.y, q.z - c.z, q.dx, q.dy, q.dz⟩) h1 h2 h3
    (by
      intro r hr
      obtain ⟨p, hp, rfl⟩ := List.mem_map.mp hr
      have := hq (shift c p) (List.mem_map_of_mem hp)
      rw [occupies_shift] at this
      unfold Separated at this ⊢
      dsimp only at this ⊢
      omega)
  unfold Separated boxAt at *
  dsimp only at this ⊢
  omega

/-! ## Usable spaces -/

/-- Every space is the whole part of the bin or can receive a block. -/
def Usable (s : Scheme) (n : Node) : Prop :=
  ∀ e ∈ n.emptySpaces, e = ⟨0, 0, 0, s.binBox.x, s.binBox.y, s.binBox.z⟩
    ∨ ∃ b ∈ n.validBlockIds, fitsSpace (s.block b) e = true

theorem usable_removeUnusable (s : Scheme) (n : Node) : Usable s (removeUnusable s n) := by
  intro e he
  obtain ⟨b, hb, hf⟩ := List.any_eq_true.mp (mem_swapFilter.mp he).2
  exact Or.inr ⟨b, hb, hf⟩

theorem usable_root (s : Scheme) : Usable s (root s) := fun _ he =>
  Or.inl (List.mem_singleton.mp he)

theorem usable_apply (s : Scheme) (n : Node) (i : Insertion) : Usable s (applyInsertion s n i) :=
  usable_removeUnusable _ _

theorem usable_reached {s : Scheme} {n : Node} (h : Reached s n) : Usable s n := by
  cases h with
  | root => exact usable_root s
  | child _ _ hc =>
    unfold child at hc
    dsimp only at hc
    split at hc
    · cases hc
    · cases hc; exact usable_apply s _ _

theorem usable_greedy {s : Scheme} {guide : Node → Nat → ℚ} : ∀ (k : Nat) {n g : Node},
    Usable s n → greedyLoop s guide k n = some g → Usable s g
  | 0, _, _, _, h => by cases h
  | k + 1, n, g, hu, h => by
    unfold greedyLoop at h
    cases hb : bestInsertion s guide n with
    | none => rw [hb] at h; cases h; exact hu
    | some i => rw [hb] at h; exact usable_greedy k (usable_apply s n i) h

theorem bestInsertion_none {s : Scheme} {guide : Node → Nat → ℚ} {n : Node}
    (hg : ∀ b ∈ n.validBlockIds, 0 < guide n b) (h : bestInsertion s guide n = none) :
    insertions s n = [] := by
  have key : ∀ (l : List Insertion), (∀ i ∈ l, 0 < guide n i.blockId) →
      ∀ (b : Option Insertion × ℚ), (b.1 = none → b.2 = 0) →
      (l.foldl (fun (best : Option Insertion × ℚ) i =>
        if guide n i.blockId > best.2 then (some i, guide n i.blockId) else best) b).1 = none →
      b.1 = none ∧ l = [] := by
    intro l
    induction l with
    | nil => intro _ b _ hb; exact ⟨hb, rfl⟩
    | cons a l ih =>
      intro hp b hb0 hb
      have := ih (fun i hi => hp i (List.mem_cons_of_mem _ hi)) _ (by
        dsimp only
        by_cases hg' : guide n a.blockId > b.2
        · rw [if_pos hg']; intro h; cases h
        · rw [if_neg hg']; exact hb0) hb
      have h1 := this.1
      dsimp only at h1
      by_cases hg' : guide n a.blockId > b.2
      · rw [if_pos hg'] at h1; cases h1
      · rw [if_neg hg'] at h1
        exact absurd (by rw [hb0 h1]; exact hp a (by simp)) hg'
  exact (key _ (fun i hi => hg _ (mem_insertions hi).1) _ (fun _ => rfl) h).2

/-- When nothing can be inserted and weights do not matter, no block fits in a free rectangle. -/
theorem exhausted {s : Scheme} (hc : Ctx s) {n : Node} (h : Inv s n) (hu : Usable s n)
    (hw : s.binType.maximumWeight = .inf) (hi : insertions s n = []) {q : Placed}
    (q1 : Inside s.binBox q) (q2 : ∀ p ∈ n.placedBlocks, Separated q (rectOf s p))
    {b : Nat} (hb : b ∈ n.validBlockIds) (hx : (s.block b).box.x ≤ q.dx)
    (hy : (s.block b).box.y ≤ q.dy) (hz : (s.block b).box.z ≤ q.dz) : False := by
  obtain ⟨e, he, hq⟩ := h.cover q q1 q2 ⟨b, hb, hx, hy, hz⟩
  have hwt : ∀ c, weightOk s n (s.block c) = true := by
    intro c; unfold weightOk; rw [hw]
  have hnofit : ∀ f a, findBestSpace s n = some (f, a) → ∀ c ∈ n.validBlockIds,
      fitsSpace (s.block c) f = true → False := by
    intro f a hf c hcv hfit
    unfold insertions at hi
    rw [hf] at hi
    dsimp only at hi
    rw [List.filterMap_eq_nil_iff] at hi
    have := hi c hcv
    rw [hfit, hwt] at this
    simp at this
  cases hf : findBestSpace s n with
  | none =>
    have := (findBest_none s n.emptySpaces none hf).2
    rw [this] at he
    simp at he
  | some fa =>
    obtain ⟨f, a⟩ := fa
    have hmem : f ∈ n.emptySpaces := by
      rcases findBest_mem s n.emptySpaces none hf with h | h
      · cases h
      · exact h.1
    rcases hu f hmem with rfl | ⟨c, hcv, hfit⟩
    · refine hnofit _ _ hf b hb ?_
      unfold fitsSpace
      unfold Inside at q1
      have := hc.binX
      simp only [Bool.and_eq_true, decide_eq_true_eq]
      omega
    · exact hnofit _ _ hf c hcv hfit

end PackingSolver.Box.MaximalSpaces
