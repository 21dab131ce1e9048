import Verif.Lemmas.Guil.SpacesFill

/-!
# Lemmas: the calls that place a block
-/

namespace PackingSolver.Guil.Spaces

open PackingSolver.Guil.Spec
open PackingSolver.Rect.Block (cnt cnt_cons cnt_nil cnt_merge)

section
variable {inst : Instance} {bt : BinType} {b : Nat} {o : CutOrientation} {d : Int}
  {i : Nat} {r : Bool}

/-- The weight of one item. -/
def itemWeight (inst : Instance) (i : Nat) : Weight :=
  (fun j => if i = j then 1 else 0, (inst.itemType i).profit)

/-- The weight of a block. -/
def weight (c : Block) : Weight := (cnt c.itemCopies, c.itemProfit)

theorem weight_simple (cx cy : Nat) :
    weight (Block.simple inst i r cx cy) = cx • cy • itemWeight inst i := by
  refine Prod.ext (funext fun j => ?_) ?_
  · show cnt [(i, (cx : Int) * cy)] j = cx • cy • (if i = j then (1 : Int) else 0)
    rw [cnt_cons, cnt_nil, add_zero]
    by_cases h : i = j
    · simp [h]
    · simp [h]
  · show (((cx : Int) * cy : Int) : ℚ) * _ = cx • cy • (inst.itemType i).profit
    simp only [nsmul_eq_mul]
    push_cast; ring

variable (ht : 0 ≤ inst.parameters.cutThickness) (hp : PosItems inst)
  (hi : i < inst.numberOfItemTypes)
include ht hp hi

/-- Items one above the other. -/
theorem column_fills (hd : 0 ≤ d) (hv : vert o d = false) (x y X : Int) (cy : Nat) {h : Int}
    (hh : h = cy * (inst.itemType i).heightOf r + (cy - 1) * inst.parameters.cutThickness) :
    FillsO inst bt b o ((List.range cy).flatMap fun (k : Nat) =>
        [nodeOp o (d + 1) X (y + k * ((inst.itemType i).heightOf r + inst.parameters.cutThickness)
          + (inst.itemType i).heightOf r), .setItem i]) d
      ⟨x, x + (inst.itemType i).widthOf r, y, y + h⟩ (cy • itemWeight inst i) := by
  have hpos := (Block.widthOf_pos hp hi r).2
  refine Strips.fills hd ?_
  have := strips_range (inst := inst) (bt := bt) (b := b) (o := o) (d := d)
    (R := ⟨x, x + (inst.itemType i).widthOf r, y, y + h⟩) ht hpos (F := fun _ => [.setItem i])
    (q := itemWeight inst i) cy y ?_ ?_
  · simp only [nodeOp_eq, hv]
    exact this
  · rw [hv]
    show _ ≤ y + h + inst.parameters.cutThickness
    rw [hh]
    apply le_of_eq; ring
  · intro k _
    rw [hv]
    exact fillsF_item hi rfl rfl

/-- Items side by side. -/
theorem row_fills (hd : 0 ≤ d) (hv : vert o d = true) (x y Y : Int) (cx : Nat) {w : Int}
    (hw : w = cx * (inst.itemType i).widthOf r + (cx - 1) * inst.parameters.cutThickness) :
    FillsO inst bt b o ((List.range cx).flatMap fun (k : Nat) =>
        [nodeOp o (d + 1) (x + k * ((inst.itemType i).widthOf r + inst.parameters.cutThickness)
          + (inst.itemType i).widthOf r) Y, .setItem i]) d
      ⟨x, x + w, y, y + (inst.itemType i).heightOf r⟩ (cx • itemWeight inst i) := by
  have hpos := (Block.widthOf_pos hp hi r).1
  refine Strips.fills hd ?_
  have := strips_range (inst := inst) (bt := bt) (b := b) (o := o) (d := d)
    (R := ⟨x, x + w, y, y + (inst.itemType i).heightOf r⟩) ht hpos (F := fun _ => [.setItem i])
    (q := itemWeight inst i) cx x ?_ ?_
  · simp only [nodeOp_eq, hv, if_true]
    exact this
  · rw [hv]
    show _ ≤ x + w + inst.parameters.cutThickness
    rw [hw]
    apply le_of_eq; ring
  · intro k _
    rw [hv]
    exact fillsF_item hi rfl rfl

/-- `place_simple_block` fills the place of the block. -/
theorem simple_fills (ho : o ≠ .any) (hd : 0 ≤ d) (x y : Int) {cx cy : Nat} (h1 : 1 ≤ cx)
    (h2 : 1 ≤ cy) :
    ∃ ops, simpleOps inst o 2 (Block.simple inst i r cx cy) d x y = .ok ops
      ∧ FillsF inst bt b o ops d ⟨x, x + (Block.simple inst i r cx cy).w, y,
        y + (Block.simple inst i r cx cy).h⟩ (weight (Block.simple inst i r cx cy)) := by
  obtain ⟨hw, hh⟩ := Block.widthOf_pos hp hi r
  have eW : (Block.simple inst i r cx cy).w
      = cx * (inst.itemType i).widthOf r + (cx - 1) * inst.parameters.cutThickness := rfl
  have eH : (Block.simple inst i r cx cy).h
      = cy * (inst.itemType i).heightOf r + (cy - 1) * inst.parameters.cutThickness := rfl
  have eI : (Block.simple inst i r cx cy).itemTypeId = some i := rfl
  have eR : (Block.simple inst i r cx cy).rotate = r := rfl
  have ecx : ((Block.simple inst i r cx cy).w + inst.parameters.cutThickness).tdiv
      ((inst.itemType i).widthOf r + inst.parameters.cutThickness) = cx := by
    rw [eW, show (cx : Int) * (inst.itemType i).widthOf r + (cx - 1) * inst.parameters.cutThickness
      + inst.parameters.cutThickness
      = cx * ((inst.itemType i).widthOf r + inst.parameters.cutThickness) by ring]
    exact Int.mul_tdiv_cancel _ (by omega)
  have ecy : ((Block.simple inst i r cx cy).h + inst.parameters.cutThickness).tdiv
      ((inst.itemType i).heightOf r + inst.parameters.cutThickness) = cy := by
    rw [eH, show (cy : Int) * (inst.itemType i).heightOf r + (cy - 1) * inst.parameters.cutThickness
      + inst.parameters.cutThickness
      = cy * ((inst.itemType i).heightOf r + inst.parameters.cutThickness) by ring]
    exact Int.mul_tdiv_cancel _ (by omega)
  rw [weight_simple]
  -- the positions are inside
  have wpos : 0 < (Block.simple inst i r cx cy).w := by
    rw [eW]
    have a1 : 0 < (cx : Int) * (inst.itemType i).widthOf r := mul_pos (by omega) hw
    have a2 : 0 ≤ ((cx : Int) - 1) * inst.parameters.cutThickness := mul_nonneg (by omega) ht
    omega
  have hpos : 0 < (Block.simple inst i r cx cy).h := by
    rw [eH]
    have a1 : 0 < (cy : Int) * (inst.itemType i).heightOf r := mul_pos (by omega) hh
    have a2 : 0 ≤ ((cy : Int) - 1) * inst.parameters.cutThickness := mul_nonneg (by omega) ht
    omega
  have body : ∀ fuel d, simpleOps inst o (fuel + 1) (Block.simple inst i r cx cy) d x y
      = if (cx : Int) = 1 ∧ (cy : Int) = 1 then .ok [.setItem i]
        else if (cx : Int) = 1 then
          if cutsVertically d o then do
            let l ← simpleOps inst o fuel (Block.simple inst i r cx cy) (d + 1) x y
            .ok (nodeOp o (d + 1) (x + (inst.itemType i).widthOf r)
              (y + (Block.simple inst i r cx cy).h) :: l)
          else .ok ((List.range cy).flatMap fun (k : Nat) =>
            [nodeOp o (d + 1) (x + (inst.itemType i).widthOf r)
              (y + k * ((inst.itemType i).heightOf r + inst.parameters.cutThickness)
                + (inst.itemType i).heightOf r), .setItem i])
        else if (cy : Int) = 1 then
          if !cutsVertically d o then do
            let l ← simpleOps inst o fuel (Block.simple inst i r cx cy) (d + 1) x y
            .ok (nodeOp o (d + 1) (x + (Block.simple inst i r cx cy).w)
              (y + (inst.itemType i).heightOf r) :: l)
          else .ok ((List.range cx).flatMap fun (k : Nat) =>
            [nodeOp o (d + 1) (x + k * ((inst.itemType i).widthOf r + inst.parameters.cutThickness)
              + (inst.itemType i).widthOf r) (y + (inst.itemType i).heightOf r), .setItem i])
        else if cutsVertically d o then
          .ok ((List.range cx).flatMap fun (k : Nat) =>
            nodeOp o (d + 1) (x + k * ((inst.itemType i).widthOf r + inst.parameters.cutThickness)
              + (inst.itemType i).widthOf r) (y + (Block.simple inst i r cx cy).h) ::
              (List.range cy).flatMap fun (m : Nat) =>
                [nodeOp o (d + 2) (x + k * ((inst.itemType i).widthOf r
                  + inst.parameters.cutThickness) + (inst.itemType i).widthOf r)
                  (y + m * ((inst.itemType i).heightOf r + inst.parameters.cutThickness)
                    + (inst.itemType i).heightOf r), .setItem i])
        else
          .ok ((List.range cy).flatMap fun (m : Nat) =>
            nodeOp o (d + 1) (x + (Block.simple inst i r cx cy).w)
              (y + m * ((inst.itemType i).heightOf r + inst.parameters.cutThickness)
                + (inst.itemType i).heightOf r) ::
              (List.range cx).flatMap fun (k : Nat) =>
                [nodeOp o (d + 2) (x + k * ((inst.itemType i).widthOf r
                  + inst.parameters.cutThickness) + (inst.itemType i).widthOf r)
                  (y + m * ((inst.itemType i).heightOf r + inst.parameters.cutThickness)
                    + (inst.itemType i).heightOf r), .setItem i]) := by
    intro fuel d
    rw [simpleOps, eI, eR]
    dsimp only
    rw [if_pos hw, if_pos hh, ecx, ecy, Int.toNat_natCast, Int.toNat_natCast]
  have h11 : ((1 : Nat) : Int) = 1 := rfl
  have hcv := cutsVertically_eq ho hd
  have hcv' := cutsVertically_eq ho (show 0 ≤ d + 1 by omega)
  have hsucc := vert_succ ho hd
  by_cases hx1 : cx = 1
  · subst hx1
    have eW' : (Block.simple inst i r 1 cy).w = (inst.itemType i).widthOf r := by
      rw [eW]; push_cast; ring
    rw [one_nsmul]
    by_cases hy1 : cy = 1
    · subst hy1
      have eH' : (Block.simple inst i r 1 1).h = (inst.itemType i).heightOf r := by
        rw [eH]; push_cast; ring
      refine ⟨[.setItem i], by rw [body, if_pos ⟨rfl, rfl⟩], ?_⟩
      rw [one_nsmul]
      exact fillsF_item hi eW' eH'
    · have hn : ¬ (((1 : Nat) : Int) = 1 ∧ (cy : Int) = 1) := by
        rintro ⟨-, h⟩; exact hy1 (by exact_mod_cast h)
      cases hv : vert o d with
      | true =>
        have hv' : vert o (d + 1) = false := by rw [hsucc, hv]; rfl
        refine ⟨_, by rw [body, if_neg hn, if_pos h11, hcv, hv, if_pos rfl, body, if_neg hn,
          if_pos h11, hcv', hv', if_neg (by simp)]; rfl, ?_⟩
        have hc := (column_fills (bt := bt) (b := b) (r := r) ht hp hi (by omega) hv' x y
          (x + (inst.itemType i).widthOf r) cy eH).free
        rw [eW']
        exact (cover_fills hd (lt_add_of_pos_right x (by omega)) (lt_add_of_pos_right y (by omega))
          hc).free
      | false =>
        refine ⟨_, by rw [body, if_neg hn, if_pos h11, hcv, hv, if_neg (by simp)], ?_⟩
        rw [eW']
        exact (column_fills ht hp hi hd hv x y _ cy eH).free
  · have hnx : ¬ ((cx : Nat) : Int) = 1 := fun h => hx1 (by exact_mod_cast h)
    have hn : ¬ (((cx : Nat) : Int) = 1 ∧ (cy : Int) = 1) := fun h => hnx h.1
    by_cases hy1 : cy = 1
    · subst hy1
      have eH' : (Block.simple inst i r cx 1).h = (inst.itemType i).heightOf r := by
        rw [eH]; push_cast; ring
      rw [one_nsmul]
      cases hv : vert o d with
      | true =>
        refine ⟨_, by rw [body, if_neg hn, if_neg hnx, if_pos h11, hcv, hv, if_neg (by simp)], ?_⟩
        rw [eH']
        exact (row_fills ht hp hi hd hv x y _ cx eW).free
      | false =>
        have hv' : vert o (d + 1) = true := by rw [hsucc, hv]; rfl
        refine ⟨_, by rw [body, if_neg hn, if_neg hnx, if_pos h11, hcv, hv, if_pos (by simp), body,
          if_neg hn, if_neg hnx, if_pos h11, hcv', hv', if_neg (by simp)]; rfl, ?_⟩
        have hc := (row_fills (bt := bt) (b := b) (r := r) ht hp hi (by omega) hv' x y
          (y + (inst.itemType i).heightOf r) cx eW).free
        rw [eH']
        exact (cover_fills hd (lt_add_of_pos_right x (by omega)) (lt_add_of_pos_right y (by omega))
          hc).free
    · have hny : ¬ ((cy : Nat) : Int) = 1 := fun h => hy1 (by exact_mod_cast h)
      cases hv : vert o d with
      | true =>
        have hv' : vert o (d + 1) = false := by rw [hsucc, hv]; rfl
        refine ⟨_, by rw [body, if_neg hn, if_neg hnx, if_neg hny, hcv, hv, if_pos rfl], ?_⟩
        refine (Strips.fills hd ?_).free
        have := strips_range (inst := inst) (bt := bt) (b := b) (o := o) (d := d)
          (R := ⟨x, x + (Block.simple inst i r cx cy).w, y, y + (Block.simple inst i r cx cy).h⟩)
          ht hw (F := fun k => (List.range cy).flatMap fun (m : Nat) =>
                [nodeOp o (d + 2) (x + k * ((inst.itemType i).widthOf r
                  + inst.parameters.cutThickness) + (inst.itemType i).widthOf r)
                  (y + m * ((inst.itemType i).heightOf r + inst.parameters.cutThickness)
                    + (inst.itemType i).heightOf r), .setItem i])
          (q := cy • itemWeight inst i) cx x ?_ ?_
        · simp only [nodeOp_eq (d := d), hv, if_true]
          exact this
        · rw [hv]
          show _ ≤ x + _ + inst.parameters.cutThickness
          rw [eW]
          apply le_of_eq; ring
        · intro k _
          rw [hv, show d + 2 = d + 1 + 1 by omega]
          exact (column_fills (r := r) ht hp hi (by omega) hv' _ y _ cy eH).free
      | false =>
        have hv' : vert o (d + 1) = true := by rw [hsucc, hv]; rfl
        refine ⟨_, by rw [body, if_neg hn, if_neg hnx, if_neg hny, hcv, hv, if_neg (by simp)], ?_⟩
        refine (Strips.fills hd ?_).free
        rw [← mul_nsmul, mul_comm, mul_nsmul]
        have := strips_range (inst := inst) (bt := bt) (b := b) (o := o) (d := d)
          (R := ⟨x, x + (Block.simple inst i r cx cy).w, y, y + (Block.simple inst i r cx cy).h⟩)
          ht hh (F := fun m => (List.range cx).flatMap fun (k : Nat) =>
                [nodeOp o (d + 2) (x + k * ((inst.itemType i).widthOf r
                  + inst.parameters.cutThickness) + (inst.itemType i).widthOf r)
                  (y + m * ((inst.itemType i).heightOf r + inst.parameters.cutThickness)
                    + (inst.itemType i).heightOf r), .setItem i])
          (q := cx • itemWeight inst i) cy y ?_ ?_
        · simp only [nodeOp_eq (d := d), hv]
          exact this
        · rw [hv]
          show _ ≤ y + _ + inst.parameters.cutThickness
          rw [eH]
          apply le_of_eq; ring
        · intro k _
          rw [hv, show d + 2 = d + 1 + 1 by omega]
          exact (row_fills (r := r) ht hp hi (by omega) hv' x _ _ cx eW).free

end

/-! ### Blocks made of two blocks -/

/-- The place left beside the smaller part of a block is wider than a cut. -/
def Gapless (t : Int) (blocks : List Block) : Prop :=
  ∀ c ∈ blocks, ∀ i j a e, c.child1 = some i → c.child2 = some j → blocks[i]? = some a →
    blocks[j]? = some e →
    if c.cutIsVertical then (a.h = c.h ∨ a.h + t < c.h) ∧ (e.h = c.h ∨ e.h + t < c.h)
    else (a.w = c.w ∨ a.w + t < c.w) ∧ (e.w = c.w ∨ e.w + t < c.w)

/-- From `N` levels of recursion on, `place_block` fills the place that is left to the block. -/
def Places (inst : Instance) (bt : BinType) (b : Nat) (o : CutOrientation) (blocks : List Block)
    (id : Nat) (N : Nat) (d x y availW availH : Int) (q : Weight) : Prop :=
  ∃ ops, (∀ fuel, N ≤ fuel → placeOps inst blocks o fuel id d x y availW availH = .ok ops)
    ∧ FillsF inst bt b o ops d ⟨x, x + availW, y, y + availH⟩ q

section
variable {inst : Instance} {bt bt' : BinType} {b : Nat} {o : CutOrientation} {d : Int}
  {blocks : List Block} {id : Nat} {c : Block} {x y aw ah : Int} {q : Weight}
variable (ht : 0 ≤ inst.parameters.cutThickness) (hp : PosItems inst) (ho : o ≠ .any)

theorem Places.mono {N M : Nat} (h : Places inst bt b o blocks id N d x y aw ah q) (hN : N ≤ M) :
    Places inst bt b o blocks id M d x y aw ah q := by
  obtain ⟨ops, h1, h2⟩ := h
  exact ⟨ops, fun f hf => h1 f (by omega), h2⟩

include ht hp ho

/-- Blocks placed exactly. -/
theorem places_exact (hb : blocks[id]? = some c) (hpos : 0 < c.w ∧ 0 < c.h)
    (hm : Block.Made inst bt' (blocks.take id) c) (hg : Gapless inst.parameters.cutThickness blocks)
    (ih : ∀ i < id, ∀ a, blocks[i]? = some a → 0 < a.w ∧ 0 < a.h ∧ ∀ d x y aw ah, 0 ≤ d →
      (aw = a.w ∨ a.w + inst.parameters.cutThickness < aw) →
      (ah = a.h ∨ a.h + inst.parameters.cutThickness < ah) →
      Places inst bt b o blocks i (6 * (i + 1)) d x y aw ah (weight a))
    (hd : 0 ≤ d) : Places inst bt b o blocks id (6 * id + 2) d x y c.w c.h (weight c) := by
  have hnw : ¬ c.w > c.w + inst.parameters.cutThickness := by omega
  have hnh : ¬ c.h > c.h + inst.parameters.cutThickness := by omega
  rcases hm with hm | ⟨i, j, a, e, v, hi, hj, hc⟩
  · obtain ⟨i, hi, hcop, r, hr, cx, h1, h2, cy, h3, h4, rfl⟩ := Block.mem_simpleBlocks.mp hm
    obtain ⟨ops, e1, e2⟩ := simple_fills (bt := bt) (b := b) (r := r) ht hp hi ho hd x y h1 h3
    refine ⟨ops, fun fuel hf => ?_, e2⟩
    obtain ⟨fuel, rfl⟩ : ∃ f, fuel = f + 1 := ⟨fuel - 1, by omega⟩
    rw [placeOps, hb]
    dsimp only
    rw [if_neg hnw, if_neg hnh]
    exact e1
  · have li : i < id := by
      by_contra hn
      rw [List.getElem?_eq_none (by rw [List.length_take]; omega)] at hi; simp at hi
    have lj : j < id := by
      by_contra hn
      rw [List.getElem?_eq_none (by rw [List.length_take]; omega)] at hj; simp at hj
    rw [List.getElem?_take_of_lt li] at hi
    rw [List.getElem?_take_of_lt lj] at hj
    obtain ⟨ai, bi, ihi⟩ := ih i li a hi
    obtain ⟨aj, bj, ihj⟩ := ih j lj e hj
    have c1 : c.child1 = some i := by rw [hc]; rfl
    have c2 : c.child2 = some j := by rw [hc]; rfl
    have cv : c.cutIsVertical = v := by rw [hc]; rfl
    have cs : c.isSimple = false := by rw [hc]; rfl
    have hgap := hg c (List.mem_of_getElem? hb) i j a e c1 c2 hi hj
    rw [cv] at hgap
    have hq : weight c = weight a + weight e := by
      rw [hc]
      refine Prod.ext (funext fun k => ?_) rfl
      exact cnt_merge _ _ _ (le_refl _) k
    -- the parts, when the cuts have the right direction
    have straight : ∀ d, 0 ≤ d → vert o d = v →
        Places inst bt b o blocks id (6 * id + 1) d x y c.w c.h (weight c) := by
      intro d hd hv
      have hcut : cutsVertically d o = v := by rw [cutsVertically_eq ho hd, hv]
      cases v with
      | true =>
        rw [if_pos rfl] at hgap
        have ew : c.w = a.w + inst.parameters.cutThickness + e.w := by
          rw [hc]; show _ + _ + _ = _; ring
        obtain ⟨o1, p1, f1⟩ := ihi (d + 1) x y a.w c.h (by omega) (.inl rfl)
          (hgap.1.imp Eq.symm fun h => h)
        obtain ⟨o2, p2, f2⟩ := ihj (d + 1) (x + a.w + inst.parameters.cutThickness) y e.w c.h
          (by omega) (.inl rfl) (hgap.2.imp Eq.symm fun h => h)
        have F := beside_fills (Y := y + c.h) hd hv ai aj ht f1 (by
          rw [show x + (a.w + inst.parameters.cutThickness + e.w)
            = x + a.w + inst.parameters.cutThickness + e.w by ring]
          exact f2)
        rw [← ew, ← hq] at F
        refine ⟨_, fun fuel hf => ?_, F.free⟩
        · obtain ⟨fuel, rfl⟩ : ∃ f, fuel = f + 1 := ⟨fuel - 1, by omega⟩
          rw [placeOps, hb]
          dsimp only
          rw [if_neg hnw, if_neg hnh, cs, if_neg (by simp), c1, c2]
          dsimp only
          rw [hi, hj]
          dsimp only
          rw [cv, hcut, if_neg (by simp), if_pos rfl, p1 fuel (by omega), p2 fuel (by omega)]
          rfl
      | false =>
        rw [if_neg (by simp)] at hgap
        have ew : c.h = a.h + inst.parameters.cutThickness + e.h := by
          rw [hc]; show _ + _ + _ = _; ring
        obtain ⟨o1, p1, f1⟩ := ihi (d + 1) x y c.w a.h (by omega) (hgap.1.imp Eq.symm fun h => h)
          (.inl rfl)
        obtain ⟨o2, p2, f2⟩ := ihj (d + 1) x (y + a.h + inst.parameters.cutThickness) c.w e.h
          (by omega) (hgap.2.imp Eq.symm fun h => h) (.inl rfl)
        have F := above_fills (X := x + c.w) hd hv bi bj ht f1 (by
          rw [show y + (a.h + inst.parameters.cutThickness + e.h)
            = y + a.h + inst.parameters.cutThickness + e.h by ring]
          exact f2)
        rw [← ew, ← hq] at F
        refine ⟨_, fun fuel hf => ?_, F.free⟩
        · obtain ⟨fuel, rfl⟩ : ∃ f, fuel = f + 1 := ⟨fuel - 1, by omega⟩
          rw [placeOps, hb]
          dsimp only
          rw [if_neg hnw, if_neg hnh, cs, if_neg (by simp), c1, c2]
          dsimp only
          rw [hi, hj]
          dsimp only
          rw [cv, hcut, if_neg (by simp), if_neg (by simp), p1 fuel (by omega), p2 fuel (by omega)]
          rfl
    by_cases hv : vert o d = v
    · exact (straight d hd hv).mono (by omega)
    · have hv' : vert o (d + 1) = v := by
        rw [vert_succ ho hd]
        revert hv; cases vert o d <;> cases v <;> simp
      obtain ⟨ops, h1, h2⟩ := straight (d + 1) (by omega) hv'
      refine ⟨_, fun fuel hf => ?_, (cover_fills hd (lt_add_of_pos_right x hpos.1)
        (lt_add_of_pos_right y hpos.2) h2).free⟩
      obtain ⟨fuel, rfl⟩ : ∃ f, fuel = f + 1 := ⟨fuel - 1, by omega⟩
      rw [placeOps, hb]
      dsimp only
      rw [if_neg hnw, if_neg hnh, cs, if_neg (by simp), c1, c2]
      dsimp only
      rw [hi, hj]
      dsimp only
      rw [cv, cutsVertically_eq ho hd, if_pos (Ne.symm hv), h1 fuel (by omega)]
      rfl

omit hp in
/-- Blocks placed in a place that may be larger. -/
theorem places_room (hb : blocks[id]? = some c) (hpos : 0 < c.w ∧ 0 < c.h) (x y : Int)
    (he : ∀ d, 0 ≤ d → Places inst bt b o blocks id (6 * id + 2) d x y c.w c.h (weight c))
    {aw ah : Int} (haw : aw = c.w ∨ c.w + inst.parameters.cutThickness < aw)
    (hah : ah = c.h ∨ c.h + inst.parameters.cutThickness < ah) {d : Int} (hd : 0 ≤ d) :
    Places inst bt b o blocks id (6 * (id + 1)) d x y aw ah (weight c) := by
  have hnw : ¬ c.w > c.w + inst.parameters.cutThickness := by omega
  -- the height
  have height : ∀ d, 0 ≤ d → Places inst bt b o blocks id (6 * id + 4) d x y c.w ah (weight c) := by
    rcases hah with rfl | hah
    · exact fun d hd => (he d hd).mono (by omega)
    have straight : ∀ d, 0 ≤ d → vert o d = false →
        Places inst bt b o blocks id (6 * id + 3) d x y c.w ah (weight c) := by
      intro d hd hv
      obtain ⟨ops, h1, h2⟩ := he (d + 1) (by omega)
      have F := above_fills (X := x + c.w) (h2 := ah - c.h - inst.parameters.cutThickness) hd hv
        hpos.2 (by omega) ht h2 fillsO_nothing.free
      rw [show c.h + inst.parameters.cutThickness + (ah - c.h - inst.parameters.cutThickness) = ah
        by ring, add_zero] at F
      refine ⟨_, fun fuel hf => ?_, F.free⟩
      obtain ⟨fuel, rfl⟩ : ∃ f, fuel = f + 1 := ⟨fuel - 1, by omega⟩
      rw [placeOps, hb]
      dsimp only
      rw [if_neg hnw, if_pos (by omega), cutsVertically_eq ho hd, hv, if_neg (by simp),
        h1 fuel (by omega)]
      rfl
    intro d hd
    cases hv : vert o d with
    | false => exact (straight d hd hv).mono (by omega)
    | true =>
      obtain ⟨ops, h1, h2⟩ := straight (d + 1) (by omega) (by rw [vert_succ ho hd, hv]; rfl)
      refine ⟨_, fun fuel hf => ?_, (cover_fills hd (lt_add_of_pos_right x hpos.1)
        (lt_add_of_pos_right y (by omega)) h2).free⟩
      obtain ⟨fuel, rfl⟩ : ∃ f, fuel = f + 1 := ⟨fuel - 1, by omega⟩
      rw [placeOps, hb]
      dsimp only
      rw [if_neg hnw, if_pos (by omega), cutsVertically_eq ho hd, hv, if_pos rfl,
        h1 fuel (by omega)]
      rfl
  rcases haw with rfl | haw
  · exact (height d hd).mono (by omega)
  have straight : ∀ d, 0 ≤ d → vert o d = true →
      Places inst bt b o blocks id (6 * id + 5) d x y aw ah (weight c) := by
    intro d hd hv
    obtain ⟨ops, h1, h2⟩ := height (d + 1) (by omega)
    have F := beside_fills (Y := y + ah) (w2 := aw - c.w - inst.parameters.cutThickness) hd hv
      hpos.1 (by omega) ht h2 fillsO_nothing.free
    rw [show c.w + inst.parameters.cutThickness + (aw - c.w - inst.parameters.cutThickness) = aw
      by ring, add_zero] at F
    refine ⟨_, fun fuel hf => ?_, F.free⟩
    obtain ⟨fuel, rfl⟩ : ∃ f, fuel = f + 1 := ⟨fuel - 1, by omega⟩
    rw [placeOps, hb]
    dsimp only
    rw [if_pos (by omega), cutsVertically_eq ho hd, hv, if_neg (by simp), h1 fuel (by omega)]
    rfl
  cases hv : vert o d with
  | true => exact (straight d hd hv).mono (by omega)
  | false =>
    obtain ⟨ops, h1, h2⟩ := straight (d + 1) (by omega) (by rw [vert_succ ho hd, hv]; rfl)
    have : 0 < ah := by rcases hah with h | h <;> omega
    refine ⟨_, fun fuel hf => ?_, (cover_fills hd (lt_add_of_pos_right x (by omega))
      (lt_add_of_pos_right y this) h2).free⟩
    obtain ⟨fuel, rfl⟩ : ∃ f, fuel = f + 1 := ⟨fuel - 1, by omega⟩
    rw [placeOps, hb]
    dsimp only
    rw [if_pos (by omega), cutsVertically_eq ho hd, hv, if_pos (by simp), h1 fuel (by omega)]
    rfl

/-- Every block can be placed. -/
theorem places_all (hpos : ∀ c ∈ blocks, 0 < c.w ∧ 0 < c.h)
    (hm : ∀ k c, blocks[k]? = some c → Block.Made inst bt' (blocks.take k) c)
    (hg : Gapless inst.parameters.cutThickness blocks) : ∀ (id : Nat) (c : Block),
    blocks[id]? = some c → 0 < c.w ∧ 0 < c.h ∧ ∀ d x y aw ah, 0 ≤ d →
      (aw = c.w ∨ c.w + inst.parameters.cutThickness < aw) →
      (ah = c.h ∨ c.h + inst.parameters.cutThickness < ah) →
      Places inst bt b o blocks id (6 * (id + 1)) d x y aw ah (weight c) := by
  intro id
  induction id using Nat.strong_induction_on with
  | _ id ih =>
    intro c hb
    have hp' := hpos c (List.mem_of_getElem? hb)
    exact ⟨hp'.1, hp'.2, fun d x y aw ah hd haw hah => places_room ht ho hb hp' x y
      (fun d hd => places_exact ht hp ho hb hp' (hm id c hb) hg (fun i hi a ha => ih i hi a ha) hd)
      haw hah hd⟩

end

end PackingSolver.Guil.Spaces
