import Verif.Model.Guil.SpaceBlock
import Verif.Spec.GuilSpaces
import Verif.Lemmas.Rect.Block
import Verif.Lemmas.Guil.BlockSound

/-!
# Lemmas about the blocks of the search over unused rectangles
-/

namespace PackingSolver.Guil.Spaces

open PackingSolver.Guil.Spec
open PackingSolver.Rect.Block (cnt cnt_cons cnt_nil cnt_merge sum_merge key_mem_merge Incr Pos incr_merge
  pos_merge mem_iff_cnt cnt_eq_zero)

/-- A rectangle `w × h` can be cut into items with the given counts, profit, area and number. -/
def Cut (inst : Instance) (w h : Int) (f : Nat → Int) (v : ℚ) (a n : Int) : Prop :=
  ∃ p : Pattern, p.Fits inst.itemTypes inst.parameters.cutThickness w h
    ∧ (∀ i, (p.count i : Int) = f i) ∧ p.profit inst.itemTypes = v ∧ p.area inst.itemTypes = a
    ∧ (p.size : Int) = n

theorem cut_waste (inst : Instance) (w h : Int) : Cut inst w h (fun _ => 0) 0 0 0 :=
  ⟨.waste, trivial, fun _ => rfl, rfl, rfl, rfl⟩

theorem cut_vertical {inst : Instance} {w1 w2 h : Int} {f1 f2 f : Nat → Int} {v1 v2 v : ℚ}
    {a1 a2 a n1 n2 n : Int} (ht : 0 ≤ inst.parameters.cutThickness) (h1 : 0 < w1) (h2 : 0 < w2)
    (c1 : Cut inst w1 h f1 v1 a1 n1) (c2 : Cut inst w2 h f2 v2 a2 n2)
    {W : Int} (hW : W = w1 + w2 + inst.parameters.cutThickness)
    (hf : ∀ i, f i = f1 i + f2 i) (hv : v = v1 + v2) (ha : a = a1 + a2) (hn : n = n1 + n2) :
    Cut inst W h f v a n := by
  obtain ⟨p1, b1, d1, e1, g1, s1⟩ := c1
  obtain ⟨p2, b2, d2, e2, g2, s2⟩ := c2
  refine ⟨.vertical w1 p1 p2, ⟨h1, by omega, b1, .inl ⟨by omega, ?_⟩⟩, fun i => ?_, ?_, ?_, ?_⟩
  · rw [show W - w1 - inst.parameters.cutThickness = w2 by omega]; exact b2
  · simp only [Pattern.count]; push_cast; rw [d1, d2, hf]
  · simp only [Pattern.profit]; rw [e1, e2, hv]
  · simp only [Pattern.area]; rw [g1, g2, ha]
  · simp only [Pattern.size]; push_cast; rw [s1, s2, hn]

theorem cut_horizontal {inst : Instance} {w h1 h2 : Int} {f1 f2 f : Nat → Int} {v1 v2 v : ℚ}
    {a1 a2 a n1 n2 n : Int} (ht : 0 ≤ inst.parameters.cutThickness) (hh1 : 0 < h1) (hh2 : 0 < h2)
    (c1 : Cut inst w h1 f1 v1 a1 n1) (c2 : Cut inst w h2 f2 v2 a2 n2)
    {H : Int} (hH : H = h1 + h2 + inst.parameters.cutThickness)
    (hf : ∀ i, f i = f1 i + f2 i) (hv : v = v1 + v2) (ha : a = a1 + a2) (hn : n = n1 + n2) :
    Cut inst w H f v a n := by
  obtain ⟨p1, b1, d1, e1, g1, s1⟩ := c1
  obtain ⟨p2, b2, d2, e2, g2, s2⟩ := c2
  refine ⟨.horizontal h1 p1 p2, ⟨hh1, by omega, b1, .inl ⟨by omega, ?_⟩⟩, fun i => ?_, ?_, ?_, ?_⟩
  · rw [show H - h1 - inst.parameters.cutThickness = h2 by omega]; exact b2
  · simp only [Pattern.count]; push_cast; rw [d1, d2, hf]
  · simp only [Pattern.profit]; rw [e1, e2, hv]
  · simp only [Pattern.area]; rw [g1, g2, ha]
  · simp only [Pattern.size]; push_cast; rw [s1, s2, hn]

theorem cut_wider {inst : Instance} {w h W : Int} {f : Nat → Int} {v : ℚ} {a n : Int}
    (h0 : 0 < w) (hw : w ≤ W) (c : Cut inst w h f v a n) : Cut inst W h f v a n := by
  by_cases e : w = W
  · rw [← e]; exact c
  obtain ⟨p, b, d, e', g, s⟩ := c
  refine ⟨.vertical w p .waste, ⟨h0, by omega, b, ?_⟩, fun i => ?_, ?_, ?_, ?_⟩
  · by_cases ht : w + inst.parameters.cutThickness < W
    · exact .inl ⟨ht, trivial⟩
    · exact .inr ⟨by omega, rfl⟩
  · simp only [Pattern.count]; push_cast; rw [d]; simp
  · simp only [Pattern.profit]; rw [e']; simp
  · simp only [Pattern.area]; rw [g]; simp
  · simp only [Pattern.size]; push_cast; rw [s]; simp

theorem cut_taller {inst : Instance} {w h H : Int} {f : Nat → Int} {v : ℚ} {a n : Int}
    (h0 : 0 < h) (hh : h ≤ H) (c : Cut inst w h f v a n) : Cut inst w H f v a n := by
  by_cases e : h = H
  · rw [← e]; exact c
  obtain ⟨p, b, d, e', g, s⟩ := c
  refine ⟨.horizontal h p .waste, ⟨h0, by omega, b, ?_⟩, fun i => ?_, ?_, ?_, ?_⟩
  · by_cases ht : h + inst.parameters.cutThickness < H
    · exact .inl ⟨ht, trivial⟩
    · exact .inr ⟨by omega, rfl⟩
  · simp only [Pattern.count]; push_cast; rw [d]; simp
  · simp only [Pattern.profit]; rw [e']; simp
  · simp only [Pattern.area]; rw [g]; simp
  · simp only [Pattern.size]; push_cast; rw [s]; simp

namespace Block

/-- What the generated blocks satisfy. -/
structure Inv (inst : Instance) (bt : BinType) (b : Block) : Prop where
  cut : Cut inst b.w b.h (cnt b.itemCopies) b.itemProfit b.itemArea b.numberOfItems
  incr : Incr b.itemCopies
  pos : Pos b.itemCopies
  exist : ∀ p ∈ b.itemCopies, p.1 < inst.numberOfItemTypes
  copies : ∀ p ∈ b.itemCopies, p.2 ≤ (inst.itemType p.1).copies
  total : b.numberOfItems = (b.itemCopies.map fun p => p.2).sum
  many : 1 ≤ b.numberOfItems
  fitW : b.w ≤ bt.w
  fitH : b.h ≤ bt.h
  posW : 0 < b.w
  posH : 0 < b.h
  areaLe : b.itemArea ≤ b.w * b.h
  areaLt : 0 < inst.parameters.cutThickness → b.numberOfItems ≠ 1 → b.itemArea < b.w * b.h
  single : b.numberOfItems = 1 → b.itemArea = b.w * b.h

theorem widthOf_pos {inst : Instance} (hp : PosItems inst) {i : Nat}
    (hi : i < inst.numberOfItemTypes) (r : Bool) :
    0 < (inst.itemType i).widthOf r ∧ 0 < (inst.itemType i).heightOf r := by
  have h := hp (inst.itemType i) (by
    unfold Instance.itemType
    rw [List.getD_eq_getElem _ _ hi]; exact List.getElem_mem hi)
  cases r
  · exact h
  · exact ⟨h.2, h.1⟩

/-- A column of a grid. -/
theorem cut_column {inst : Instance} {i : Nat} {r : Bool} (ht : 0 ≤ inst.parameters.cutThickness)
    (hp : PosItems inst) (hi : i < inst.numberOfItemTypes)
    (hr : r = true → (inst.itemType i).oriented = false) (cy : Nat) :
    Cut inst ((inst.itemType i).widthOf r)
      ((cy + 1 : Nat) * (inst.itemType i).heightOf r + ((cy + 1 : Nat) - 1) * inst.parameters.cutThickness)
      (fun j => if i = j then ((cy + 1 : Nat) : Int) else 0)
      (((cy + 1 : Nat) : ℚ) * (inst.itemType i).profit) ((cy + 1 : Nat) * (inst.itemType i).area)
      (cy + 1 : Nat) := by
  have one : Cut inst ((inst.itemType i).widthOf r) ((inst.itemType i).heightOf r)
      (fun j => if i = j then 1 else 0) (inst.itemType i).profit (inst.itemType i).area 1 := by
    refine ⟨.item i r, ⟨inst.itemType i, ?_, ?_⟩, fun j => ?_, rfl, rfl, rfl⟩
    · unfold Instance.itemType
      rw [List.getD_eq_getElem _ _ hi]; exact List.getElem?_eq_getElem hi
    · cases r
      · exact ⟨rfl, rfl⟩
      · exact ⟨hr rfl, rfl, rfl⟩
    · simp only [Pattern.count]; split <;> rfl
  have hh := (widthOf_pos hp hi r).2
  induction cy with
  | zero => simpa using one
  | succ n ih =>
    have h1 : 0 < ((n + 1 : Nat) : Int) * (inst.itemType i).heightOf r := mul_pos (by omega) hh
    have h2 : 0 ≤ (((n + 1 : Nat) : Int) - 1) * inst.parameters.cutThickness :=
      mul_nonneg (by omega) ht
    refine cut_horizontal ht hh (by omega) one ih ?_ ?_ ?_ ?_ ?_
    · push_cast; ring
    · intro j; split
      · push_cast; ring
      · ring
    · push_cast; ring
    · push_cast; ring
    · push_cast; ring

/-- The columns of a grid side by side. -/
theorem cut_grid {inst : Instance} {i : Nat} {r : Bool} (ht : 0 ≤ inst.parameters.cutThickness)
    (hp : PosItems inst) (hi : i < inst.numberOfItemTypes)
    (hr : r = true → (inst.itemType i).oriented = false) (cx cy : Nat) :
    Cut inst ((cx + 1 : Nat) * (inst.itemType i).widthOf r + ((cx + 1 : Nat) - 1) * inst.parameters.cutThickness)
      ((cy + 1 : Nat) * (inst.itemType i).heightOf r + ((cy + 1 : Nat) - 1) * inst.parameters.cutThickness)
      (fun j => if i = j then ((cx + 1 : Nat) : Int) * ((cy + 1 : Nat) : Int) else 0)
      (((cx + 1 : Nat) : ℚ) * ((cy + 1 : Nat) : ℚ) * (inst.itemType i).profit)
      ((cx + 1 : Nat) * (cy + 1 : Nat) * (inst.itemType i).area)
      ((cx + 1 : Nat) * (cy + 1 : Nat)) := by
  have one := cut_column ht hp hi hr cy
  have hw := (widthOf_pos hp hi r).1
  induction cx with
  | zero => simpa using one
  | succ n ih =>
    have h1 : 0 < ((n + 1 : Nat) : Int) * (inst.itemType i).widthOf r := mul_pos (by omega) hw
    have h2 : 0 ≤ (((n + 1 : Nat) : Int) - 1) * inst.parameters.cutThickness :=
      mul_nonneg (by omega) ht
    refine cut_vertical ht hw (by omega) one ih ?_ ?_ ?_ ?_ ?_
    · push_cast; ring
    · intro j; split
      · push_cast; ring
      · ring
    · push_cast; ring
    · push_cast; ring
    · push_cast; ring

theorem widthOf_mul (it : ItemType) (r : Bool) : it.widthOf r * it.heightOf r = it.area := by
  cases r
  · rfl
  · exact mul_comm _ _

theorem inv_simple {inst : Instance} {bt : BinType} {i : Nat} {r : Bool} {cx cy : Nat}
    (ht : 0 ≤ inst.parameters.cutThickness) (hp : PosItems inst) (hi : i < inst.numberOfItemTypes)
    (hr : r = true → (inst.itemType i).oriented = false) (h1 : 1 ≤ cx) (h2 : 1 ≤ cy)
    (hc : (cx : Int) * cy ≤ (inst.itemType i).copies)
    (hw : (simple inst i r cx cy).w ≤ bt.w) (hh : (simple inst i r cx cy).h ≤ bt.h) :
    Inv inst bt (simple inst i r cx cy) := by
  obtain ⟨cx, rfl⟩ : ∃ n, cx = n + 1 := ⟨cx - 1, by omega⟩
  obtain ⟨cy, rfl⟩ : ∃ n, cy = n + 1 := ⟨cy - 1, by omega⟩
  obtain ⟨pw, ph⟩ := widthOf_pos hp hi r
  have hxy : (1 : Int) ≤ ((cx + 1 : Nat) : Int) * ((cy + 1 : Nat) : Int) := by
    have : (0 : Int) < ((cx + 1 : Nat) : Int) * ((cy + 1 : Nat) : Int) :=
      mul_pos (by omega) (by omega)
    omega
  have ew : (simple inst i r (cx + 1) (cy + 1)).w = (cx + 1 : Nat) * (inst.itemType i).widthOf r
    + ((cx + 1 : Nat) - 1) * inst.parameters.cutThickness := rfl
  have eh : (simple inst i r (cx + 1) (cy + 1)).h = (cy + 1 : Nat) * (inst.itemType i).heightOf r
    + ((cy + 1 : Nat) - 1) * inst.parameters.cutThickness := rfl
  have ea : (simple inst i r (cx + 1) (cy + 1)).itemArea
      = (cx + 1 : Nat) * (cy + 1 : Nat) * (inst.itemType i).area := rfl
  have en : (simple inst i r (cx + 1) (cy + 1)).numberOfItems
      = ((cx + 1 : Nat) : Int) * (cy + 1 : Nat) := rfl
  have p1 : 0 < ((cx + 1 : Nat) : Int) * (inst.itemType i).widthOf r := mul_pos (by omega) pw
  have p2 : 0 < ((cy + 1 : Nat) : Int) * (inst.itemType i).heightOf r := mul_pos (by omega) ph
  have q1 : 0 ≤ (((cx + 1 : Nat) : Int) - 1) * inst.parameters.cutThickness :=
    mul_nonneg (by omega) ht
  have q2 : 0 ≤ (((cy + 1 : Nat) : Int) - 1) * inst.parameters.cutThickness :=
    mul_nonneg (by omega) ht
  have earea : ((cx + 1 : Nat) : Int) * (cy + 1 : Nat) * (inst.itemType i).area
      = (((cx + 1 : Nat) : Int) * (inst.itemType i).widthOf r)
        * (((cy + 1 : Nat) : Int) * (inst.itemType i).heightOf r) := by
    rw [← widthOf_mul _ r]; ring
  refine ⟨?_, List.pairwise_singleton _ _, ?_, ?_, ?_, ?_, hxy, hw, hh, ?_, ?_, ?_, ?_, ?_⟩
  · have h := cut_grid ht hp hi hr cx cy
    have e1 : cnt (simple inst i r (cx + 1) (cy + 1)).itemCopies
        = (fun j => if i = j then ((cx + 1 : Nat) : Int) * ((cy + 1 : Nat) : Int) else 0) := by
      funext j
      show cnt [(i, ((cx + 1 : Nat) : Int) * ((cy + 1 : Nat) : Int))] j = _
      rw [cnt_cons, cnt_nil, add_zero]
    have e2 : (simple inst i r (cx + 1) (cy + 1)).itemProfit
        = ((cx + 1 : Nat) : ℚ) * ((cy + 1 : Nat) : ℚ) * (inst.itemType i).profit := by
      show (((((cx + 1 : Nat) : Int) * ((cy + 1 : Nat) : Int) : Int)) : ℚ) * _ = _
      push_cast; ring
    rw [e1, e2]; exact h
  · intro p hp'
    rw [List.mem_singleton.mp hp']
    exact hxy
  · intro p hp'
    rw [List.mem_singleton.mp hp']
    exact hi
  · intro p hp'
    rw [List.mem_singleton.mp hp']
    exact hc
  · show _ = ([(((cx + 1 : Nat) : Int) * ((cy + 1 : Nat) : Int))]).sum
    rw [List.sum_singleton, en]
  · rw [ew]; omega
  · rw [eh]; omega
  · rw [ea, ew, eh, earea]
    exact mul_le_mul (by omega) (by omega) p2.le (by omega)
  · intro htp hn
    rw [ea, ew, eh, earea]
    have h3 : cx ≠ 0 ∨ cy ≠ 0 := by
      by_contra h
      have : cx = 0 ∧ cy = 0 := by omega
      rw [en, this.1, this.2] at hn
      exact hn rfl
    rcases h3 with h3 | h3
    · have q3 : 0 < (((cx + 1 : Nat) : Int) - 1) * inst.parameters.cutThickness :=
        mul_pos (by omega) htp
      exact mul_lt_mul (by omega) (by omega) p2 (by omega)
    · have q3 : 0 < (((cy + 1 : Nat) : Int) - 1) * inst.parameters.cutThickness :=
        mul_pos (by omega) htp
      exact mul_lt_mul_of_le_of_lt_of_nonneg_of_pos (by omega) (by omega) p2.le (by omega)
  · intro hn
    have h3 : cx = 0 ∧ cy = 0 := by
      have : (cx + 1) * (cy + 1) = 1 := by
        rw [en] at hn; exact_mod_cast hn
      have e1 := Nat.eq_one_of_mul_eq_one_right this
      have e2 := Nat.eq_one_of_mul_eq_one_left this
      omega
    rw [ea, ew, eh, earea, h3.1, h3.2]
    ring

theorem inv_combine {inst : Instance} {bt : BinType} {a b : Block} (v : Bool) (i j : Nat)
    (ht : 0 ≤ inst.parameters.cutThickness) (ha : Inv inst bt a) (hb : Inv inst bt b)
    (hx : (combine inst.parameters.cutThickness a b i j v).w ≤ bt.w)
    (hy : (combine inst.parameters.cutThickness a b i j v).h ≤ bt.h)
    (hc : validCopies inst a.itemCopies b.itemCopies = true) :
    Inv inst bt (combine inst.parameters.cutThickness a b i j v) := by
  have hsum : cnt (mergeCopies a.itemCopies b.itemCopies)
      = fun k => cnt a.itemCopies k + cnt b.itemCopies k := by
    funext k; exact cnt_merge _ _ _ (le_refl _) k
  have m1 := ha.many
  have m2 := hb.many
  have a1 := ha.posW; have a2 := ha.posH; have b1 := hb.posW; have b2 := hb.posH
  have hareaLe : a.itemArea + b.itemArea ≤ (combine inst.parameters.cutThickness a b i j v).w
      * (combine inst.parameters.cutThickness a b i j v).h - inst.parameters.cutThickness := by
    have l1 := ha.areaLe
    have l2 := hb.areaLe
    cases v
    · show _ ≤ max a.w b.w * (a.h + b.h + inst.parameters.cutThickness) - _
      have k1 : a.w * a.h ≤ max a.w b.w * a.h := mul_le_mul_of_nonneg_right (le_max_left _ _) a2.le
      have k2 : b.w * b.h ≤ max a.w b.w * b.h := mul_le_mul_of_nonneg_right (le_max_right _ _) b2.le
      have k3 : 1 * inst.parameters.cutThickness ≤ max a.w b.w * inst.parameters.cutThickness :=
        mul_le_mul_of_nonneg_right (by omega) ht
      have k4 : max a.w b.w * (a.h + b.h + inst.parameters.cutThickness)
        = max a.w b.w * a.h + max a.w b.w * b.h + max a.w b.w * inst.parameters.cutThickness := by
        ring
      omega
    · show _ ≤ (a.w + b.w + inst.parameters.cutThickness) * max a.h b.h - _
      have k1 : a.w * a.h ≤ a.w * max a.h b.h := mul_le_mul_of_nonneg_left (le_max_left _ _) a1.le
      have k2 : b.w * b.h ≤ b.w * max a.h b.h := mul_le_mul_of_nonneg_left (le_max_right _ _) b1.le
      have k3 : inst.parameters.cutThickness * 1 ≤ inst.parameters.cutThickness * max a.h b.h :=
        mul_le_mul_of_nonneg_left (by omega) ht
      have k4 : (a.w + b.w + inst.parameters.cutThickness) * max a.h b.h
        = a.w * max a.h b.h + b.w * max a.h b.h + inst.parameters.cutThickness * max a.h b.h := by
        ring
      omega
  have en : (combine inst.parameters.cutThickness a b i j v).numberOfItems
    = a.numberOfItems + b.numberOfItems := rfl
  refine ⟨?_, incr_merge _ _ _ ha.incr hb.incr, pos_merge _ _ _ ha.pos hb.pos, ?_, ?_, ?_, ?_, hx, hy,
    ?_, ?_, ?_, ?_, ?_⟩
  · show Cut inst _ _ (cnt (mergeCopies a.itemCopies b.itemCopies)) (a.itemProfit + b.itemProfit)
      (a.itemArea + b.itemArea) (a.numberOfItems + b.numberOfItems)
    rw [hsum]
    cases v
    · refine cut_horizontal ht a2 b2 (cut_wider a1 (le_max_left a.w b.w) ha.cut)
        (cut_wider b1 (le_max_right a.w b.w) hb.cut) rfl (fun _ => rfl) rfl rfl rfl
    · refine cut_vertical ht a1 b1 (cut_taller a2 (le_max_left a.h b.h) ha.cut)
        (cut_taller b2 (le_max_right a.h b.h) hb.cut) rfl (fun _ => rfl) rfl rfl rfl
  · intro p hp
    rcases key_mem_merge _ _ _ _ hp with ⟨q, hq, e⟩ | ⟨q, hq, e⟩
    · rw [← e]; exact ha.exist q hq
    · rw [← e]; exact hb.exist q hq
  · intro p hp
    unfold validCopies at hc
    rw [List.all_eq_true] at hc
    have := hc p hp
    simp only [Bool.not_eq_true', decide_eq_false_iff_not] at this
    omega
  · show a.numberOfItems + b.numberOfItems = _
    rw [ha.total, hb.total]
    exact (sum_merge _ _ _ (le_refl _)).symm
  · rw [en]; omega
  · cases v
    · show 0 < max a.w b.w; omega
    · show 0 < a.w + b.w + _; omega
  · cases v
    · show 0 < a.h + b.h + _; omega
    · show 0 < max a.h b.h; omega
  · show a.itemArea + b.itemArea ≤ _
    omega
  · intro htp _
    show a.itemArea + b.itemArea < _
    omega
  · intro h; rw [en] at h; omega

theorem Inv.listed {inst : Instance} {bt : BinType} {b : Block} (h : Inv inst bt b) (i : Nat)
    (c : Int) : (i, c) ∈ b.itemCopies ↔ c = cnt b.itemCopies i ∧ 0 < c := mem_iff_cnt h.incr h.pos i c

/-- A block whose items fill it is a single item, if cuts have a thickness. -/
theorem Inv.fillRate_eq {inst : Instance} {bt : BinType} {b : Block} (h : Inv inst bt b)
    (ht : 0 < inst.parameters.cutThickness) : b.fillRate = 1 ↔ b.numberOfItems = 1 := by
  have hpos : (0 : Int) < b.w * b.h := mul_pos h.posW h.posH
  have hne : ((b.w * b.h : Int) : ℚ) ≠ 0 := by exact_mod_cast hpos.ne'
  unfold fillRate
  rw [if_pos ⟨h.posW, h.posH⟩, div_eq_one_iff_eq hne]
  constructor
  · intro e
    by_contra hn
    have := h.areaLt ht hn
    have e' : b.itemArea = b.w * b.h := by exact_mod_cast e
    omega
  · intro e; exact_mod_cast h.single e

theorem Inv.fillRate_single {inst : Instance} {bt : BinType} {b : Block} (h : Inv inst bt b)
    (h1 : b.numberOfItems = 1) : b.fillRate = 1 := by
  have hpos : (0 : Int) < b.w * b.h := mul_pos h.posW h.posH
  have hne : ((b.w * b.h : Int) : ℚ) ≠ 0 := by exact_mod_cast hpos.ne'
  unfold fillRate
  rw [if_pos ⟨h.posW, h.posH⟩, div_eq_one_iff_eq hne]
  exact_mod_cast h.single h1

end Block

end PackingSolver.Guil.Spaces
