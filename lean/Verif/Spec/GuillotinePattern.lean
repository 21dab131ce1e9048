import Verif.Model.Guil.Instance
import Mathlib.Order.WithBot
import Mathlib.Algebra.Order.Monoid.WithTop

/-!
# Guillotine patterns of a rectangle

What it means to cut a rectangle into items by cuts from side to side.  Nothing here depends on the
algorithms.
-/

namespace PackingSolver.Guil.Spec

/-- A way to cut a rectangle: keep it as waste, as an item, or cut it at a distance from its left
(lower) side into two rectangles that are cut in turn. -/
inductive Pattern where
  | waste
  | item (id : Nat) (rotated : Bool)
  | vertical (x : Int) (left right : Pattern)
  | horizontal (y : Int) (below above : Pattern)
deriving DecidableEq, Repr

namespace Pattern

/-- `p.Fits items t w h`: the pattern cuts the rectangle `w × h` with cuts of thickness `t`.  An
item has exactly the dimensions of its rectangle and is rotated only if its type allows it.  A cut
is inside the rectangle; when the material beyond it is not thicker than the cut, all of it is
lost. -/
def Fits (items : List ItemType) (t : Int) : Pattern → Int → Int → Prop
  | waste, _, _ => True
  | item id rotated, w, h => ∃ it, items[id]? = some it
      ∧ (if rotated then it.oriented = false ∧ it.h = w ∧ it.w = h else it.w = w ∧ it.h = h)
  | vertical x l r, w, h => 0 < x ∧ x < w ∧ l.Fits items t x h
      ∧ ((x + t < w ∧ r.Fits items t (w - x - t) h) ∨ (w ≤ x + t ∧ r = waste))
  | horizontal y l r, w, h => 0 < y ∧ y < h ∧ l.Fits items t w y
      ∧ ((y + t < h ∧ r.Fits items t w (h - y - t)) ∨ (h ≤ y + t ∧ r = waste))

/-- Every cut leaves material on both sides. -/
def TwoSided (t : Int) : Pattern → Int → Int → Prop
  | waste, _, _ => True
  | item _ _, _, _ => True
  | vertical x l r, w, h => x + t < w ∧ l.TwoSided t x h ∧ r.TwoSided t (w - x - t) h
  | horizontal y l r, w, h => y + t < h ∧ l.TwoSided t w y ∧ r.TwoSided t w (h - y - t)

/-- The total profit of the items. -/
def profit (items : List ItemType) : Pattern → ℚ
  | waste => 0
  | item id _ => (items.getD id default).profit
  | vertical _ l r => l.profit items + r.profit items
  | horizontal _ l r => l.profit items + r.profit items

/-- How many items of type `id` the pattern contains. -/
def count (id : Nat) : Pattern → Nat
  | waste => 0
  | item j _ => if j = id then 1 else 0
  | vertical _ l r => l.count id + r.count id
  | horizontal _ l r => l.count id + r.count id

/-- No item type is used more often than it has copies. -/
def Respects (items : List ItemType) (p : Pattern) : Prop :=
  ∀ i it, items[i]? = some it → 0 < p.count i → (p.count i : Int) ≤ it.copies

end Pattern

/-- `v` is the largest profit of the patterns of `w × h` that satisfy `ok`. -/
def IsBestProfit (items : List ItemType) (ok : Pattern → Prop) (v : ℚ) : Prop :=
  (∃ p, ok p ∧ p.profit items = v) ∧ ∀ p, ok p → p.profit items ≤ v

/-- `Completion items t W H w h v`: a rectangle `w × h` can be obtained in a pattern of `W × H` in
which the items outside of it have profit `v`.  The rectangle is the whole, or it and a rectangle
with a pattern are the two parts of a larger rectangle. -/
inductive Completion (items : List ItemType) (t W H : Int) : Int → Int → ℚ → Prop where
  | whole : Completion items t W H W H 0
  | beside {w h c : Int} {v : ℚ} {p : Pattern} (hc : 0 < c) (hp : p.Fits items t c h)
      (hp2 : p.TwoSided t c h) (h1 : Completion items t W H (w + t + c) h v) :
      Completion items t W H w h (v + p.profit items)
  | above {w h c : Int} {v : ℚ} {p : Pattern} (hc : 0 < c) (hp : p.Fits items t w c)
      (hp2 : p.TwoSided t w c) (h1 : Completion items t W H w (h + t + c) v) :
      Completion items t W H w h (v + p.profit items)

/-- `v` is the largest profit outside of a rectangle `w × h`, or `⊥` if it cannot be obtained. -/
def IsBestCompletion (items : List ItemType) (t W H w h : Int) (v : WithBot ℚ) : Prop :=
  (∀ q, Completion items t W H w h q → (q : WithBot ℚ) ≤ v)
  ∧ ∀ q : ℚ, v = q → Completion items t W H w h q

/-- `Occurs t P w h p w' h'`: cutting `w × h` by the pattern `P` yields, on the way, a rectangle
`w' × h'` that is cut by the pattern `p`. -/
inductive Occurs (t : Int) : Pattern → Int → Int → Pattern → Int → Int → Prop where
  | self {p : Pattern} {w h : Int} : Occurs t p w h p w h
  | left {x w h w' h' : Int} {l r p : Pattern} (h1 : Occurs t l x h p w' h') :
      Occurs t (.vertical x l r) w h p w' h'
  | right {x w h w' h' : Int} {l r p : Pattern} (h1 : Occurs t r (w - x - t) h p w' h') :
      Occurs t (.vertical x l r) w h p w' h'
  | lower {y w h w' h' : Int} {l r p : Pattern} (h1 : Occurs t l w y p w' h') :
      Occurs t (.horizontal y l r) w h p w' h'
  | upper {y w h w' h' : Int} {l r p : Pattern} (h1 : Occurs t r w (h - y - t) p w' h') :
      Occurs t (.horizontal y l r) w h p w' h'

/-- The entry of a table for the box `w × h`, the table being stored by heights with `W + 1`
entries each. -/
def EntryIs {α : Type} (tbl : List α) (W w h : Int) (v : α) : Prop :=
  0 ≤ w + (W + 1) * h ∧ tbl[(w + (W + 1) * h).toNat]? = some v

end PackingSolver.Guil.Spec
