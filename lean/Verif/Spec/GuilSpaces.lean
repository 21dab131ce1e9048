import Verif.Spec.GuillotinePattern

/-!
# What a block, and a state of the search over unused rectangles, must be
-/

namespace PackingSolver.Guil.Spec

/-- The total area of the items of a pattern. -/
def Pattern.area (items : List ItemType) : Pattern → Int
  | .waste => 0
  | .item id _ => (items.getD id default).w * (items.getD id default).h
  | .vertical _ l r => l.area items + r.area items
  | .horizontal _ l r => l.area items + r.area items

/-- The number of items of a pattern. -/
def Pattern.size : Pattern → Nat
  | .waste => 0
  | .item _ _ => 1
  | .vertical _ l r => l.size + r.size
  | .horizontal _ l r => l.size + r.size

end PackingSolver.Guil.Spec
