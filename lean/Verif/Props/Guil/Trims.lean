import Verif.Model.Guil.SolutionBuilder
import Mathlib.Tactic.Linarith

/-!
# The trims of a new bin tile what is outside of the usable rectangle
-/

namespace PackingSolver.Guil

/-- The unit cell with lower left corner `(x, y)` is in the rectangle of the node. -/
def coversCell (x y : Int) (n : Node) : Bool :=
  decide (n.l ≤ x ∧ x < n.r ∧ n.b ≤ y ∧ y < n.t)

/-- **C67**: in a new bin, the trims and the rectangle to cut tile the bin: every unit cell of the
bin is in exactly one of them.  Partial: a hard right trim must not come with a soft top trim, see
`PatternEx.trims_overlap`. -/
theorem trims_tile_partial (bt : BinType) (ht : 0 ≤ bt.topTrim)
    (hw : bt.leftTrim + bt.rightTrim ≤ bt.w) (hh : bt.bottomTrim + bt.topTrim ≤ bt.h)
    (hc : bt.rightTrimType = .hard → bt.topTrim ≠ 0 → bt.topTrimType = .hard)
    {x y : Int} (hx : 0 ≤ x) (hxw : x < bt.w) (hy : 0 ≤ y) (hyh : y < bt.h) :
    ((trimNodes bt ++ [childNode 0 0 bt.innerLeft bt.innerRight bt.innerBottom bt.innerTop]).filter
      (coversCell x y)).length = 1 := by
  have eR : (bt.hardRight && decide (bt.topTrim ≠ 0)) = (bt.hardRight && bt.hardTop) := by
    unfold BinType.hardRight BinType.hardTop
    by_cases h1 : bt.rightTrimType = .hard ∧ bt.rightTrim > 0
    · by_cases h2 : bt.topTrim = 0
      · simp [h2]
      · have := hc h1.1 h2
        have : bt.topTrim > 0 := by omega
        simp [*]
    · simp [h1]
  unfold trimNodes BinType.innerLeft BinType.innerRight BinType.innerBottom BinType.innerTop
  rw [eR]
  cases h1 : bt.hardLeft <;> cases h2 : bt.hardRight <;> cases h3 : bt.hardBottom <;>
    cases h4 : bt.hardTop <;>
  (rcases lt_or_ge x bt.leftTrim with a | a <;> rcases lt_or_ge x (bt.w - bt.rightTrim) with b | b <;>
    rcases lt_or_ge y bt.bottomTrim with c | c <;>
    rcases lt_or_ge y (bt.h - bt.topTrim) with d | d <;>
    first
    | omega
    | simp [coversCell, trimNode, childNode, *, not_le.mpr, not_lt.mpr])

/-- A bin with four hard trims: nine rectangles, every cell in exactly one of them. -/
example :
    let bt : BinType :=
      { w := 100, h := 60, leftTrim := 2, rightTrim := 3, bottomTrim := 4, topTrim := 5, rightTrimType := .hard, topTrimType := .hard }
    (trimNodes bt).length = 8
      ∧ ((trimNodes bt ++ [childNode 0 0 bt.innerLeft bt.innerRight bt.innerBottom bt.innerTop]).filter
        (coversCell 98 57)).length = 1 := by
  intro bt
  exact ⟨by decide, trims_tile_partial bt (by decide) (by decide) (by decide) (fun _ _ => rfl)
    (by decide) (by decide) (by decide) (by decide)⟩

end PackingSolver.Guil
