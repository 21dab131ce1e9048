import Verif.Props.OneDim.Examples
import Verif.Model.Rect.Instance

/-! Helpers for concrete runs. -/

namespace PackingSolver.Rect

open PackingSolver.OneDim.Examples (okD)

/-- The computation succeeds. -/
def isOk {α : Type} : Except Err α → Bool
  | .ok _ => true
  | .error _ => false

theorem eq_ok_okD {α : Type} {d : α} {r : Except Err α} (h : isOk r = true) : r = .ok (okD d r) := by
  cases r with
  | ok a => rfl
  | error e => simp [isOk] at h

/-- An instance without types. -/
def noInst : Instance := { objective := .default, itemTypes := [], binTypes := [] }

end PackingSolver.Rect
