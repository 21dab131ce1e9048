import Mathlib.Algebra.BigOperators.Group.List.Basic

/-!
# Specification: grouping identical bins

`content` is what makes two listed bins identical (the bin type and the content with its places),
`copies` the number of copies of a listed bin.
-/

namespace PackingSolver.Grouping.Spec

variable {π γ : Type} [DecidableEq γ]

/-- How often a content occurs. -/
def copiesOf (content : π → γ) (copies : π → Int) (l : List π) (c : γ) : Int :=
  (l.map fun b => if content b = c then copies b else 0).sum

/-- `new` is `old` with its identical bins grouped. -/
structure Grouped (content : π → γ) (copies : π → Int) (old new : List π) : Prop where
  /-- No content is listed twice. -/
  distinct : (new.map content).Nodup
  /-- The same contents are listed. -/
  same : ∀ c, c ∈ new.map content ↔ c ∈ old.map content
  /-- They are listed in the order in which they first occur. -/
  order : new.map content = (old.map content).eraseDups
  /-- Every content occurs as often as before. -/
  copies : ∀ c, copiesOf content copies new c = copiesOf content copies old c

end PackingSolver.Grouping.Spec
