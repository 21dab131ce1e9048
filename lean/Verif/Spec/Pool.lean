import Verif.Model.Pool

/-!
# What a solution pool should contain
-/

namespace PackingSolver.Spec

/-- `b` is one of the offered solutions and none of them is strictly better. -/
def IsBest {σ : Type} (lt : σ → σ → Bool) (offered : List σ) (b : σ) : Prop :=
  b ∈ offered ∧ ∀ x ∈ offered, lt b x = false

/-- `lt` never prefers both of two solutions to each other. -/
def Asymmetric {σ : Type} (V : σ → Prop) (lt : σ → σ → Bool) : Prop :=
  ∀ a b, V a → V b → lt a b = true → lt b a = false

/-- Successive improvements are improvements. -/
def Transitive {σ : Type} (V : σ → Prop) (lt : σ → σ → Bool) : Prop :=
  ∀ a b c, V a → V b → V c → lt a b = true → lt b c = true → lt a c = true

/-- Being at least as good is transitive (with asymmetry: `lt` is a strict weak
order). -/
def NegTransitive {σ : Type} (V : σ → Prop) (lt : σ → σ → Bool) : Prop :=
  ∀ a b c, V a → V b → V c → lt a b = false → lt b c = false → lt a c = false

/-- Two solutions the pool does not distinguish: none is better and they pack the
same items. -/
def SameValue {σ : Type} (lt : σ → σ → Bool) (itemCopies : σ → List Int) (a b : σ) : Prop :=
  lt a b = false ∧ lt b a = false ∧ itemCopies a = itemCopies b

end PackingSolver.Spec
