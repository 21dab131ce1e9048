import Mathlib.Algebra.BigOperators.Group.List.Basic
import Mathlib.Algebra.Order.Group.Int
import Verif.Model.Guil.Solution

/-!
# Specification: guillotine cutting patterns

What it means to cut a rectangular region into pieces with guillotine cuts of a given thickness,
in a given number of stages.  Independent of how solutions are built.
-/

namespace PackingSolver.Guil.Spec

/-- A rectangular region of a plate. -/
structure Region where
  l : Int
  r : Int
  b : Int
  t : Int
deriving DecidableEq, Repr

namespace Region

/-- Where the region starts in the direction across vertical (`v`) or horizontal cuts. -/
def low (v : Bool) (R : Region) : Int := if v then R.l else R.b

/-- Where the region ends in the direction across vertical (`v`) or horizontal cuts. -/
def high (v : Bool) (R : Region) : Int := if v then R.r else R.t

/-- The part of the region before a cut at `p`. -/
def before (v : Bool) (R : Region) (p : Int) : Region :=
  if v then { R with r := p } else { R with t := p }

/-- The part of the region from `p` on. -/
def after (v : Bool) (R : Region) (p : Int) : Region :=
  if v then { R with l := p } else { R with b := p }

/-- Area of the region. -/
def area (R : Region) : Int := (R.r - R.l) * (R.t - R.b)

/-- The region is not empty. -/
def Nonempty (R : Region) : Prop := R.l < R.r ∧ R.b < R.t

/-- `P` lies in `R`. -/
def Inside (P R : Region) : Prop := R.l ≤ P.l ∧ P.r ≤ R.r ∧ R.b ≤ P.b ∧ P.t ≤ R.t

/-- A cut of thickness `ct` fits between the two regions. -/
def Apart (ct : Int) (P Q : Region) : Prop :=
  P.r + ct ≤ Q.l ∨ Q.r + ct ≤ P.l ∨ P.t + ct ≤ Q.b ∨ Q.t + ct ≤ P.b

end Region

/-- `Cuts ct k v R L`: the region `R` can be cut into exactly the pieces `L` by guillotine cuts of
thickness `ct` in at most `k` stages, the cuts of the first stage being vertical iff `v`.

* `piece`: nothing is cut.
* `cut`: a cut at `p` separates a strip, which the next stages cut in the other direction, from
  the rest, which the same stage goes on cutting.
* `last`: the strip reaches the end of the region up to less than a cut's thickness. -/
inductive Cuts (ct : Int) : Nat → Bool → Region → List Region → Prop
  | piece {k v R} : R.Nonempty → Cuts ct k v R [R]
  | cut {k v R p L L'} : R.low v < p → p + ct < R.high v →
      Cuts ct k (!v) (R.before v p) L → Cuts ct (k + 1) v (R.after v (p + ct)) L' →
      Cuts ct (k + 1) v R (L ++ L')
  | last {k v R p L} : R.low v < p → p ≤ R.high v → R.high v ≤ p + ct →
      Cuts ct k (!v) (R.before v p) L → Cuts ct (k + 1) v R L

/-- The region of a node. -/
def region (n : Node) : Region := ⟨n.l, n.r, n.b, n.t⟩

/-- The nodes of a bin that hold an item: those with a father and an item type. -/
def itemNodes (bin : SolutionBin) : List Node :=
  bin.nodes.filter fun n => n.f.isSome && decide (0 ≤ n.itemTypeId)

/-- The bin without its hard trims. -/
def usable (bt : BinType) : Region :=
  { l := if bt.leftTrimType = .hard then bt.leftTrim else 0
    r := if bt.rightTrimType = .hard then bt.w - bt.rightTrim else bt.w
    b := if bt.bottomTrimType = .hard then bt.bottomTrim else 0
    t := if bt.topTrimType = .hard then bt.h - bt.topTrim else bt.h }

/-- What `add_bin_type` and `add_trims` ensure: positive sides and trims that leave something. -/
structure Sized (bt : BinType) : Prop where
  left : 0 ≤ bt.leftTrim
  right : 0 ≤ bt.rightTrim
  bottom : 0 ≤ bt.bottomTrim
  top : 0 ≤ bt.topTrim
  width : bt.leftTrim + bt.rightTrim < bt.w
  height : bt.bottomTrim + bt.topTrim < bt.h

/-! ## Adding nodes -/

/-- Number of the last node of depth `d`: the node that a new node of depth `d + 1` is cut from. -/
def openAt (nodes : List Node) (d : Int) : Option Nat :=
  (List.range nodes.length).reverse.find? fun i => (nodes.getD i default).d == d

/-- Where the next strip of node number `i` starts: at its own start, or after its last strip and
the cut. -/
def nextPos (ct : Int) (v : Bool) (nodes : List Node) (i : Nat) : Int :=
  match (nodes.getD i default).children.getLast? with
  | none => (region (nodes.getD i default)).low v
  | some c => (region (nodes.getD c default)).high v + ct

/-- The cuts that separate nodes of depth `d` are vertical: those of odd depth if the first cuts
are vertical, those of even depth if the first cuts are horizontal. -/
def VerticalAt (o : CutOrientation) (d : Int) : Prop :=
  (o = .vertical ∧ d % 2 = 1) ∨ (o = .horizontal ∧ d % 2 = 0)

instance (o : CutOrientation) (d : Int) : Decidable (VerticalAt o d) := by
  unfold VerticalAt; infer_instance

/-- The node holds an item. -/
def HoldsItem (n : Node) : Prop := n.f.isSome = true ∧ 0 ≤ n.itemTypeId

/-- A call `add_node(depth, position)` makes sense on a bin: the depth is at least one and at most
one more than that of the last node, the node it cuts holds no item, and the position lies
after the strips already cut and not after the end of the node. -/
def CanCut (ct : Int) (o : CutOrientation) (nodes : List Node) (depth pos : Int) : Prop :=
  1 ≤ depth ∧ (∃ last, nodes.getLast? = some last ∧ depth ≤ last.d + 1)
    ∧ ∃ i, openAt nodes (depth - 1) = some i ∧ ¬ HoldsItem (nodes.getD i default)
      ∧ nextPos ct (decide (VerticalAt o depth)) nodes i < pos
      ∧ pos ≤ (region (nodes.getD i default)).high (decide (VerticalAt o depth))

end PackingSolver.Guil.Spec
