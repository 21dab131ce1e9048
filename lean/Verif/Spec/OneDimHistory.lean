import Verif.Model.OneDim.Solution
import Verif.Spec.OneDim

/-!
# Histories of solution-building calls

What a sequence of API calls describes, and which solutions a user can obtain.
-/

namespace PackingSolver.OneDim.Spec

open PackingSolver.OneDim

/-- Effect of one builder call on the packing it describes: `add_bin` appends an
empty bin, `add_item` appends an item to an existing bin. -/
def opStep (p : Packing) : BuilderOp → Packing
  | .addBin t c => p ++ [⟨t, c, []⟩]
  | .addItem k i => p.modify k (fun b => { b with items := b.items ++ [i] })

/-- The packing described by a sequence of builder calls. -/
def opsPacking (ops : List BuilderOp) : Packing := ops.foldl opStep []

/-- The packing listed by a solution object. -/
def packingOf (s : Solution) : Packing :=
  s.bins.map fun b => ⟨b.binTypeId, b.copies, b.items.map (·.itemTypeId)⟩

/-- Apply an id map; an empty map means that ids are unchanged. -/
def mapId (m : List Nat) (i : Nat) : Nat := if m.isEmpty then i else m.getD i 0

/-- A bin relabelled by the id maps. -/
def relabelBin (binTypeIds itemTypeIds : List Nat) (b : PackedBin) : PackedBin :=
  ⟨mapId binTypeIds b.binTypeId, b.copies, b.items.map (mapId itemTypeIds)⟩

/-- Solutions a user can obtain: start from an empty solution or from a
`SolutionBuilder` and apply any sequence of `append_bin`, `append_bins` and
`append_empty_bin` calls with non-negative numbers of copies. -/
inductive Reachable (inst : Instance) : Solution → Prop
  | init : Reachable inst (Solution.init inst)
  | built (ops : List BuilderOp) (s : Solution)
      (hc : ∀ t c, BuilderOp.addBin t c ∈ ops → 0 ≤ c)
      (h : SolutionBuilder.runOps inst ops = .ok s) : Reachable inst s
  | appendBin (s s' other : Solution) (pos : Nat) (copies : Int) (mb mi : List Nat)
      (hs : Reachable inst s) (hc : 0 ≤ copies)
      (h : s.appendBin inst other pos copies mb mi = .ok s') : Reachable inst s'
  | appendBins (s s' other : Solution) (mb mi : List Nat)
      (hs : Reachable inst s) (hc : ∀ b ∈ other.bins, 0 ≤ b.copies)
      (h : s.appendBins inst other mb mi = .ok s') : Reachable inst s'
  | appendEmptyBin (s s' : Solution) (t : Nat) (copies : Int)
      (hs : Reachable inst s) (hc : 0 ≤ copies)
      (h : s.appendEmptyBin inst t copies = .ok s') : Reachable inst s'

end PackingSolver.OneDim.Spec
