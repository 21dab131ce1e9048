/-!
# Grouping identical bins

`packingsolver::group_identical_bins`, `include/packingsolver/algorithms/common.hpp:551–588`.  The
function is a template over the problem type: `content` is what `operator==` on the bins of that
type compares, `copies` the number of copies of a listed bin.
-/

namespace PackingSolver.Grouping

variable {β γ : Type} [DecidableEq γ] [Inhabited β]

/-- The inner loop, `common.hpp:571–580`: the copies of a bin are added to the first group whose
representative is equal to it; `none` when there is none (`found == false`).  A group is
`struct BinGroup`, lines 561–565: the position of its representative and the total copies. -/
def addToGroup (content : β → γ) (copies : β → Int) (bins : List β) (bin : β) :
    List (Nat × Int) → Option (List (Nat × Int))
  | [] => none
  | g :: gs =>
    if content (bins.getD g.1 default) = content bin then some ((g.1, g.2 + copies bin) :: gs)
    else (addToGroup content copies bins bin gs).map (g :: ·)

/-- One iteration of the outer loop, `common.hpp:568–582`. -/
def groupStep (content : β → γ) (copies : β → Int) (bins : List β) (gs : List (Nat × Int))
    (pos : Nat) : List (Nat × Int) :=
  let bin := bins.getD pos default
  (addToGroup content copies bins bin gs).getD (gs ++ [(pos, copies bin)])

/-- The groups, `common.hpp:566–582`. -/
def binGroups (content : β → γ) (copies : β → Int) (bins : List β) : List (Nat × Int) :=
  (List.range bins.length).foldl (groupStep content copies bins) []

end PackingSolver.Grouping
