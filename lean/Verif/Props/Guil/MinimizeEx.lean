import Verif.Props.Guil.Minimize
import Verif.Props.Guil.PostProcessEx

/-!
# The number of stages of guillotine solutions reduced afterwards: examples

Property C118.
-/

namespace PackingSolver.Guil

open Guil.Spec
open PackingSolver.Spec (IsSortOf)
open PostProcess

namespace MinimizeEx

/-- The instance of `PostProcessEx` with exact cuts of no thickness. -/
def inst : Instance :=
  { PostProcessEx.inst 0 with parameters := { (PostProcessEx.inst 0).parameters with cutType := .exact } }

/-- Two copies of a bin with two items one above the other, each in a row of its own. -/
def ops : List Op :=
  [.addBin 0 2 .vertical, .addNode 1 3, .addNode 2 1, .addNode 3 2, .setItem 0, .addNode 2 2, .addNode 3 2, .setItem 0]

/-- The solution of these calls. -/
def sol : Solution := match (SolutionBuilder.run inst ops).build inst with
  | .ok s => s
  | .error _ => {}

/-- It has three stages; two are enough. -/
def less : Solution := match minimizeNumberOfStages inst PostProcessEx.sort 5 sol with
  | .ok s => s
  | .error _ => {}

theorem built : (SolutionBuilder.run inst ops).build inst = .ok sol := by decide +kernel

theorem minimized : minimizeNumberOfStages inst PostProcessEx.sort 5 sol = .ok less := by
  decide +kernel

/-- The hypotheses of `minimize_returns_partial`, and with `minimized` those of
`minimize_keeps_places` and of `minimize_assembled`. -/
example : inst.parameters.cutThickness = 0
    ∧ (∀ v l, IsSortOf (startsBefore v) l (PostProcessEx.sort v l))
    ∧ (∀ v l, (PostProcessEx.sort v l).Perm l) ∧ (∀ bt ∈ inst.binTypes, Sized bt)
    ∧ TablesOk inst ∧ inst.parameters.minimumWasteLength ≤ 1
    ∧ Assembled inst sol ∧ (∀ bin ∈ sol.bins, bin.firstCutOrientation ≠ .any)
    ∧ (∀ bin ∈ sol.bins, bin.numberOfStagesReal + 2 ≤ (5 : Nat))
    ∧ (∀ bin ∈ sol.bins, OrientationOk inst bin.firstCutOrientation)
    ∧ inst.parameters.cutType = .exact := by
  refine ⟨rfl, PostProcessEx.sort_ok, fun v l => (PostProcessEx.sort_ok v l).1,
    PostProcessEx.sized 0, ⟨by decide, by decide, by decide, by decide⟩, by decide, .built built,
    by decide +kernel, by decide +kernel, ?_, rfl⟩
  unfold OrientationOk
  decide +kernel

/-- Three stages become two; the copies and the items remain. -/
example : sol.bins.map (fun b => (b.copies, b.numberOfStagesReal, (places b.nodes).length))
      = [(2, 3, 2)]
    ∧ less.bins.map (fun b => (b.copies, b.numberOfStagesReal, (places b.nodes).length))
      = [(2, 2, 2)] := by
  decide +kernel

/-! ## Cuts with a thickness -/

/-- Two items for a bin of 20 × 3; the cuts have a thickness of 2. -/
def thick : Instance :=
  { objective := .knapsack
    parameters := { cutThickness := 2, numberOfStages := 3 }
    itemTypes := [{ w := 7, h := 3, profit := 1, copies := 1, copiesMin := 0, oriented := true, stackId := 0, resourceIds := [[]] }, { w := 9, h := 3, profit := 1, copies := 1, copiesMin := 0, oriented := true, stackId := 1, resourceIds := [[]] }]
    binTypes := [{ w := 20, h := 3 }]
    stackOffsets := [0, 1, 2]
    itemTypeIds := [0, 1]
    binTypeIds := [0]
    previousBinsArea := [0]
    numberOfItems := 2 }

/-- The first item is cut from a strip that is wider by a cut; the next strip follows after another
cut. -/
def thickOps : List Op :=
  [.addBin 0 1 .vertical, .addNode 1 9, .addNode 2 3, .addNode 3 7, .setItem 0, .addNode 1 20, .setItem 1]

/-- The solution of these calls. -/
def thickSol : Solution := match (SolutionBuilder.run thick thickOps).build thick with
  | .ok s => s
  | .error _ => {}

theorem thick_built : (SolutionBuilder.run thick thickOps).build thick = .ok thickSol := by
  decide +kernel

theorem thick_feasible : thickSol.feasible = true := by decide +kernel

/-- The calls before the recursion that does not end. -/
def before : List Op := [.addNode 1 7, .setItem 0, .addNode 1 20]

/-- The place where it happens: the two cuts before the second item have a thickness of 4. -/
def gap : Region := ⟨9, 20, 0, 3⟩

/-- The second item. -/
def second : ItemPlacement := ⟨1, 11, 20, 0, 3⟩

/-- The nodes after these calls. -/
def beforeNodes : List Node :=
  ((SolutionBuilder.run thick (.addBin 0 1 .vertical :: before)).sol.bins.getD 0 default).nodes

theorem gap_open : Spaces.OpenLeaf thick (thick.binType 0) 0 beforeNodes 1 gap := by
  have hmem : (SolutionBuilder.run thick (.addBin 0 1 .vertical :: before)).sol.bins.getD 0 default
      ∈ (SolutionBuilder.run thick (.addBin 0 1 .vertical :: before)).sol.bins := by
    rw [List.getD_eq_getElem _ _ (by decide +kernel)]
    exact List.getElem_mem _
  have hty : ((SolutionBuilder.run thick (.addBin 0 1 .vertical :: before)).sol.bins.getD 0
      default).binTypeId = 0 := by decide +kernel
  have ht := ((runInv_run (inst := thick) (.addBin 0 1 .vertical :: before)).bins _ hmem).1.tree
  rw [hty] at ht
  exact ⟨ht, by decide +kernel, by decide +kernel, by decide +kernel, by decide +kernel,
    by decide +kernel⟩

theorem gap_stuck : Stuck PostProcessEx.sort thick.parameters.cutThickness gap (· = [second]) := by
  rintro l rfl
  have h3 : ∀ v, (findGroups PostProcessEx.sort [second] v 2).length = 1
      ∧ ∀ g ∈ findGroups PostProcessEx.sort [second] v 2, g.cutPosition = gap.high v
        ∧ ¬ groupStart v g - 2 > gap.low v ∧ g.items = [second] := by decide +kernel
  refine ⟨by simp, by decide, fun v => ?_⟩
  obtain ⟨g1, g2⟩ := h3 v
  obtain ⟨g, hg⟩ := List.length_eq_one_iff.mp g1
  obtain ⟨k1, k2, k3⟩ := g2 g (by rw [hg]; simp)
  exact ⟨g, hg, k1, k2, k3⟩

theorem gap_region (fuel : Nat) : ∃ ops nodes', regionOps PostProcessEx.sort 2 .vertical fuel 0 20 0 3
      [⟨0, 0, 7, 0, 3⟩, second] 1 = ⟨ops, false⟩
    ∧ nodesRun thick .vertical (initialNodes (thick.binType 0) 0) ops = some nodes' := by
  match fuel with
  | 0 => exact ⟨[], _, rfl, rfl⟩
  | 1 =>
    refine ⟨[.addNode 1 7], (nodesRun thick .vertical (initialNodes (thick.binType 0) 0)
      [.addNode 1 7]).getD [], by decide +kernel, by decide +kernel⟩
  | fuel + 2 =>
    obtain ⟨ops, nodes', e1, e2⟩ := stuck_region (inst := thick) (σ := PostProcessEx.sort)
      (o := .vertical) (R := gap) (P := (· = [second])) ⟨by decide, by decide⟩ (by decide) gap_stuck
      (fuel + 1) [second] 1 _ (by decide) rfl gap_open
    refine ⟨before ++ ops, nodes', ?_, ?_⟩
    · have hg : findGroups PostProcessEx.sort [⟨0, 0, 7, 0, 3⟩, second] true 2
          = [⟨7, [⟨0, 0, 7, 0, 3⟩]⟩, ⟨20, [second]⟩] := by decide +kernel
      unfold regionOps
      have hv : isVerticalCut .vertical 1 = true := by decide
      rw [hv, hg]
      have hfirst : regionOps PostProcessEx.sort 2 .vertical (fuel + 1) 0 7 0 3 [⟨0, 0, 7, 0, 3⟩] (1 + 1)
          = ⟨[.setItem 0], true⟩ := by
        unfold regionOps
        rfl
      have e1' : regionOps PostProcessEx.sort 2 .vertical (fuel + 1) 9 20 0 3 [second] (1 + 1)
          = ⟨ops, false⟩ := e1
      have hs1 : groupStart true ⟨7, [⟨0, 0, 7, 0, 3⟩]⟩ = 0 := rfl
      have hs2 : groupStart true ⟨20, [second]⟩ = 11 := rfl
      simp only [List.isEmpty_cons, Bool.false_eq_true, if_false, if_true, groupsOps, hs1, hs2,
        gt_iff_lt, lt_irrefl]
      simp only [show decide ((0 : Int) < 0 - 2) = false from rfl,
        show decide ((9 : Int) < 11 - 2) = false from rfl, Bool.false_eq_true, if_false, hfirst,
        Bool.not_true, show (7 : Int) + 2 = 9 from rfl, e1', Bool.not_false, if_true]
      rfl
    · have hrun : nodesRun thick .vertical (initialNodes (thick.binType 0) 0) before
          = some beforeNodes := by decide +kernel
      rw [nodesRun_append, hrun]
      exact e2

/-- **C118**, why the theorem on returning is partial: for cuts with a thickness there are feasible
solutions, made by the solution builder, on which the post-processing never returns, however large
the call stack.  The places of the items do not tell that two cuts lie next to each other. -/
theorem never_returns (fuel : Nat) :
    minimizeNumberOfStages thick PostProcessEx.sort fuel thickSol = .error .ub := by
  have htry : tryBuild thick PostProcessEx.sort fuel 0 [⟨0, 0, 7, 0, 3⟩, second] .vertical
      = .error .ub := by
    obtain ⟨ops, nodes', e1, e2⟩ := gap_region fuel
    unfold tryBuild
    rw [if_neg (by decide)]
    dsimp only
    have e1' : regionOps PostProcessEx.sort thick.parameters.cutThickness .vertical fuel
        (if (thick.binType 0).leftTrimType = .hard then (thick.binType 0).leftTrim else 0)
        ((thick.binType 0).w
          - (if (thick.binType 0).rightTrimType = .hard then (thick.binType 0).rightTrim else 0))
        (if (thick.binType 0).bottomTrimType = .hard then (thick.binType 0).bottomTrim else 0)
        ((thick.binType 0).h
          - (if (thick.binType 0).topTrimType = .hard then (thick.binType 0).topTrim else 0))
        [⟨0, 0, 7, 0, 3⟩, second] 1 = ⟨ops, false⟩ := e1
    rw [if_neg (by simp), e1']
    dsimp only
    have hadd : (SolutionBuilder.new thick).step thick (.addBin 0 1 .vertical)
        = (⟨{ (SolutionBuilder.new thick).sol with bins := [] ++ [{ binTypeId := 0, copies := 1, firstCutOrientation := .vertical, nodes := initialNodes (thick.binType 0) 0 }] }⟩, none) := rfl
    have hthrow : ∃ sb, (SolutionBuilder.new thick).runOrThrow thick (.addBin 0 1 .vertical :: ops)
        = .ok sb := by
      unfold SolutionBuilder.runOrThrow
      rw [hadd]
      exact ⟨_, runOrThrow_nodes rfl e2⟩
    obtain ⟨sb, hsb⟩ := hthrow
    rw [hsb]
    rfl
  have hbuild : buildGuillotineSolutions thick PostProcessEx.sort fuel 0
      [⟨0, 0, 7, 0, 3⟩, second] = .error .ub := by
    unfold buildGuillotineSolutions
    rw [show orientations thick = [.vertical] from rfl, List.foldlM_cons]
    unfold tryOrientation
    rw [htry]
    rfl
  have hlen : thickSol.bins.length = 1 := by decide +kernel
  have hty : (thickSol.bins.getD 0 default).binTypeId = 0 := by decide +kernel
  have hpl : placements (thickSol.bins.getD 0 default).nodes = [⟨0, 0, 7, 0, 3⟩, second] := by
    decide +kernel
  unfold minimizeNumberOfStages
  rw [hlen, show List.range 1 = [0] from rfl, List.foldlM_cons]
  unfold minimizeStep
  dsimp only
  rw [hty, hpl]
  unfold buildGuillotineSolution
  rw [hbuild]
  rfl

end MinimizeEx

end PackingSolver.Guil
