import Verif.Model.OneDim.Certificate
import Verif.Props.OneDim.Solution

/-!
# C14: certificate files
-/

namespace PackingSolver.OneDim

open Spec

namespace CertificateLemmas

/-- The builder calls that describe one bin. -/
def binOps (pos : Nat) (b : PackedBin) : List BuilderOp :=
  .addBin b.binTypeId b.copies :: b.items.map (.addItem pos)

/-- The builder calls that describe a packing. -/
def packOps (p : Packing) : List BuilderOp := p.zipIdx.flatMap fun q => binOps q.2 q.1

theorem modify_snoc {α : Type} (l : List α) (a : α) (f : α → α) :
    (l ++ [a]).modify l.length f = l ++ [f a] := by
  induction l with
  | nil => rfl
  | cons b l ih => simpa using ih

theorem opStep_items (p : Packing) (b : PackedBin) (l : List Nat) :
    (l.map (BuilderOp.addItem p.length)).foldl opStep (p ++ [b])
      = p ++ [{ b with items := b.items ++ l }] := by
  induction l generalizing b with
  | nil => simp
  | cons a l ih =>
    rw [List.map_cons, List.foldl_cons]
    have : opStep (p ++ [b]) (BuilderOp.addItem p.length a)
        = p ++ [{ b with items := b.items ++ [a] }] := by
      show List.modify _ _ _ = _
      rw [modify_snoc]
    rw [this, ih]
    simp

theorem opsPacking_packOps (p : Packing) : opsPacking (packOps p) = p := by
  induction p using List.reverseRecOn with
  | nil => rfl
  | append_singleton p b ih =>
    unfold opsPacking packOps at *
    rw [List.zipIdx_append, List.flatMap_append, List.foldl_append, ih]
    simp only [List.zipIdx_singleton, List.flatMap_singleton, binOps, Nat.zero_add,
      List.foldl_cons]
    have : opStep p (BuilderOp.addBin b.binTypeId b.copies) = p ++ [⟨b.binTypeId, b.copies, []⟩] :=
      rfl
    rw [this, opStep_items]
    rfl

/-- An operation is accepted in a state with `n` bins. -/
def OpOk (inst : Instance) (n : Nat) : BuilderOp → Prop
  | .addBin t _ => t < inst.numberOfBinTypes
  | .addItem k _ => k < n

theorem step_items_ok {inst : Instance} (l : List Nat) (k : Nat) (sb : SolutionBuilder)
    (hk : k < sb.sol.bins.length) :
    ∃ sb', (l.map (BuilderOp.addItem k)).foldlM (SolutionBuilder.step inst) sb = .ok sb'
      ∧ sb'.sol.bins.length = sb.sol.bins.length := by
  induction l generalizing sb with
  | nil => exact ⟨sb, rfl, rfl⟩
  | cons a l ih =>
    have hs : ∃ sb1, SolutionBuilder.step inst sb (.addItem k a) = .ok sb1
        ∧ sb1.sol.bins.length = sb.sol.bins.length := by
      simp only [SolutionBuilder.step, SolutionBuilder.addItem]
      rw [if_neg (by omega)]
      exact ⟨_, rfl, by simp⟩
    obtain ⟨sb1, h1, h2⟩ := hs
    obtain ⟨sb2, h3, h4⟩ := ih sb1 (by omega)
    exact ⟨sb2, by rw [List.map_cons]; exact foldlM_cons_ok.mpr ⟨sb1, h1, h3⟩, by omega⟩

theorem steps_ok {inst : Instance} (p : Packing)
    (hp : ∀ b ∈ p, b.binTypeId < inst.numberOfBinTypes) :
    ∃ sb, (packOps p).foldlM (SolutionBuilder.step inst) (SolutionBuilder.new inst) = .ok sb
      ∧ sb.sol.bins.length = p.length := by
  induction p using List.reverseRecOn with
  | nil => exact ⟨_, rfl, rfl⟩
  | append_singleton p b ih =>
    obtain ⟨sb, h1, h2⟩ := ih (fun b hb => hp b (by simp [hb]))
    have hb := hp b (by simp)
    have h3 : SolutionBuilder.step inst sb (.addBin b.binTypeId b.copies) = .ok
        ⟨{ sb.sol with bins := sb.sol.bins ++ [{ binTypeId := b.binTypeId, copies := b.copies }] }⟩ := by
      simp only [SolutionBuilder.step, SolutionBuilder.addBin]
      rw [if_pos hb]
    obtain ⟨sb2, h4, h5⟩ := step_items_ok (inst := inst) b.items p.length
      ⟨{ sb.sol with bins := sb.sol.bins ++ [{ binTypeId := b.binTypeId, copies := b.copies }] }⟩
      (by simp; omega)
    refine ⟨sb2, ?_, by rw [h5]; simp; omega⟩
    unfold packOps at *
    rw [List.zipIdx_append, List.flatMap_append]
    refine foldlM_append_ok h1 ?_
    simp only [List.zipIdx_singleton, List.flatMap_singleton, binOps, Nat.zero_add]
    exact foldlM_cons_ok.mpr ⟨_, h3, h4⟩

/-- `build` succeeds when every bin refers to existing types. -/
theorem build_progress {inst : Instance} {s0 : Solution} {p : Packing} (hr : Raw inst s0 p)
    (hp : WellTyped inst p) (k : Nat) (hk : k ≤ p.length) :
    ∃ s, (List.range k).foldlM (fun s pos => s.updateIndicators inst pos) s0 = .ok s := by
  induction k with
  | zero => exact ⟨s0, rfl⟩
  | succ k ih =>
    obtain ⟨s, hs⟩ := ih (by omega)
    have hv := (build_loop hr (fun b hb => (hp b hb).2.1) k (by omega) s hs).view
    have hlen : s.bins.length = p.length := by rw [← hv]; simp [binsView]
    have hb : viewBin (s.bins.getD k default) ∈ p := by
      rw [← hv]
      unfold binsView
      exact List.mem_map.mpr ⟨_, getD_mem' (by omega), rfl⟩
    have ht := hp _ hb
    rw [List.range_succ]
    have hin : s.inRange inst k = true := by
      unfold Solution.inRange
      simp only [Bool.and_eq_true, decide_eq_true_eq, List.all_eq_true]
      refine ⟨⟨by omega, ht.1⟩, fun it hit => ht.2.2 it.itemTypeId ?_⟩
      exact List.mem_map.mpr ⟨it, hit, rfl⟩
    refine ⟨s.updateIndicatorsTotal inst k, foldlM_append_ok hs ?_⟩
    refine foldlM_cons_ok.mpr ⟨_, ?_, rfl⟩
    unfold Solution.updateIndicators
    rw [if_pos hin]
where
  getD_mem' {l : List SolutionBin} {i : Nat} (h : i < l.length) : l.getD i default ∈ l := by
    rw [List.getD_eq_getElem _ _ h]; exact List.getElem_mem h

/-- Every packing of existing types can be built. -/
theorem runOps_progress {inst : Instance} {p : Packing} (hp : WellTyped inst p) :
    ∃ s, SolutionBuilder.runOps inst (packOps p) = .ok s ∧ packingOf s = p := by
  obtain ⟨sb, h1, h2⟩ := steps_ok (inst := inst) p (fun b hb => (hp b hb).1)
  have hr := raw_ops _ _ h1
  rw [opsPacking_packOps] at hr
  obtain ⟨s, hs⟩ := build_progress hr hp p.length (le_refl _)
  have hrun : SolutionBuilder.runOps inst (packOps p) = .ok s := by
    unfold SolutionBuilder.runOps
    exact bind_ok.mpr ⟨sb, h1, by unfold SolutionBuilder.build; rw [h2]; exact hs⟩
  refine ⟨s, hrun, ?_⟩
  have := (build_ok (packOps p) s (by rw [opsPacking_packOps]; exact fun b hb => (hp b hb).2.1)
    hrun).1.2
  rw [opsPacking_packOps] at this
  exact this

end CertificateLemmas

open CertificateLemmas

/-- No column of the certificate contains the value -1, which the reader takes for
"missing". -/
def NoMissing (inst : Instance) (s : Solution) : Prop :=
  ∀ b ∈ s.bins, (inst.binType b.binTypeId).length ≠ -1
    ∧ ∀ it ∈ b.items, it.start ≠ -1 ∧ (inst.itemType it.itemTypeId).length ≠ -1

/-- Reading the rows of a certificate is replaying builder calls. -/
theorem readRows_eq {inst : Instance} (bins : List SolutionBin) (k : Nat) (sb : SolutionBuilder)
    (hc : ∀ b ∈ bins, 0 ≤ b.copies)
    (hm : ∀ b ∈ bins, (inst.binType b.binTypeId).length ≠ -1
      ∧ ∀ it ∈ b.items, it.start ≠ -1 ∧ (inst.itemType it.itemTypeId).length ≠ -1) :
    ((bins.zipIdx k).flatMap fun p => certificateBin inst p.2 p.1).foldlM
        (SolutionBuilder.readRow inst) sb
      = (((binsView bins).zipIdx k).flatMap fun q => binOps q.2 q.1).foldlM
          (SolutionBuilder.step inst) sb := by
  induction bins generalizing k sb with
  | nil => rfl
  | cons b bins ih =>
    have hb := hm b (by simp)
    have hcb := hc b (by simp)
    simp only [binsView, List.map_cons, List.zipIdx_cons, List.flatMap_cons, List.foldlM_append]
    have hitems : ∀ (l : List SolutionItem) (sb : SolutionBuilder),
        (∀ it ∈ l, it.start ≠ -1 ∧ (inst.itemType it.itemTypeId).length ≠ -1) →
        (l.map fun it => (⟨"ITEM", it.itemTypeId, b.copies, k, it.start,
          (inst.itemType it.itemTypeId).length⟩ : CertificateRow)).foldlM
          (SolutionBuilder.readRow inst) sb
        = ((l.map (·.itemTypeId)).map (BuilderOp.addItem k)).foldlM
          (SolutionBuilder.step inst) sb := by
      intro l
      induction l with
      | nil => intro sb _; rfl
      | cons it l ihl =>
        intro sb hl
        have h1 := hl it (by simp)
        rw [List.map_cons, List.map_cons, List.map_cons, List.foldlM_cons, List.foldlM_cons]
        have : SolutionBuilder.readRow inst sb ⟨"ITEM", it.itemTypeId, b.copies, k, it.start,
            (inst.itemType it.itemTypeId).length⟩
            = SolutionBuilder.step inst sb (.addItem k it.itemTypeId) := by
          unfold SolutionBuilder.readRow SolutionBuilder.step
          dsimp only
          rw [if_neg (by decide), if_neg (by omega), if_neg (by omega), if_neg (by omega),
            if_neg h1.1, if_neg h1.2, if_neg (by decide), if_pos rfl, if_neg (by omega)]
          simp
        rw [this]
        congr 1
        funext sb'
        exact ihl sb' (fun i hi => hl i (by simp [hi]))
    have hbin : ∀ sb, (certificateBin inst k b).foldlM (SolutionBuilder.readRow inst) sb
        = (binOps k ⟨b.binTypeId, b.copies, b.items.map (·.itemTypeId)⟩).foldlM
          (SolutionBuilder.step inst) sb := by
      intro sb
      unfold certificateBin binOps
      rw [List.foldlM_cons, List.foldlM_cons]
      have : SolutionBuilder.readRow inst sb ⟨"BIN", b.binTypeId, b.copies, k, 0,
          (inst.binType b.binTypeId).length⟩
          = SolutionBuilder.step inst sb (.addBin b.binTypeId b.copies) := by
        unfold SolutionBuilder.readRow SolutionBuilder.step
        dsimp only
        rw [if_neg (by decide), if_neg (by omega), if_neg (by omega), if_neg (by omega),
          if_neg (by decide), if_neg hb.1, if_pos rfl, if_neg (by omega)]
        simp
      rw [this]
      congr 1
      funext sb'
      exact hitems b.items sb' hb.2
    rw [hbin]
    congr 1
    funext sb'
    exact ih (k + 1) sb' (fun b hb => hc b (by simp [hb])) (fun b hb => hm b (by simp [hb]))

/-- **C14**, the part that holds: writing the certificate of a solution and reading
it back succeeds and gives a solution with the same bins, copies and item sequences,
and the same totals.  Missing: a certificate with the value -1 in the `X` column is
written but not read back (`certificate_not_reread`). -/
theorem certificate_roundtrip_partial {inst : Instance} {s : Solution} (h : Reachable inst s)
    (hm : NoMissing inst s) :
    ∃ s', SolutionBuilder.readCertificate inst (s.certificate inst) = .ok s'
      ∧ packingOf s' = packingOf s
      ∧ s'.numberOfBins = s.numberOfBins ∧ s'.numberOfItems = s.numberOfItems
      ∧ s'.binLength = s.binLength ∧ s'.itemLength = s.itemLength ∧ s'.length = s.length
      ∧ s'.binCost = s.binCost ∧ s'.binCopies = s.binCopies ∧ s'.itemCopies = s.itemCopies := by
  have hg := h.good
  have hc : ∀ b ∈ s.bins, 0 ≤ b.copies := fun b hb =>
    (hg.typed (viewBin b) (List.mem_map.mpr ⟨b, hb, rfl⟩)).2.1
  obtain ⟨s', h1, h2⟩ := runOps_progress hg.typed
  have hr : Reachable inst s' := .built _ s' (by
    intro t c hm'
    unfold packOps at hm'
    obtain ⟨q, hq, hq'⟩ := List.mem_flatMap.mp hm'
    have hq2 : q.1 ∈ binsView s.bins := by
      have := List.mem_zipIdx hq
      rw [this.2.2]
      exact List.getElem_mem _
    unfold binOps at hq'
    rcases List.mem_cons.mp hq' with h3 | h3
    · cases h3; exact (hg.typed _ hq2).2.1
    · obtain ⟨x, -, hx⟩ := List.mem_map.mp h3; cases hx) h1
  have hp : packingOf s' = packingOf s := h2
  have htot := bin_order_irrelevant_totals hr h (by rw [hp])
  refine ⟨s', ?_, hp, htot.1, htot.2.1, htot.2.2.1, htot.2.2.2.1, ?_, htot.2.2.2.2.1,
    htot.2.2.2.2.2.1, htot.2.2.2.2.2.2.1⟩
  · unfold SolutionBuilder.readCertificate Solution.certificate
    rw [readRows_eq s.bins 0 _ hc hm]
    exact h1
  · rw [(indicators_exact hr).2.2.2.2.1, (indicators_exact h).2.2.2.2.1, hp]

/-- The example solution (nested items, two bin types) meets the hypotheses. -/
example : Reachable Examples.ex Examples.exSol ∧ NoMissing Examples.ex Examples.exSol
    ∧ (Examples.exSol.certificate Examples.ex).length = 6 := by
  refine ⟨Examples.exSol_reachable, ?_, by decide +kernel⟩
  unfold NoMissing
  decide +kernel

/-- **C14**, negation: an item nested by one more than what precedes it starts at
-1.  The solution is feasible and its certificate is rejected when read back. -/
theorem certificate_not_reread : ∃ (inst : Instance) (s : Solution), Reachable inst s
    ∧ s.feasible = true
    ∧ SolutionBuilder.readCertificate inst (s.certificate inst) = .error .runtimeError := by
  let inst : Instance := {
    objective := .knapsack
    itemTypes := [{ length := 1, profit := 1, copies := 1, copiesMin := 0, resourceIds := [[]] },
      { length := 5, nestingLength := 2, profit := 1, copies := 1, copiesMin := 0,
        resourceIds := [[]] }]
    binTypes := [{ length := 5, cost := 1, copies := 1, copiesMin := 0 }] }
  let ops : List BuilderOp := [.addBin 0 1, .addItem 0 0, .addItem 0 1]
  let s := Examples.okD {} (SolutionBuilder.runOps inst ops)
  have hrun : SolutionBuilder.runOps inst ops = .ok s := by decide +kernel
  exact ⟨inst, s, .built ops s (by intro t c h; simp [ops] at h; omega) hrun,
    by decide +kernel, by decide +kernel⟩

end PackingSolver.OneDim
