import Verif.Lemmas.Rect.ReduceExactRun
import Verif.Props.Rect.UnreduceCount

/-!
# Rectangle bin packing: the translated solution packs all items
-/

namespace PackingSolver.Rect.Reduction

open InstanceBuilder Rect.Spec FlipLemmas
open PackingSolver.OneDim.Examples (okD)

/-- The state after the rounds, if every item type has one copy. -/
theorem reduce_exact {inst : Instance} {ar : Around} {r : Result}
    (hn : ∀ t ∈ inst.itemTypes, t.copies = 1) (hA : Trusted ar) (h : reduce ar inst = .ok r) :
    Exact (fun j => allUses j (start inst)) inst.numberOfItemTypes r.st := by
  unfold reduce at h
  obtain ⟨st, h1, h⟩ := bind_ok.mp h
  obtain ⟨red, h2, h⟩ := bind_ok.mp h
  cases h
  refine rounds_exact ⟨hA.solve, hA.sort⟩ h1 ⟨⟨fun i hil => ?_, ?_, ?_⟩, ?_, fun _ => rfl⟩
  · have hil : i < inst.numberOfItemTypes := by
      unfold start at hil; simpa [Instance.numberOfItemTypes] using hil
    rw [start_item hil]
    refine ⟨by simp, fun _ => ⟨?_, by simp⟩⟩
    dsimp only
    refine hn _ ?_
    unfold Instance.itemType
    unfold Instance.numberOfItemTypes at hil
    rw [List.getD_eq_getElem _ _ hil]; exact List.getElem_mem hil
  · unfold start; simp
  · unfold start; simp
  · unfold start; simp [Instance.numberOfItemTypes]

/-- **C110** (partial: every item type has one copy): whatever the solver and the timer the
reduction consults answer, every valid packing of all items of the reduced instance is translated to
a packing that holds every item exactly once. -/
theorem unreduced_packs_all_partial {ops : List Op} {inst : Instance} {ar : Around} {r : Result}
    {sol : List PackedBin} {s : Solution}
    (hb : runOps ops = .ok inst) (hn : ∀ t ∈ inst.itemTypes, t.copies = 1) (hA : Trusted ar)
    (h : reduce ar inst = .ok r) (hs : ValidPacking r.reduced sol) (hp : PacksAll r.reduced sol)
    (hu : unreduce r sol = .ok s) : PacksAll inst (packingOf s) := by
  intro j hj
  obtain ⟨-, hR, ho, hi⟩ := reduce_geo hb hA h
  have hE := reduce_exact hn hA h
  unfold unreduce at hu
  obtain ⟨out, h1, hu⟩ := bind_ok.mp hu
  rw [ho] at hu
  rw [(builder_packing hu).1]
  change itemCopies (opsPacking (allCalls out)) j = _
  rw [opsPacking_calls, itemCopies_once, unreducedBins_exact hi hR hs hp hE.1 h1 j, hE.2.2 j]
  exact start_uses inst hj

/-- **C109** (partial: every item type has one copy; the reduction itself is not covered): whatever
the solver and the timer the reduction consults answer, every valid packing of the reduced instance
is translated: nothing is thrown, nothing is read beyond the end of an array. -/
theorem unreduce_succeeds_partial {ops : List Op} {inst : Instance} {ar : Around} {r : Result}
    {sol : List PackedBin} (hb : runOps ops = .ok inst) (ha : applies inst = true)
    (hn : ∀ t ∈ inst.itemTypes, t.copies = 1) (hA : Trusted ar)
    (h : reduce ar inst = .ok r) (hs : ValidPacking r.reduced sol) :
    ∃ s, unreduce r sol = .ok s := by
  obtain ⟨-, hR, -, hi⟩ := reduce_geo hb hA h
  obtain ⟨bins, hu⟩ := unreducedBins_reads hi hR hs (reduce_exact hn hA h).1
  exact unreduce_throws_nothing_partial hb ha hA h
    (fun b hbm => ⟨(hs.bins b hbm).1, (hs.bins b hbm).2.2⟩) hu

/-- The hypotheses are met by `exKeeps`: one item is absorbed, one gets a bin of its own, and the
packing of the reduced instance packs the third. -/
example : runOps exKeeps = .ok exInst ∧ applies exInst = true ∧ (∀ t ∈ exInst.itemTypes, t.copies = 1) ∧ Trusted modest
    ∧ (∃ r, reduce modest exInst = .ok r ∧ ValidPacking r.reduced [⟨0, 1, [⟨0, 0, 4, false⟩]⟩]
      ∧ PacksAll r.reduced [⟨0, 1, [⟨0, 0, 4, false⟩]⟩]
      ∧ isOk (unreduce r [⟨0, 1, [⟨0, 0, 4, false⟩]⟩]) = true)
    ∧ PacksAll exInst exUnreduced := by
  refine ⟨eq_ok_okD (by decide +kernel), by decide +kernel, by decide +kernel, modest_trusted,
    ⟨_, eq_ok_okD (d := noResult) (by decide +kernel), ⟨?_, ?_, ?_⟩, ?_, by decide +kernel⟩, ?_⟩
  · decide +kernel
  · decide +kernel
  · decide +kernel
  · unfold PacksAll; decide +kernel
  · unfold PacksAll; decide +kernel

end PackingSolver.Rect.Reduction
