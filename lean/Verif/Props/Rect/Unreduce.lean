import Verif.Lemmas.Rect.ReduceSoundRun
import Verif.Lemmas.Rect.UnreduceCalls
import Verif.Props.Rect.ReductionEx

/-!
# Rectangle bin packing: the solution translated back from the reduced instance

`optimize` returns solutions of the instance that it obtains from solutions of the reduced
instance.  A user relies on them being packings of the instance.
-/

namespace PackingSolver.Rect.Reduction

open InstanceBuilder Rect.Spec FlipLemmas
open PackingSolver.OneDim.Examples (okD)

/-- What the reduction ends with. -/
theorem reduce_geo {ops : List Op} {inst : Instance} {ar : Around} {r : Result}
    (hb : runOps ops = .ok inst) (hA : Trusted ar) (h : reduce ar inst = .ok r) :
    Geo (envOf ar inst) r.st ∧ IsReduced inst r.st r.reduced ∧ r.original = inst
      ∧ r.ids = survivors r.st := by
  unfold reduce at h
  obtain ⟨st, h1, h⟩ := bind_ok.mp h
  obtain ⟨red, h2, h⟩ := bind_ok.mp h
  cases h
  refine ⟨rounds_steps (geo_steps (env := envOf ar inst) hA.solve hA.sort) h1 ?_,
    reducedOps_built h2, rfl, rfl⟩
  exact start_geo (env := envOf ar inst) fun t ht =>
    ⟨((build_sizes_partial hb).items t ht).1, ((build_sizes_partial hb).items t ht).2.1⟩

/-- **C110** (partial: how often items are packed and eligibility are not covered, see
`reduction_ignores_eligibility`): whatever the solver and the timer the reduction consults answer,
every solution of the reduced instance whose items exist, lie in their bins, do not overlap and are
rotated only if allowed is translated to such a solution of the instance.  Items may be nested in
any depth, and the numbers of copies are arbitrary. -/
theorem unreduced_packing_valid_partial {ops : List Op} {inst : Instance} {ar : Around} {r : Result}
    {sol : List PackedBin} {s : Solution}
    (hb : runOps ops = .ok inst) (hA : Trusted ar) (h : reduce ar inst = .ok r)
    (hs : ∀ b ∈ sol, b.binTypeId < r.reduced.numberOfBinTypes
      ∧ BinPacking r.reduced b.binTypeId b.items)
    (hu : unreduce r sol = .ok s) :
    ∀ b ∈ packingOf s, b.binTypeId = 0 ∧ b.copies = 1 ∧ BinPacking inst 0 b.items := by
  obtain ⟨hG, hR, ho, hi⟩ := reduce_geo hb hA h
  unfold unreduce at hu
  obtain ⟨bins, h1, hu⟩ := bind_ok.mp hu
  rw [ho] at hu
  have hle := shrunk_le hR.positive
  have hv := unreducedBins_valid (env := envOf ar inst) hG hi hR hle.1 hle.2 hs h1
  intro b hbm
  rw [(builder_packing hu).1] at hbm
  change b ∈ opsPacking (allCalls bins) at hbm
  rw [opsPacking_calls] at hbm
  obtain ⟨c, hc, rfl⟩ := List.mem_map.mp hbm
  exact ⟨(hv c hc).1, rfl, (hv c hc).2⟩

/-- **C109** (partial: the reads of companions may have undefined behaviour, see
`unreduce_undefined`): translating a solution throws nothing.  The only failure is a read of
companions beyond the end of an array. -/
theorem unreduce_throws_nothing_partial {ops : List Op} {inst : Instance} {ar : Around} {r : Result}
    {sol : List PackedBin} {bins : List (Nat × List PlacedItem)}
    (hb : runOps ops = .ok inst) (ha : applies inst = true) (hA : Trusted ar)
    (h : reduce ar inst = .ok r)
    (hs : ∀ b ∈ sol, b.binTypeId < r.reduced.numberOfBinTypes
      ∧ BinPacking r.reduced b.binTypeId b.items)
    (hu : unreducedBins r sol = .ok bins) : ∃ s, unreduce r sol = .ok s := by
  obtain ⟨hG, hR, ho, hi⟩ := reduce_geo hb hA h
  have hle := shrunk_le hR.positive
  have hv := unreducedBins_valid (env := envOf ar inst) hG hi hR hle.1 hle.2 hs hu
  obtain ⟨s, hs⟩ := runOps_calls (inst := inst) (bins := bins) (fun b hbm => by
    obtain ⟨e, hp⟩ := hv b hbm
    refine ⟨?_, hp.exist, hp.rotation⟩
    rw [e, applies_one ha]; omega)
  refine ⟨s, ?_⟩
  unfold unreduce
  rw [hu, ho]
  exact hs

/-- The packing the translation of one packing of `exKeeps` holds. -/
def exUnreduced : List PackedBin :=
  match reduce modest exInst with
  | .ok r => match unreduce r [⟨0, 1, [⟨0, 0, 4, false⟩]⟩] with
    | .ok s => packingOf s
    | .error _ => []
  | .error _ => []

/-- The hypotheses of both theorems are met: the reduced packing of `exKeeps` is valid, and its
translation holds the reserved bin and the bin of the enlarged item with the item it absorbed. -/
example : runOps exKeeps = .ok exInst ∧ applies exInst = true ∧ Trusted modest
    ∧ (∃ r, reduce modest exInst = .ok r ∧ 0 < r.reduced.numberOfBinTypes
      ∧ BinPacking r.reduced 0 [⟨0, 0, 4, false⟩]
      ∧ isOk (unreducedBins r [⟨0, 1, [⟨0, 0, 4, false⟩]⟩]) = true)
    ∧ exUnreduced = [⟨0, 1, [⟨0, 0, 4, false⟩, ⟨1, 6, 4, false⟩]⟩, ⟨0, 1, [⟨2, 0, 0, false⟩]⟩] :=
  ⟨eq_ok_okD (by decide +kernel), by decide +kernel, modest_trusted,
    ⟨_, eq_ok_okD (d := noResult) (by decide +kernel), by decide +kernel, by decide +kernel,
      by decide +kernel⟩, by decide +kernel⟩

end PackingSolver.Rect.Reduction
