import Verif.Lemmas.Box.TreeInv
import Mathlib.Data.List.Induction

/-! Helper lemmas: the solution of a node of the box branching scheme. -/

namespace PackingSolver.Box.TreeSearch

open Box.Spec FlipLemmas
open PackingSolver.OneDim (getD_mem forall_mem_snoc)

/-- The packing of a list of steps over the first `K` bins. -/
def packing (s : Scheme) (l : List Step) (K : Nat) : Packing :=
  (List.range K).map fun k => ⟨s.binTypeIds.getD k 0, 1, (inBin l k).map Step.place⟩

/-- A builder that holds a packing, and how it was made. -/
structure Holds (s : Scheme) (sb : SolutionBuilder) (p : Packing) : Prop where
  raw : Raw s.inst sb.sol p
  ops : ∃ ops : List BuilderOp, ops.foldlM (SolutionBuilder.step s.inst) (SolutionBuilder.new s.inst)
    = .ok sb

variable {s : Scheme} {n : Node}

theorem holds_step {sb sb' : SolutionBuilder} {p : Packing} {op : BuilderOp} (h : Holds s sb p)
    (hs : sb.step s.inst op = .ok sb') : Holds s sb' (opStep p op) := by
  obtain ⟨ops, ho⟩ := h.ops
  exact ⟨raw_step h.raw hs, ops ++ [op], foldlM_snoc_ok.mpr ⟨sb, ho, hs⟩⟩

theorem packing_succ {l : List Step} {K : Nat} (h : ∀ st ∈ l, st.numberOfBins ≤ K) :
    packing s l (K + 1) = packing s l K ++ [⟨s.binTypeIds.getD K 0, 1, []⟩] := by
  unfold packing
  rw [List.range_succ, List.map_append, List.map_singleton, inBin_nil]
  · rfl
  · intro st hst
    have := h st hst
    omega

theorem add_bins (hc : Ctx s) {l : List Step} {K : Nat} (hl : ∀ st ∈ l, st.numberOfBins ≤ K)
    {sb : SolutionBuilder} (h : Holds s sb (packing s l K)) {M : Nat} (hK : K ≤ M)
    (hM : M ≤ s.binTypeIds.length) :
    ∃ sb', addBinsUpTo s sb M = .ok sb' ∧ Holds s sb' (packing s l M) := by
  have hlen : sb.sol.bins.length = K := by rw [h.raw.length]; simp [packing]
  unfold addBinsUpTo
  rw [hlen]
  obtain ⟨m, rfl⟩ : ∃ m, M = K + m := ⟨M - K, by omega⟩
  rw [Nat.add_sub_cancel_left]
  clear hK
  induction m with
  | zero => exact ⟨sb, rfl, h⟩
  | succ m ih =>
    obtain ⟨sb1, h1, h2⟩ := ih (by omega)
    have hid := hc.id_lt (k := K + m) (by omega)
    obtain ⟨sb2, e⟩ : ∃ sb2, sb1.addBin s.inst (s.binTypeIds.getD (K + m) 0) 1 = .ok sb2 := by
      unfold SolutionBuilder.addBin; rw [if_pos hid]; exact ⟨_, rfl⟩
    refine ⟨sb2, ?_, ?_⟩
    · rw [List.range'_1_concat]
      refine foldlM_snoc_ok.mpr ⟨sb1, h1, ?_⟩
      rw [if_pos (by omega)]
      exact e
    · have := holds_step (op := .addBin (s.binTypeIds.getD (K + m) 0) 1) h2 e
      rw [← Nat.add_assoc, packing_succ (fun st hst => by have := hl st hst; omega)]
      exact this

theorem packing_snoc {l : List Step} {st : Step} {K : Nat} (hK : st.numberOfBins = K + 1) :
    packing s (l ++ [st]) (K + 1)
      = packing s l K ++ [⟨s.binTypeIds.getD K 0, 1, (inBin l K).map Step.place ++ [st.place]⟩] := by
  unfold packing
  rw [List.range_succ, List.map_append, List.map_singleton]
  congr 1
  · apply List.map_congr_left
    intro k hk
    have := List.mem_range.mp hk
    rw [inBin_snoc, if_neg (by omega), List.append_nil]
  · rw [inBin_snoc, if_pos hK, List.map_append]
    rfl

theorem toSolution_step (hc : Ctx s) {l : List Step} {K : Nat} {st : Step}
    (hl : ∀ x ∈ l, x.numberOfBins ≤ K) {sb : SolutionBuilder} (h : Holds s sb (packing s l K))
    (hK : K ≤ st.numberOfBins) (h0 : 0 < st.numberOfBins)
    (hM : st.numberOfBins ≤ s.binTypeIds.length) (hi : st.itemTypeId < s.inst.numberOfItemTypes)
    (hr : exchangeRotation st.direction st.rotation ∈ (s.inst.itemType st.itemTypeId).rotations)
    (hd : st.direction ≠ .any) :
    ∃ sb', toSolutionStep s sb st = .ok sb' ∧ Holds s sb' (packing s (l ++ [st]) st.numberOfBins) := by
  obtain ⟨sb1, h1, h2⟩ := add_bins hc hl h hK hM
  obtain ⟨m, hm⟩ : ∃ m, st.numberOfBins = m + 1 := ⟨st.numberOfBins - 1, by omega⟩
  have hlen : sb1.sol.bins.length = m + 1 := by rw [h2.raw.length]; simp [packing, hm]
  have hp : packing s l st.numberOfBins
      = packing s l m ++ [⟨s.binTypeIds.getD m 0, 1, (inBin l m).map Step.place⟩] := by
    rw [hm]
    unfold packing
    rw [List.range_succ, List.map_append, List.map_singleton]
  have hid : st.place.itemTypeId = st.itemTypeId := rfl
  obtain ⟨sb', h3⟩ := builder_accepts sb1 (sb1.sol.bins.length - 1) st.itemTypeId st.place.x
    st.place.y st.place.z st.place.rotation (by omega) hi hr
  refine ⟨sb', ?_, ?_, ?_⟩
  · unfold toSolutionStep
    refine bind_ok.mpr ⟨sb1, h1, ?_⟩
    refine bind_ok.mpr ⟨(st.place.x, st.place.y, st.place.z), ?_, ?_⟩
    · unfold Step.place
      cases hdd : st.direction with
      | any => exact absurd hdd hd
      | _ => rfl
    refine bind_ok.mpr ⟨st.place.rotation, flippedRotation_eq hd _, ?_⟩
    rw [if_neg (by omega)]
    exact h3
  · have := raw_addItem (q := packing s l m) (hp ▸ h2.raw) (by rw [hlen]; simp [packing]) h3
    rw [hm, packing_snoc hm]
    exact this
  · obtain ⟨ops, ho⟩ := h2.ops
    exact ⟨ops ++ [.addItem (sb1.sol.bins.length - 1) st.itemTypeId st.place.x st.place.y st.place.z
        st.place.rotation],
      foldlM_snoc_ok.mpr ⟨sb1, ho,
        show SolutionBuilder.step s.inst sb1 (.addItem _ _ _ _ _ _) = _ from h3⟩⟩

/-- The bins used by a list of steps. -/
def lastBins (l : List Step) : Nat := (l.getLast?.map (·.numberOfBins)).getD 0

theorem lastBins_snoc (l : List Step) (st : Step) : lastBins (l ++ [st]) = st.numberOfBins := by
  simp [lastBins]

theorem toSolution_steps (hc : Ctx s) (l : List Step)
    (hs : l.Pairwise fun a b => a.numberOfBins ≤ b.numberOfBins)
    (hl : ∀ st ∈ l, 0 < st.numberOfBins ∧ st.numberOfBins ≤ s.binTypeIds.length
      ∧ st.itemTypeId < s.inst.numberOfItemTypes
      ∧ exchangeRotation st.direction st.rotation ∈ (s.inst.itemType st.itemTypeId).rotations ∧ st.direction ≠ .any) :
    (∃ sb, l.foldlM (toSolutionStep s) (SolutionBuilder.new s.inst) = .ok sb
      ∧ Holds s sb (packing s l (lastBins l))) ∧ ∀ st ∈ l, st.numberOfBins ≤ lastBins l := by
  induction l using List.reverseRecOn with
  | nil =>
    exact ⟨⟨_, rfl, raw_new s.inst, [], rfl⟩, by simp⟩
  | append_singleton l st ih =>
    rw [List.pairwise_append] at hs
    obtain ⟨⟨sb, h1, h2⟩, h3⟩ := ih hs.1 (fun x hx => hl x (List.mem_append_left _ hx))
    obtain ⟨a1, a2, a3, a4, a5⟩ := hl st (by simp)
    have hle : ∀ x ∈ l, x.numberOfBins ≤ st.numberOfBins :=
      fun x hx => hs.2.2 x hx st (by simp)
    have hK : lastBins l ≤ st.numberOfBins := by
      unfold lastBins
      cases he : l.getLast? with
      | none => simp
      | some x => exact hle x (List.mem_of_getLast? he)
    obtain ⟨sb', h4, h5⟩ := toSolution_step hc h3 h2 hK a1 a2 a3 a4 a5
    refine ⟨⟨sb', foldlM_snoc_ok.mpr ⟨sb, h1, h4⟩, ?_⟩, ?_⟩
    · rw [lastBins_snoc]; exact h5
    · rw [lastBins_snoc]
      exact forall_mem_snoc.mpr ⟨hle, le_refl _⟩

theorem lastBins_eq (h : Inv s n) : lastBins n.steps = n.numberOfBins := by
  rcases List.eq_nil_or_concat n.steps with e | ⟨l, st, e⟩
  · rw [h.none e, e]; rfl
  · rw [List.concat_eq_append] at e
    rw [e, lastBins_snoc, h.last l st e]

/-- The export of a node lists its bins. -/
theorem toSolution_ok (hc : Ctx s) (h : Inv s n) :
    ∃ sol, toSolution s n = .ok sol ∧ Reachable s.inst sol
      ∧ packingOf sol = packing s n.steps n.numberOfBins
      ∧ ∃ ops, SolutionBuilder.runOps s.inst ops = .ok sol := by
  obtain ⟨⟨sb, h1, h2⟩, h3⟩ := toSolution_steps hc n.steps h.sorted (fun st hst =>
    ⟨(h.bins st hst).1, le_trans (h.bins st hst).2 h.binsLe, h.items st hst, h.rotation st hst, by
      obtain ⟨pos, hp⟩ := h.dirOf st hst
      rw [hp]
      exact newBinDirection_ne _⟩)
  rw [lastBins_eq h] at h2
  have ht : WellTyped s.inst (packing s n.steps n.numberOfBins) := by
    intro b hb
    obtain ⟨k, hk, rfl⟩ := List.mem_map.mp hb
    have hk' := List.mem_range.mp hk
    have := h.binsLe
    refine ⟨hc.id_lt (by omega), ?_⟩
    intro p hp
    obtain ⟨st, hst, rfl⟩ := List.mem_map.mp hp
    exact h.items st (List.mem_of_mem_filter hst)
  obtain ⟨sol, h4⟩ := build_succeeds h2.raw ht
  obtain ⟨g, hv, -⟩ := builder_ok h2.raw h4
  obtain ⟨ops, ho⟩ := h2.ops
  refine ⟨sol, ?_, .built ops sol (bind_ok.mpr ⟨sb, ho, h4⟩), hv, ops,
    bind_ok.mpr ⟨sb, ho, h4⟩⟩
  unfold toSolution
  exact bind_ok.mpr ⟨sb, h1, h4⟩

end PackingSolver.Box.TreeSearch
