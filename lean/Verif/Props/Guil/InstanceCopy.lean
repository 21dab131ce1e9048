import Verif.Lemmas.Guil.InstCopy
import Verif.Props.Guil.Parameters
import Verif.Props.OneDim.Copy

/-!
# C77: copying types of a guillotine instance into a sub-instance
-/

namespace PackingSolver.Guil

open InstanceBuilder
open Guil.Spec hiding IsMaxWithZero
open PackingSolver.OneDim (getD_mem)
open PackingSolver.OneDim.CopyLemmas (idxOf?_snoc idxOf?_some itemConsumption_sched)
open PackingSolver.ResourceLemmas (getD_set' getD_growTo length_growTo)

variable {o : Objective} {orig sub : Instance} {binIds itemIds : List Nat} {b b' : InstanceBuilder}

namespace CopyLemmas

/-- The builder after copying the bin types. -/
structure BinPhase (o : Objective) (orig : Instance) (binIds : List Nat) (b : InstanceBuilder) :
    Prop where
  objective : b.inst.objective = o
  itemTypes : b.inst.itemTypes = []
  binTypes : b.inst.binTypes = binIds.map fun i => copyBin (orig.binType i)
  map : ∀ x, b.origToSubBin.getD x none = binIds.idxOf? x
  ids : ∀ i ∈ binIds, i < orig.binTypes.length

theorem binPhase (hcost : ∀ i ∈ binIds, 0 < (orig.binType i).cost) (hnd : binIds.Nodup)
    (h : (binIds.map (BuilderOp.addBinTypeFrom orig)).foldlM step (new o) = .ok b) :
    BinPhase o orig binIds b := by
  induction binIds using List.reverseRecOn generalizing b with
  | nil =>
    simp [pure, Except.pure] at h
    subst h
    exact ⟨rfl, rfl, rfl, fun x => by simp [new], by simp⟩
  | append_singleton l i ih =>
    rw [List.map_append, List.map_singleton] at h
    obtain ⟨b1, h1, h2⟩ := foldlM_snoc_ok.mp h
    have hnd' := List.nodup_append.mp hnd
    obtain ⟨p0, p1, p2, p3, p4⟩ := ih (fun j hj => hcost j (List.mem_append_left _ hj)) hnd'.1 h1
    have hi : i < orig.binTypes.length := by
      change b1.addBinTypeFrom orig i = _ at h2
      unfold addBinTypeFrom at h2
      split_ifs at h2 with hh
      omega
    have hc : 0 < (orig.binType i).cost := hcost _ (by simp)
    obtain ⟨-, rfl⟩ := addBinTypeFrom_ok hc h2
    have hil : i ∉ l := fun hm => hnd'.2.2 i hm i (by simp) rfl
    refine ⟨p0, p1, ?_, fun x => ?_, ?_⟩
    · simp [withBinTypes, p2]
    · rw [idxOf?_snoc hil]
      change ((growTo none (i + 1) b1.origToSubBin).set i (some b1.inst.binTypes.length)).getD x none
        = _
      rw [getD_set' _ _ _ _ _ (by rw [length_growTo]; omega), getD_growTo, p3, p2]
      simp
    · intro j hj
      rcases List.mem_append.mp hj with hj | hj
      · exact p4 j hj
      · rw [List.mem_singleton.mp hj]; exact hi

/-- The builder after copying the item types. -/
structure ItemPhase (o : Objective) (orig : Instance) (binIds itemIds : List Nat)
    (b : InstanceBuilder) : Prop where
  objective : b.inst.objective = o
  itemTypes : b.inst.itemTypes = itemIds.map fun i => copyItem (orig.itemType i)
  shape : SameShape (binIds.map fun i => copyBin (orig.binType i)) b.inst.binTypes
  sched : ∀ k s j, bsched b.inst.binTypes k s j = if k < binIds.length ∧ j < itemIds.length
    then bsched orig.binTypes (binIds.getD k 0) s (itemIds.getD j 0) else []
  map : ∀ x, b.origToSubBin.getD x none = binIds.idxOf? x
  binIds : ∀ i ∈ binIds, i < orig.binTypes.length
  itemIds : ∀ i ∈ itemIds, i < orig.itemTypes.length

theorem itemPhase (hbnd : binIds.Nodup) (hb : BinPhase o orig binIds b)
    (h : (itemIds.map (BuilderOp.addItemTypeFrom orig)).foldlM step b = .ok b') :
    ItemPhase o orig binIds itemIds b' := by
  induction itemIds using List.reverseRecOn generalizing b' with
  | nil =>
    simp [pure, Except.pure] at h
    subst h
    obtain ⟨p0, p1, p2, p3, p4⟩ := hb
    refine ⟨p0, by rw [p1]; rfl, by rw [p2]; exact SameShape.refl _, ?_, p3, p4, by simp⟩
    intro k s j
    rw [if_neg (by simp), p2]
    unfold bsched
    by_cases hk : k < binIds.length
    · have : (binIds.map fun i => copyBin (orig.binType i)).getD k default
          = copyBin (orig.binType (binIds.getD k 0)) := by
        rw [List.getD_eq_getElem _ _ (by simpa using hk), List.getD_eq_getElem _ _ hk]
        simp
      rw [this]
      have : ((copyBin (orig.binType (binIds.getD k 0))).resources.getD s {}).itemConsumptions
          = [] := by
        unfold copyBin
        dsimp only
        rw [List.getD_eq_getElem?_getD, List.getElem?_map]
        cases (orig.binType (binIds.getD k 0)).resources[s]? <;> rfl
      unfold ResourceLemmas.sched
      rw [this]; rfl
    · have : (binIds.map fun i => copyBin (orig.binType i)).getD k default = default := by
        rw [List.getD_eq_default _ _ (by simpa using hk)]
      rw [this]; rfl
  | append_singleton l i ih =>
    rw [List.map_append, List.map_singleton] at h
    obtain ⟨b1, h1, h2⟩ := foldlM_snoc_ok.mp h
    obtain ⟨q1, q3, q4, q5, q6, q7, q8⟩ := ih h1
    have hlen : b1.inst.itemTypes.length = l.length := by rw [q3]; simp
    obtain ⟨hi, L, r1, r2, r3, r4⟩ := addItemTypeFrom_ok (b := b1) (binIds := binIds) q6 hbnd
      (fun k r => by rw [q5, if_neg (by omega)]) h2
    refine ⟨by rw [r3]; exact q1, by rw [r3]; simp [q3],
      by rw [r3]; exact q4.trans r1, fun k s j => ?_, fun x => by rw [r4, q6], q7, fun j hj => ?_⟩
    · rw [r3]
      change bsched L k s j = _
      rw [r2, q5, hlen]
      simp only [List.length_append, List.length_singleton]
      by_cases hk : k < binIds.length
      · by_cases hj : j = l.length
        · rw [if_pos ⟨hk, hj⟩, if_pos ⟨hk, by omega⟩, hj]
          congr 1
          simp
        · rw [if_neg (by tauto)]
          by_cases hj' : j < l.length
          · rw [if_pos ⟨hk, hj'⟩, if_pos ⟨hk, by omega⟩]
            congr 1
            rw [List.getD_append _ _ _ _ hj']
          · rw [if_neg (by omega), if_neg (by omega)]
      · rw [if_neg (by tauto), if_neg (by tauto), if_neg (by tauto)]
    · rcases List.mem_append.mp hj with hj | hj
      · exact q8 j hj
      · rw [List.mem_singleton.mp hj]; exact hi

end CopyLemmas

open CopyLemmas

/-- The calls that copy the listed types of `orig`: bin types, then item types. -/
def copyCalls (orig : Instance) (binIds itemIds : List Nat) : List BuilderOp :=
  binIds.map (.addBinTypeFrom orig) ++ itemIds.map (.addItemTypeFrom orig)

theorem copy_phase (hcost : ∀ i ∈ binIds, 0 < (orig.binType i).cost) (hb : binIds.Nodup)
    (h : (copyCalls orig binIds itemIds).foldlM step (new o) = .ok b) :
    ItemPhase o orig binIds itemIds b := by
  unfold copyCalls at h
  rw [List.foldlM_append] at h
  obtain ⟨b0, h0, h1⟩ := bind_ok.mp h
  exact itemPhase hb (binPhase hcost hb h0) h1

/-- **C77**, the part that holds: copying distinct bin types and then item types of an instance
gives the restriction of the instance to these types.  Missing: the minimum numbers of copies of
item types and the parameters are not copied (`copy_loses_copies_min`, `copy_loses_parameters`). -/
theorem copy_subinstance_partial (hcost : ∀ i ∈ binIds, 0 < (orig.binType i).cost)
    (hcopies : ∀ i ∈ binIds, (orig.binType i).copies ≠ -1) (hb : binIds.Nodup)
    (h : runOps o (copyCalls orig binIds itemIds) = .ok sub) :
    IsSubInstance orig binIds itemIds sub := by
  unfold runOps at h
  obtain ⟨b, h1, h⟩ := bind_ok.mp h
  have hP := copy_phase hcost hb h1
  obtain ⟨-, hni, hitem, hnb, hbin⟩ := instance_preserved h1 h
  have hlb : b.inst.binTypes.length = binIds.length := by
    rw [hP.shape.length, List.length_map]
  have hli : b.inst.itemTypes.length = itemIds.length := by
    rw [hP.itemTypes, List.length_map]
  have e2 : ∀ k, k < binIds.length → (binIds.map fun i => copyBin (orig.binType i)).getD k default
      = copyBin (orig.binType (binIds.getD k 0)) := by
    intro k hk
    rw [List.getD_eq_getElem _ _ (by simpa using hk), List.getD_eq_getElem _ _ hk]
    simp
  have hdata : ∀ k, k < binIds.length → { b.inst.binType k with resources := [] }
      = { copyBin (orig.binType (binIds.getD k 0)) with resources := [] } := by
    intro k hk
    have e := hP.shape.data k
    rw [e2 k hk] at e
    exact e
  have hnum : sub.numberOfBinTypes = binIds.length := by rw [hnb]; exact hlb
  have hnumi : sub.numberOfItemTypes = itemIds.length := by rw [hni]; exact hli
  have hsub : ∀ k, k < binIds.length → sub.binType k = b.inst.binType k := by
    intro k hk
    rw [hbin k (by rw [hnum]; exact hk)]
    have hc : (b.inst.binType k).copies ≠ -1 := by
      have e := congrArg BinType.copies (hdata k hk)
      have e' : (b.inst.binType k).copies = (orig.binType (binIds.getD k 0)).copies := e
      rw [e']
      exact hcopies _ (getD_mem _ hk)
    rw [if_neg hc]
  refine ⟨hnum, hnumi, ?_, ?_, ?_, ?_⟩
  · intro k hk
    rw [hsub k hk]
    have e := hdata k hk
    have a1 := congrArg BinType.w e
    have a2 := congrArg BinType.h e
    have a3 := congrArg BinType.cost e
    have a4 := congrArg BinType.copies e
    have a5 := congrArg BinType.copiesMin e
    have a6 := congrArg BinType.defects e
    have a7 := congrArg BinType.leftTrim e
    have a8 := congrArg BinType.rightTrim e
    have a9 := congrArg BinType.bottomTrim e
    have a10 := congrArg BinType.topTrim e
    have a11 := congrArg BinType.leftTrimType e
    have a12 := congrArg BinType.rightTrimType e
    have a13 := congrArg BinType.bottomTrimType e
    have a14 := congrArg BinType.topTrimType e
    exact ⟨⟨a1, a2⟩, a3, a4, a5, a6, ⟨a7, a8, a9, a10⟩, a11, a12, a13, a14⟩
  · intro j hj
    obtain ⟨a1, a2, a3, a4, a5, -⟩ := hitem j (by rw [hnumi]; exact hj)
    have e : b.inst.itemType j = copyItem (orig.itemType (itemIds.getD j 0)) := by
      unfold Instance.itemType
      rw [hP.itemTypes, List.getD_eq_getElem _ _ (by simpa using hj), List.getD_eq_getElem _ _ hj]
      simp [Instance.itemType]
    rw [e] at a1 a2 a3 a4 a5
    exact ⟨⟨a1, a2⟩, a3, a4, a5⟩
  · intro k hk
    rw [hsub k hk]
    have e := hP.shape.resources k
    rw [e2 k hk] at e
    have e3 := congrArg (List.map fun r : Resource => (r.capacity, r.penalize, r.penalty)) e
    simp only [copyBin, List.map_map] at e3
    exact e3
  · intro k hk j hj r c
    rw [hsub k hk]
    apply itemConsumption_sched
    have e := hP.sched k r j
    rw [if_pos ⟨hk, hj⟩] at e
    exact e

/-- **C77**: the item types of the sub-instance are in the stacks of the originals, in the order
in which they were copied. -/
theorem copy_stacks (hcost : ∀ i ∈ binIds, 0 < (orig.binType i).cost) (hb : binIds.Nodup)
    (hs : ∀ t ∈ orig.itemTypes, 0 ≤ t.stackId ∧ 0 ≤ t.copies)
    (h : runOps o (copyCalls orig binIds itemIds) = .ok sub) :
    SameStacks orig itemIds sub ∧ StackTable sub := by
  have h' := h
  unfold runOps at h
  obtain ⟨b, h1, h⟩ := bind_ok.mp h
  have hP := copy_phase hcost hb h1
  have hall : ∀ t ∈ b.inst.itemTypes, 0 ≤ t.stackId ∧ 0 ≤ t.copies := by
    intro t ht
    rw [hP.itemTypes] at ht
    obtain ⟨i, hi, rfl⟩ := List.mem_map.mp ht
    have := hs (orig.itemType i) (getD_mem _ (hP.itemIds i hi))
    exact this
  obtain ⟨-, hni, hitem, -⟩ := instance_preserved h1 h
  have hli : b.inst.itemTypes.length = itemIds.length := by
    rw [hP.itemTypes, List.length_map]
  refine ⟨fun j hj => ?_, instance_stack_table_partial h' fun i hi => ?_⟩
  · rw [instance_stacks_given h1 h (fun t ht => (hall t ht).2) (fun t ht => (hall t ht).1) j
      (by rw [hni]; unfold Instance.numberOfItemTypes; rw [hli]; exact hj)]
    unfold Instance.itemType
    rw [hP.itemTypes, List.getD_eq_getElem _ _ (by simpa using hj), List.getD_eq_getElem _ _ hj]
    simp [Instance.itemType, copyItem]
  · rw [(hitem i hi).2.2.2.1]
    rw [hni] at hi
    exact (hall _ (getD_mem _ hi)).2

/-- **C77**: copying never fails (and never reads out of bounds) for existing bin types and item
types with usual data. -/
theorem copy_defined (hb : binIds.Nodup)
    (hbi : ∀ i ∈ binIds, i < orig.numberOfBinTypes ∧ CopyableBin (orig.binType i))
    (hit : ∀ i ∈ itemIds, i < orig.numberOfItemTypes ∧ CopyableItem (orig.itemType i)) :
    ∃ b, (copyCalls orig binIds itemIds).foldlM step (new o) = .ok b := by
  have hbins : ∃ b, (binIds.map (BuilderOp.addBinTypeFrom orig)).foldlM step (new o) = .ok b := by
    clear hb
    induction binIds using List.reverseRecOn with
    | nil => exact ⟨new o, rfl⟩
    | append_singleton l i ih =>
      obtain ⟨b1, h1⟩ := ih fun j hj => hbi j (List.mem_append_left _ hj)
      obtain ⟨hi, hC⟩ := hbi i (by simp)
      obtain ⟨b2, hb2⟩ := addBinTypeFrom_total (b := b1) hi hC
      refine ⟨b2, ?_⟩
      rw [List.map_append, List.map_singleton]
      exact foldlM_snoc_ok.mpr ⟨b1, h1, hb2⟩
  obtain ⟨b0, h0⟩ := hbins
  have hP0 := binPhase (fun i hi => (hbi i hi).2.cost) hb h0
  have hitems : ∃ b, (itemIds.map (BuilderOp.addItemTypeFrom orig)).foldlM step b0 = .ok b := by
    induction itemIds using List.reverseRecOn with
    | nil => exact ⟨b0, rfl⟩
    | append_singleton l i ih =>
      obtain ⟨b1, h1⟩ := ih fun j hj => hit j (List.mem_append_left _ hj)
      obtain ⟨hi, hC⟩ := hit i (by simp)
      have hP := itemPhase hb hP0 h1
      obtain ⟨b2, hb2⟩ := addItemTypeFrom_total (b := b1) hi hC (fun x k hx => by
        rw [hP.map] at hx
        obtain ⟨hk, rfl⟩ := (idxOf?_some hb).mp hx
        refine ⟨hP.binIds _ (getD_mem _ hk), by rw [hP.shape.length, List.length_map]; exact hk, ?_⟩
        have e := hP.shape.nres k
        unfold Instance.binType
        rw [e, List.getD_eq_getElem _ _ (by simpa using hk)]
        simp only [List.getElem_map, copyBin, List.length_map]
        rw [List.getD_eq_getElem binIds _ hk]
        rfl)
      refine ⟨b2, ?_⟩
      rw [List.map_append, List.map_singleton]
      exact foldlM_snoc_ok.mpr ⟨b1, h1, hb2⟩
  obtain ⟨b, hb'⟩ := hitems
  refine ⟨b, ?_⟩
  unfold copyCalls
  rw [List.foldlM_append]
  exact bind_ok.mpr ⟨_, h0, hb'⟩

/-! ## What is lost, and what cannot be copied -/

/-- What to look at in an instance and its copy. -/
def copyOutcome (o : Objective) (ops : List BuilderOp) (binIds itemIds : List Nat) (o' : Objective)
    (p : Instance → Instance → Bool) : Bool :=
  match runOps o ops with
  | .error _ => false
  | .ok orig => match runOps o' (copyCalls orig binIds itemIds) with
    | .error _ => false
    | .ok sub => p orig sub

theorem copyOutcome_iff {o o' : Objective} {ops : List BuilderOp} {p : Instance → Instance → Bool}
    (h : copyOutcome o ops binIds itemIds o' p = true) :
    ∃ orig sub, runOps o ops = .ok orig ∧ runOps o' (copyCalls orig binIds itemIds) = .ok sub
      ∧ p orig sub = true := by
  unfold copyOutcome at h
  cases h1 : runOps o ops with
  | error e => rw [h1] at h; cases h
  | ok orig =>
    rw [h1] at h
    dsimp only at h
    cases h2 : runOps o' (copyCalls orig binIds itemIds) with
    | error e => rw [h2] at h; cases h
    | ok sub => rw [h2] at h; exact ⟨orig, sub, rfl, h2, h⟩

/-- The hypotheses above are met, with trims, defects, resources and stacks. -/
example : copyOutcome .default exInstance [0] [1, 2, 0] .knapsack (fun orig sub =>
    decide ((orig.binType 0).cost = 7 ∧ 0 < (orig.binType 0).copies
      ∧ (sub.binType 0).leftTrim = 1 ∧ (sub.binType 0).defects.length = 1)
    && decide ((sub.itemType 0).w = 3 ∧ (sub.itemType 0).stackId = 1
      ∧ (sub.itemType 1).stackId = 0 ∧ (sub.itemType 2).stackId = 0)
    && decide (((sub.binType 0).resources.getD 0 {}).itemConsumption 0 1 = 4)) = true := by
  decide +kernel

/-- **C77**, the full property fails: the minimum number of copies of an item type is not copied. -/
theorem copy_loses_copies_min : ∃ orig sub : Instance, runOps .default exInstance = .ok orig
    ∧ runOps .knapsack (copyCalls orig [0, 1] [0, 1, 2]) = .ok sub
    ∧ (orig.itemType 1).copiesMin = 2 ∧ (sub.itemType 1).copiesMin = 0 := by
  obtain ⟨orig, sub, h1, h2, h3⟩ := copyOutcome_iff (o := .default) (ops := exInstance)
    (binIds := [0, 1]) (itemIds := [0, 1, 2]) (o' := .knapsack)
    (p := fun orig sub => decide ((orig.itemType 1).copiesMin = 2 ∧ (sub.itemType 1).copiesMin = 0))
    (by decide +kernel)
  exact ⟨orig, sub, h1, h2, of_decide_eq_true h3⟩

/-- **C77**, the full property fails: the cutting costs and the other parameters of the instance
are not copied with its types. -/
theorem copy_loses_parameters : ∃ orig sub : Instance, runOps .default exInstance = .ok orig
    ∧ runOps .knapsack (copyCalls orig [0, 1] [0, 1, 2]) = .ok sub
    ∧ orig.parameters.cuttingCosts.length = 5 ∧ sub.parameters.cuttingCosts.length = 0 := by
  obtain ⟨orig, sub, h1, h2, h3⟩ := copyOutcome_iff (o := .default) (ops := exInstance)
    (binIds := [0, 1]) (itemIds := [0, 1, 2]) (o' := .knapsack)
    (p := fun orig sub => decide (orig.parameters.cuttingCosts.length = 5
      ∧ sub.parameters.cuttingCosts.length = 0))
    (by decide +kernel)
  exact ⟨orig, sub, h1, h2, of_decide_eq_true h3⟩

/-- An instance whose bin type must be used five times, for one item. -/
def exUncopyable : List BuilderOp :=
  [.addBinType 10 10, .setBinTypeCopies 0 (-1), .setBinTypeCopiesMin 0 5, .addItemType 2 2 false 0]

/-- **C77**, what cannot be copied: a built instance may have a bin type with fewer copies than its
minimum, and its copy is rejected. -/
theorem copy_rejected : ∃ orig, runOps .binPacking exUncopyable = .ok orig
    ∧ runOps .binPacking (copyCalls orig [0] [0]) = .error .invalidArgument :=
  ⟨_, rfl, by rfl⟩

end PackingSolver.Guil
