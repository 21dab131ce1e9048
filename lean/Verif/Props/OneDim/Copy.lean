import Verif.Lemmas.OneDim.Copy
import Verif.Props.OneDim.Build

/-!
# C17: copying types into a sub-instance
-/

namespace PackingSolver.OneDim

open InstanceBuilder ResourceLemmas PackingSolver.OneDim.Spec

namespace CopyLemmas

theorem idxOf?_snoc {l : List Nat} {a x : Nat} (ha : a ∉ l) :
    (l ++ [a]).idxOf? x = if x = a then some l.length else l.idxOf? x := by
  unfold List.idxOf?
  rw [List.findIdx?_append]
  by_cases hx : x = a
  · rw [if_pos hx, hx]
    have : l.findIdx? (· == a) = none := List.idxOf?_eq_none_iff.mpr ha
    rw [this]
    simp [List.findIdx?_cons]
  · rw [if_neg hx]
    cases l.findIdx? (· == x) <;> simp [List.findIdx?_cons, Ne.symm hx]

theorem idxOf?_some {l : List Nat} (hl : l.Nodup) {x d : Nat} :
    l.idxOf? x = some d ↔ d < l.length ∧ l.getD d 0 = x := by
  rw [List.idxOf?_eq_some_iff]
  constructor
  · rintro ⟨h1, h2, -⟩
    exact ⟨h1, by rw [List.getD_eq_getElem _ _ h1]; exact h2⟩
  · rintro ⟨h1, h2⟩
    rw [List.getD_eq_getElem _ _ h1] at h2
    refine ⟨h1, h2, fun j hj => ?_⟩
    intro h3
    have h4 : l[j]'(by omega) = l[d] := by rw [h3, h2]
    have := (List.Nodup.getElem_inj_iff hl).mp h4
    omega

/-- The builder after copying the bin types. -/
structure BinPhase (o : Objective) (orig : Instance) (binIds : List Nat) (b : InstanceBuilder) :
    Prop where
  inst : b.inst =
    { objective := o, itemTypes := [],
      binTypes := binIds.map fun i => copyBin (orig.binType i) }
  map : ∀ x, b.origToSubBin.getD x none = binIds.idxOf? x
  pending : b.pending = []

theorem binPhase {o : Objective} {orig : Instance} {binIds : List Nat} {b : InstanceBuilder}
    (hcost : ∀ t ∈ orig.binTypes, 0 < t.cost) (hnd : binIds.Nodup)
    (h : (binIds.map (Op.addBinTypeFrom orig)).foldlM step (new o) = .ok b) :
    BinPhase o orig binIds b := by
  induction binIds using List.reverseRecOn generalizing b with
  | nil =>
    simp [pure, Except.pure] at h
    subst h
    exact ⟨rfl, fun x => by simp [new], rfl⟩
  | append_singleton l i ih =>
    rw [List.map_append, List.map_singleton] at h
    obtain ⟨b1, h1, h2⟩ := foldlM_snoc_ok.mp h
    have hnd' := List.nodup_append.mp hnd
    obtain ⟨p1, p2, p3⟩ := ih hnd'.1 h1
    have hi : i < orig.binTypes.length := by
      change b1.addBinTypeFrom orig i = _ at h2
      unfold addBinTypeFrom at h2
      split_ifs at h2 with hh
      omega
    have hc : 0 < (orig.binType i).cost := hcost _ (getD_mem _ hi)
    obtain ⟨-, rfl⟩ := addBinTypeFrom_ok hc h2
    have hil : i ∉ l := fun hm => hnd'.2.2 i hm i (by simp) rfl
    refine ⟨?_, fun x => ?_, p3⟩
    · simp [withBinTypes, p1]
    · rw [idxOf?_snoc hil]
      change ((growTo none (i + 1) b1.origToSubBin).set i (some b1.inst.binTypes.length)).getD x none
        = _
      rw [getD_set' _ _ _ _ _ (by rw [length_growTo]; omega), getD_growTo, p2, p1]
      simp

/-- Known sub-instance ids of the two ends of precedence `k`. -/
def known (orig : Instance) (itemIds : List Nat) (k : Nat) : Option Nat × Option Nat :=
  ((orig.precedences[k]?).bind fun p => itemIds.idxOf? p.1,
   (orig.precedences[k]?).bind fun p => itemIds.idxOf? p.2)

/-- The builder after copying the item types. -/
structure ItemPhase (o : Objective) (orig : Instance) (binIds itemIds : List Nat)
    (b : InstanceBuilder) : Prop where
  objective : b.inst.objective = o
  callback : b.inst.callback = fun _ => true
  precedences : b.inst.precedences = []
  itemTypes : b.inst.itemTypes = itemIds.map fun i => copyItem (orig.itemType i)
  shape : SameShape (binIds.map fun i => copyBin (orig.binType i)) b.inst.binTypes
  sched : ∀ k s j, bsched b.inst.binTypes k s j = if k < binIds.length ∧ j < itemIds.length
    then bsched orig.binTypes (binIds.getD k 0) s (itemIds.getD j 0) else []
  map : ∀ x, b.origToSubBin.getD x none = binIds.idxOf? x
  pending : ∀ k, pend b.pending k = known orig itemIds k

theorem itemPhase {o : Objective} {orig : Instance} {binIds itemIds : List Nat}
    {b b' : InstanceBuilder} (hprec : PrecedenceIdsOk orig) (hbnd : binIds.Nodup)
    (hnd : itemIds.Nodup) (hb : BinPhase o orig binIds b)
    (h : (itemIds.map (Op.addItemTypeFrom orig)).foldlM step b = .ok b') :
    ItemPhase o orig binIds itemIds b' := by
  induction itemIds using List.reverseRecOn generalizing b' with
  | nil =>
    simp [pure, Except.pure] at h
    subst h
    obtain ⟨p1, p2, p3⟩ := hb
    refine ⟨by rw [p1], by rw [p1], by rw [p1], by rw [p1]; rfl, by rw [p1]; exact SameShape.refl _, ?_, p2, ?_⟩
    · intro k s j
      rw [if_neg (by simp), p1]
      unfold bsched
      dsimp only
      by_cases hk : k < binIds.length
      · have : (binIds.map fun i => copyBin (orig.binType i)).getD k default
            = copyBin (orig.binType (binIds.getD k 0)) := by
          rw [List.getD_eq_getElem _ _ (by simpa using hk), List.getD_eq_getElem _ _ hk]
          simp
        rw [this]
        have : ((copyBin (orig.binType (binIds.getD k 0))).resources.getD s {}).itemConsumptions
            = [] := by
          unfold copyBin
          dsimp only
          rw [List.getD_eq_getElem?_getD, List.getElem?_map]
          cases (orig.binType (binIds.getD k 0)).resources[s]? <;> rfl
        unfold ResourceLemmas.sched
        rw [this]; rfl
      · have : (binIds.map fun i => copyBin (orig.binType i)).getD k default = default := by
          rw [List.getD_eq_default _ _ (by simpa using hk)]
        rw [this]; rfl
    · intro k
      rw [p3]
      unfold pend known
      cases orig.precedences[k]? <;> simp
  | append_singleton l i ih =>
    rw [List.map_append, List.map_singleton] at h
    obtain ⟨b1, h1, h2⟩ := foldlM_snoc_ok.mp h
    have hnd' := List.nodup_append.mp hnd
    have hil : i ∉ l := fun hm => hnd'.2.2 i hm i (by simp) rfl
    obtain ⟨q1, q0, q2, q3, q4, q5, q6, q7⟩ := ih hnd'.1 h1
    have hlen : b1.inst.itemTypes.length = l.length := by rw [q3]; simp
    obtain ⟨hi, L, r1, r2, r3, r4, r5⟩ := addItemTypeFrom_ok (b := b1) (binIds := binIds) q6 hbnd
      (fun k r => by rw [q5, if_neg (by omega)]) h2
    refine ⟨by rw [r3]; exact q1, by rw [r3]; exact q0, by rw [r3]; exact q2, by rw [r3]; simp [q3],
      by rw [r3]; exact q4.trans r1, fun k s j => ?_, fun x => by rw [r4, q6], fun k => ?_⟩
    · rw [r3]
      change bsched L k s j = _
      rw [r2, q5, hlen]
      simp only [List.length_append, List.length_singleton]
      by_cases hk : k < binIds.length
      · by_cases hj : j = l.length
        · rw [if_pos ⟨hk, hj⟩, if_pos ⟨hk, by omega⟩, hj]
          congr 1
          simp
        · rw [if_neg (by tauto)]
          by_cases hj' : j < l.length
          · rw [if_pos ⟨hk, hj'⟩, if_pos ⟨hk, by omega⟩]
            congr 1
            rw [List.getD_append _ _ _ _ hj']
          · rw [if_neg (by omega), if_neg (by omega)]
      · rw [if_neg (by tauto), if_neg (by tauto), if_neg (by tauto)]
    · rw [r5, pend_record, q7, hlen]
      have hp := hprec i hi k
      unfold known
      cases hk : orig.precedences[k]? with
      | none =>
        rw [hk] at hp
        have e1 : k ∉ (orig.itemType i).dominatedPrecedenceIds := fun hm => by
          obtain ⟨g, hg⟩ := hp.1.mp hm; cases hg
        have e2 : k ∉ (orig.itemType i).dominatingPrecedenceIds := fun hm => by
          obtain ⟨g, hg⟩ := hp.2.mp hm; cases hg
        rw [if_neg e1, if_neg e2]
        rfl
      | some q =>
        obtain ⟨d, g⟩ := q
        rw [hk] at hp
        have e1 : k ∈ (orig.itemType i).dominatedPrecedenceIds ↔ d = i := by
          rw [hp.1]; simp
        have e2 : k ∈ (orig.itemType i).dominatingPrecedenceIds ↔ g = i := by
          rw [hp.2]; simp
        simp only [e1, e2, Option.bind_some, idxOf?_snoc hil]

theorem mem_pending {o : Objective} {orig : Instance} {binIds itemIds : List Nat}
    {b : InstanceBuilder} (hnd : itemIds.Nodup) (h : ItemPhase o orig binIds itemIds b)
    (d g : Nat) : (some d, some g) ∈ b.pending ↔ d < itemIds.length ∧ g < itemIds.length
      ∧ (itemIds.getD d 0, itemIds.getD g 0) ∈ orig.precedences := by
  have h1 : (some d, some g) ∈ b.pending ↔ ∃ k, known orig itemIds k = (some d, some g) := by
    rw [List.mem_iff_getElem?]
    constructor
    · rintro ⟨k, hk⟩
      refine ⟨k, ?_⟩
      rw [← h.pending]
      unfold pend
      rw [List.getD_eq_getElem?_getD, hk]; rfl
    · rintro ⟨k, hk⟩
      rw [← h.pending] at hk
      refine ⟨k, ?_⟩
      unfold pend at hk
      rw [List.getD_eq_getElem?_getD] at hk
      cases hb : b.pending[k]? with
      | none => rw [hb] at hk; cases hk
      | some x => rw [hb] at hk; simpa using hk
  rw [h1]
  constructor
  · rintro ⟨k, hk⟩
    unfold known at hk
    cases hp : orig.precedences[k]? with
    | none => rw [hp] at hk; cases hk
    | some q =>
      rw [hp] at hk
      simp only [Option.bind_some, Prod.mk.injEq] at hk
      obtain ⟨a1, a2⟩ := (idxOf?_some hnd).mp hk.1
      obtain ⟨c1, c2⟩ := (idxOf?_some hnd).mp hk.2
      refine ⟨a1, c1, ?_⟩
      rw [a2, c2]
      exact List.mem_of_getElem? hp
  · rintro ⟨h1, h2, h3⟩
    obtain ⟨k, hk⟩ := List.mem_iff_getElem?.mp h3
    refine ⟨k, ?_⟩
    unfold known
    rw [hk]
    simp only [Option.bind_some, Prod.mk.injEq]
    exact ⟨(idxOf?_some hnd).mpr ⟨h1, rfl⟩, (idxOf?_some hnd).mpr ⟨h2, rfl⟩⟩

theorem itemConsumption_sched {r r' : Resource} {i i' c : Nat} (h : sched r i = sched r' i') :
    r.itemConsumption i c = r'.itemConsumption i' c := by
  rw [itemConsumption_eq, itemConsumption_eq, h]

/-- A builder whose bin types were copied from `orig`, after copying item types and
building. -/
theorem subinstance_of_phase {orig sub : Instance} {o : Objective} {binIds itemIds : List Nat}
    {b0 b : InstanceBuilder} (hcopies : ∀ t ∈ orig.binTypes, t.copies ≠ -1)
    (hprec : PrecedenceIdsOk orig) (hb : binIds.Nodup) (hi : itemIds.Nodup)
    (hfresh : BFresh b.inst) (h0 : BinPhase o orig binIds b0)
    (h1 : (itemIds.map (Op.addItemTypeFrom orig)).foldlM step b0 = .ok b)
    (h : b.build = .ok sub) : IsSubInstance orig binIds itemIds sub := by
  have hI0 := itemPhase hprec hb hi h0 h1
  obtain ⟨b1, i1, st, hf, hF, hI, hB, hinst⟩ := build_pieces hfresh h
  obtain ⟨f1, f2, f3, f4⟩ := finalize_ok hf
  -- item types
  have hitems : ∀ {β : Type} (g : ItemType → β), (∀ t x, g { t with resourceIds := x } = g t) →
      (∀ oo t, g (resolveItem oo t) = g t) → (∀ t, g (noPrec t) = g t) →
      sub.itemTypes.map g = itemIds.map fun i => g (copyItem (orig.itemType i)) := by
    intro β g hg hr hn
    rw [hinst]
    change (withRes _ _ _).map g = _
    rw [map_withRes _ _ _ _ hg, hB.itemTypes, hI.itemTypes]
    simp only [List.take_length, List.drop_length, List.append_nil, List.map_map]
    have e1 : b1.inst.itemTypes.map (g ∘ resolveItem b1.inst.objective)
        = (b1.inst.itemTypes.map noPrec).map g := by
      rw [List.map_map]
      apply List.map_congr_left
      intro t _
      simp [hr, hn]
    rw [e1, f4, hI0.itemTypes, List.map_map, List.map_map]
    apply List.map_congr_left
    intro t _
    simp [hn]
  -- bin types
  have hbl : sub.binTypes.length = binIds.length := by
    rw [hinst]
    change (computeItemTypeIds st.1).binTypes.length = _
    unfold computeItemTypeIds
    rw [List.length_map, hB.binTypes, hI.binTypes, f2]
    have := hI0.shape.length
    simpa using this
  have hbins : ∀ k, k < binIds.length →
      { sub.binType k with itemTypeIds := [] } = { b.inst.binType k with itemTypeIds := [] } := by
    intro k hk
    have hk2 : k < b.inst.binTypes.length := by rw [hI0.shape.length]; simpa using hk
    have hcm : (b.inst.binType k).copies ≠ -1 := by
      have e := hI0.shape.data k
      have e2 : (b.inst.binType k).copies
          = ((binIds.map fun i => copyBin (orig.binType i)).getD k default).copies := by
        have := congrArg BinType.copies e
        exact this
      rw [e2, List.getD_eq_getElem _ _ (by simpa using hk)]
      simp only [List.getElem_map, copyBin]
      by_cases hlt : binIds[k] < orig.binTypes.length
      · exact hcopies _ (getD_mem _ hlt)
      · rw [Instance.binType, List.getD_eq_default _ _ (not_lt.mp hlt)]
        decide
    have e3 : st.1.binTypes = b.inst.binTypes.map (resolveBin i1.numberOfItems) := by
      rw [hB.binTypes, hI.binTypes, f2]; simp
    have e4 : sub.binTypes = (computeItemTypeIds st.1).binTypes := by rw [hinst]
    unfold Instance.binType at hcm ⊢
    rw [List.getD_eq_getElem _ _ hk2] at hcm ⊢
    rw [List.getD_eq_getElem _ _ (by rw [hbl]; exact hk)]
    simp only [e4, computeItemTypeIds, e3, List.getElem_map]
    unfold resolveBin
    rw [if_neg hcm]
  have hdata : ∀ k, k < binIds.length → SameBinData (orig.binType (binIds.getD k 0))
      { b.inst.binType k with itemTypeIds := [] } := by
    intro k hk
    have e := hI0.shape.data k
    have e2 : (binIds.map fun i => copyBin (orig.binType i)).getD k default
        = copyBin (orig.binType (binIds.getD k 0)) := by
      rw [List.getD_eq_getElem _ _ (by simpa using hk), List.getD_eq_getElem _ _ hk]
      simp
    rw [e2] at e
    change { b.inst.binType k with resources := [] } = _ at e
    have a1 := congrArg BinType.length e
    have a2 := congrArg BinType.cost e
    have a3 := congrArg BinType.copies e
    have a4 := congrArg BinType.copiesMin e
    have a5 := congrArg BinType.maximumWeight e
    have a6 := congrArg BinType.eligibilityIds e
    exact ⟨a1, a2, a3, a4, a5, a6⟩
  have hsub : ∀ k, k < binIds.length → (sub.binType k).resources = (b.inst.binType k).resources :=
    fun k hk => by
      have := congrArg BinType.resources (hbins k hk)
      exact this
  refine ⟨hbl, ?_, ?_, ?_, ?_, ?_, ?_⟩
  · have := congrArg List.length (hitems (fun t => t.length) (by intros; rfl)
      (fun oo t => (resolve_fields oo t).2.1) (by intros; rfl))
    simpa [Instance.numberOfItemTypes] using this
  · intro k hk
    have := hdata k hk
    rw [← hbins k hk] at this
    exact ⟨this.1, this.2, this.3, this.4, this.5, this.6⟩
  · intro j hj
    have e := hitems (fun t => (t.length, t.profit, t.copies, t.weight, t.nestingLength,
      t.maximumStackability, t.maximumWeightAfter, t.eligibilityId)) (by intros; rfl)
      (fun oo t => by unfold resolveItem; split_ifs <;> rfl) (by intros; rfl)
    have hl : sub.itemTypes.length = itemIds.length := by
      have := congrArg List.length e
      simpa using this
    have e2 := congrArg (fun l => l[j]?) e
    simp only [List.getElem?_map] at e2
    rw [List.getElem?_eq_getElem (hl ▸ hj), List.getElem?_eq_getElem hj] at e2
    simp only [Option.map_some, Option.some.injEq, copyItem, Prod.mk.injEq] at e2
    unfold Instance.itemType at e2 ⊢
    rw [List.getD_eq_getElem sub.itemTypes _ (hl ▸ hj), List.getD_eq_getElem itemIds _ hj]
    obtain ⟨a1, a2, a3, a4, a5, a6, a7, a8⟩ := e2
    exact ⟨a1, a2, a3, a4, a5, a6, a7, a8⟩
  · intro k hk
    rw [hsub k hk]
    have e := hI0.shape.resources k
    have e2 : (binIds.map fun i => copyBin (orig.binType i)).getD k default
        = copyBin (orig.binType (binIds.getD k 0)) := by
      rw [List.getD_eq_getElem _ _ (by simpa using hk), List.getD_eq_getElem _ _ hk]
      simp
    rw [e2] at e
    have e3 := congrArg (List.map fun r : Resource => (r.capacity, r.penalize, r.penalty)) e
    simp only [copyBin, List.map_map] at e3
    exact e3
  · intro k hk j hj r c
    rw [hsub k hk]
    apply itemConsumption_sched
    have e := hI0.sched k r j
    rw [if_pos ⟨hk, hj⟩] at e
    exact e
  · intro d g
    have hp : sub.precedences = b1.inst.precedences := by
      rw [hinst]
      change st.1.precedences = _
      rw [hB.precedences, hI.precedences]
    rw [hp, f1, hI0.precedences, mem_pending hi hI0]
    simp

end CopyLemmas

open CopyLemmas

/-- The calls that copy the listed types of `orig`: bin types, then item types. -/
def copyCalls (orig : Instance) (binIds itemIds : List Nat) : List Op :=
  binIds.map (.addBinTypeFrom orig) ++ itemIds.map (.addItemTypeFrom orig)

/-- **C17**, the part that holds: copying distinct bin types and then distinct item
types of an instance gives the restriction of the instance to these types.  Missing:
the minimum numbers of copies of item types are not copied (`copy_loses_copies_min`)
and neither are fixed items; bin types copied after item types get no consumptions
(`copy_order_matters`). -/
theorem copy_subinstance_partial {orig sub : Instance} {o : Objective} {binIds itemIds : List Nat}
    (hcost : ∀ t ∈ orig.binTypes, 0 < t.cost) (hcopies : ∀ t ∈ orig.binTypes, t.copies ≠ -1)
    (hprec : PrecedenceIdsOk orig) (hb : binIds.Nodup) (hi : itemIds.Nodup)
    (h : runOps o (copyCalls orig binIds itemIds) = .ok sub) :
    IsSubInstance orig binIds itemIds sub := by
  unfold runOps at h
  obtain ⟨b, h1, h⟩ := bind_ok.mp h
  unfold copyCalls at h1
  have hfresh := fresh_ops h1
  rw [List.foldlM_append] at h1
  obtain ⟨b0, h0, h1⟩ := bind_ok.mp h1
  exact subinstance_of_phase hcopies hprec hb hi hfresh (binPhase hcost hb h0) h1 h

/-! ### Built instances meet the hypotheses -/

namespace CopyLemmas

/-- The precedence ids agree with the precedences, whose ends are item types. -/
def PrecInv (inst : Instance) : Prop :=
  PrecedenceIdsOk inst ∧ ∀ q ∈ inst.precedences,
    q.1 < inst.itemTypes.length ∧ q.2 < inst.itemTypes.length

/-- Precedence ids of the item types. -/
def pids (l : List ItemType) : List (List Nat × List Nat) :=
  l.map fun t => (t.dominatedPrecedenceIds, t.dominatingPrecedenceIds)

theorem pids_getD (l : List ItemType) (i : Nat) :
    (pids l).getD i ([], []) = ((l.getD i default).dominatedPrecedenceIds,
      (l.getD i default).dominatingPrecedenceIds) := by
  unfold pids
  rw [List.getD_eq_getElem?_getD, List.getD_eq_getElem?_getD, List.getElem?_map]
  cases l[i]? <;> rfl

theorem PrecInv.congr {inst inst' : Instance} (h : PrecInv inst)
    (h1 : pids inst'.itemTypes = pids inst.itemTypes)
    (h2 : inst'.precedences = inst.precedences) : PrecInv inst' := by
  have hl : inst'.itemTypes.length = inst.itemTypes.length := by
    have := congrArg List.length h1
    simpa [pids] using this
  refine ⟨fun i hi p => ?_, fun q hq => ?_⟩
  · have hd := pids_getD inst.itemTypes i
    have hd' := pids_getD inst'.itemTypes i
    rw [h1, hd] at hd'
    have e1 := congrArg Prod.fst hd'
    have e2 := congrArg Prod.snd hd'
    have := h.1 i (by unfold Instance.numberOfItemTypes at *; omega) p
    unfold Instance.itemType at this ⊢
    dsimp only at e1 e2
    rw [h2, ← e1, ← e2]
    exact this
  · rw [hl]; exact h.2 q (by rw [← h2]; exact hq)

theorem pids_set {l : List ItemType} {i : Nat} {t : ItemType} (hi : i < l.length)
    (h1 : t.dominatedPrecedenceIds = (l.getD i default).dominatedPrecedenceIds)
    (h2 : t.dominatingPrecedenceIds = (l.getD i default).dominatingPrecedenceIds) :
    pids (l.set i t) = pids l := by
  unfold pids
  rw [List.map_set, h1, h2, List.getD_eq_getElem _ _ hi]
  apply List.ext_getElem?
  intro j
  rw [List.getElem?_set]
  by_cases hij : i = j
  · subst hij; simp [hi]
  · simp [hij]

theorem prec_modifyItem {b b' : InstanceBuilder} {id : Nat} {f : ItemType → Except Err ItemType}
    (hP : PrecInv b.inst)
    (hf : ∀ t t', f t = .ok t' → t'.dominatedPrecedenceIds = t.dominatedPrecedenceIds
      ∧ t'.dominatingPrecedenceIds = t.dominatingPrecedenceIds)
    (h : b.modifyItem id f = .ok b') : PrecInv b'.inst := by
  obtain ⟨hid, t, ht, rfl⟩ := modifyItem_ok h
  obtain ⟨e1, e2⟩ := hf _ _ ht
  exact hP.congr (pids_set hid e1 e2) rfl

theorem prec_modifyBin {b b' : InstanceBuilder} {id : Nat} {f : BinType → Except Err BinType}
    (hP : PrecInv b.inst) (h : b.modifyBin id f = .ok b') : PrecInv b'.inst := by
  obtain ⟨hid, t, ht, rfl⟩ := modifyBin_ok h
  exact hP.congr rfl rfl

theorem prec_addItemType {b : InstanceBuilder} {l : Int} (hP : PrecInv b.inst) :
    PrecInv (b.addItemType l).inst := by
  have hlen : (b.addItemType l).inst.itemTypes.length = b.inst.itemTypes.length + 1 := by
    simp [addItemType]
  refine ⟨fun i hi p => ?_, fun q hq => ?_⟩
  · by_cases h : i < b.inst.itemTypes.length
    · have := hP.1 i h p
      have e : (b.addItemType l).inst.itemType i = b.inst.itemType i := by
        unfold addItemType Instance.itemType
        rw [List.getD_append _ _ _ _ h]
      rw [e]
      exact this
    · have hi' : i = b.inst.itemTypes.length := by
        unfold Instance.numberOfItemTypes at hi
        omega
      have e : ((b.addItemType l).inst.itemType i).dominatedPrecedenceIds = []
          ∧ ((b.addItemType l).inst.itemType i).dominatingPrecedenceIds = [] := by
        unfold addItemType Instance.itemType
        rw [hi']
        simp
      rw [e.1, e.2]
      have hno : ∀ q, (b.addItemType l).inst.precedences[p]? = some q → q.1 ≠ i ∧ q.2 ≠ i := by
        intro q hq
        have := hP.2 q (List.mem_of_getElem? hq)
        omega
      constructor
      · refine ⟨fun hm => by simp at hm, ?_⟩
        rintro ⟨g, hg⟩
        exact absurd rfl (hno _ hg).1
      · refine ⟨fun hm => by simp at hm, ?_⟩
        rintro ⟨g, hg⟩
        exact absurd rfl (hno _ hg).2
  · have := hP.2 q hq
    omega

theorem prec_addPrecedence {b b' : InstanceBuilder} {d g : Nat} (hP : PrecInv b.inst)
    (h : b.addItemTypePrecedence d g = .ok b') : PrecInv b'.inst := by
  unfold addItemTypePrecedence at h
  dsimp only at h
  split_ifs at h with hd hg
  cases h
  refine ⟨fun i hi p => ?_, fun q hq => ?_⟩
  · have hi' : i < b.inst.itemTypes.length := by
      unfold Instance.numberOfItemTypes at hi
      simpa using hi
    have hP' := hP.1 i hi' p
    have e1 : (((b.inst.itemTypes.modify d (fun t => { t with
        dominatedPrecedenceIds := t.dominatedPrecedenceIds ++ [b.inst.precedences.length] })).modify
        g (fun t => { t with
        dominatingPrecedenceIds := t.dominatingPrecedenceIds ++ [b.inst.precedences.length] })).getD
        i default).dominatedPrecedenceIds = (b.inst.itemType i).dominatedPrecedenceIds
          ++ (if i = d then [b.inst.precedences.length] else []) := by
      unfold Instance.itemType
      simp only [List.getD_eq_getElem?_getD, List.getElem?_modify]
      rw [List.getElem?_eq_getElem hi']
      by_cases h1 : g = i <;> by_cases h2 : d = i <;> simp [h1, h2, Ne.symm]
    have e2 : (((b.inst.itemTypes.modify d (fun t => { t with
        dominatedPrecedenceIds := t.dominatedPrecedenceIds ++ [b.inst.precedences.length] })).modify
        g (fun t => { t with
        dominatingPrecedenceIds := t.dominatingPrecedenceIds ++ [b.inst.precedences.length] })).getD
        i default).dominatingPrecedenceIds = (b.inst.itemType i).dominatingPrecedenceIds
          ++ (if i = g then [b.inst.precedences.length] else []) := by
      unfold Instance.itemType
      simp only [List.getD_eq_getElem?_getD, List.getElem?_modify]
      rw [List.getElem?_eq_getElem hi']
      by_cases h1 : g = i <;> by_cases h2 : d = i <;> simp [h1, h2, eq_comm]
    have hget : ∀ x, (b.inst.precedences ++ [(d, g)])[p]? = some x ↔
        b.inst.precedences[p]? = some x ∨ (p = b.inst.precedences.length ∧ x = (d, g)) := by
      intro x
      rw [List.getElem?_append]
      by_cases hp : p < b.inst.precedences.length
      · rw [if_pos hp]
        constructor
        · exact Or.inl
        · rintro (h | h)
          · exact h
          · omega
      · rw [if_neg hp, List.getElem?_eq_none (l := b.inst.precedences) (by omega)]
        by_cases hp' : p = b.inst.precedences.length
        · subst hp'; simp [eq_comm]
        · rw [List.getElem?_eq_none (by simp; omega)]
          simp [hp']
    constructor
    · unfold Instance.itemType
      dsimp only
      rw [e1, List.mem_append, hP'.1]
      simp only [hget]
      by_cases hid : i = d
      · subst hid
        constructor
        · rintro (⟨x, hx⟩ | hx)
          · exact ⟨x, Or.inl hx⟩
          · exact ⟨g, Or.inr ⟨by simpa using hx, rfl⟩⟩
        · rintro ⟨x, hx | ⟨hx, -⟩⟩
          · exact Or.inl ⟨x, hx⟩
          · exact Or.inr (by simpa using hx)
      · simp [hid]
    · unfold Instance.itemType
      dsimp only
      rw [e2, List.mem_append, hP'.2]
      simp only [hget]
      by_cases hid : i = g
      · subst hid
        constructor
        · rintro (⟨x, hx⟩ | hx)
          · exact ⟨x, Or.inl hx⟩
          · exact ⟨d, Or.inr ⟨by simpa using hx, rfl⟩⟩
        · rintro ⟨x, hx | ⟨hx, -⟩⟩
          · exact Or.inl ⟨x, hx⟩
          · exact Or.inr (by simpa using hx)
      · simp [hid]
  · simp only [List.length_modify]
    rcases List.mem_append.mp hq with hq | hq
    · exact hP.2 q hq
    · rw [List.mem_singleton.mp hq]
      exact ⟨by omega, by omega⟩

theorem prec_copyConsumptions {b b' : InstanceBuilder} {orig : Instance} {i j : Nat}
    (hP : PrecInv b.inst) (h : b.copyConsumptions orig i j = .ok b') : PrecInv b'.inst := by
  refine foldlM_inv (fun b => PrecInv b.inst) hP ?_ h
  intro x a c _ ha hs
  dsimp only at hs
  cases ho : a.origToSubBin.getD x none with
  | none => rw [ho] at hs; cases hs; exact ha
  | some y =>
    rw [ho] at hs
    simp only at hs
    split_ifs at hs
    refine foldlM_inv (fun b => PrecInv b.inst) ha ?_ hs
    intro x' a' c' _ ha' hs'
    split_ifs at hs' with h1
    · cases hs'; exact ha'
    · exact foldlM_inv (fun b => PrecInv b.inst) ha'
        (fun _ _ _ _ hb hs2 => prec_modifyBin hb hs2) hs'

theorem prec_addBinTypeFrom {b b' : InstanceBuilder} {orig : Instance} {i : Nat}
    (hP : PrecInv b.inst) (h : b.addBinTypeFrom orig i = .ok b') : PrecInv b'.inst := by
  unfold addBinTypeFrom at h
  split_ifs at h with h1
  obtain ⟨b1, h1, h⟩ := bind_ok.mp h
  obtain ⟨b2, h2, h⟩ := bind_ok.mp h
  obtain ⟨b3, h3, h⟩ := bind_ok.mp h
  obtain ⟨b4, h4, h⟩ := bind_ok.mp h
  obtain ⟨b5, h5, h⟩ := bind_ok.mp h
  obtain ⟨b6, h6, h⟩ := bind_ok.mp h
  have f1 : PrecInv b1.inst := by
    unfold addBinType at h1
    split_ifs at h1
    cases h1
    exact hP.congr rfl rfl
  have f2 : PrecInv b2.inst := prec_modifyBin (b := { b1 with
    origToSubBin := (growTo none (i + 1) b1.origToSubBin).set i (some b.inst.binTypes.length) })
    f1 h2
  have f5 := prec_modifyBin (prec_modifyBin (prec_modifyBin f2 h3) h4) h5
  have f6 : PrecInv b6.inst := foldlM_inv (fun b => PrecInv b.inst) f5
    (fun _ _ _ _ ha hs => prec_modifyBin ha hs) h6
  exact foldlM_inv (fun b => PrecInv b.inst) f6
    (fun _ _ _ _ ha hs => prec_modifyBin ha hs) h

theorem prec_addItemTypeFrom {b b' : InstanceBuilder} {orig : Instance} {i : Nat}
    (hP : PrecInv b.inst) (h : b.addItemTypeFrom orig i = .ok b') : PrecInv b'.inst := by
  unfold addItemTypeFrom at h
  split_ifs at h with h1
  obtain ⟨b2, h2, h⟩ := bind_ok.mp h
  obtain ⟨b3, h3, h⟩ := bind_ok.mp h
  obtain ⟨b4, h4, h⟩ := bind_ok.mp h
  obtain ⟨b5, h5, h⟩ := bind_ok.mp h
  obtain ⟨b6, h6, h⟩ := bind_ok.mp h
  obtain ⟨b7, h7, h⟩ := bind_ok.mp h
  obtain ⟨b8, h8, h⟩ := bind_ok.mp h
  obtain ⟨b9, h9, h⟩ := bind_ok.mp h
  have f1 := prec_addItemType (l := (orig.itemType i).length) hP
  have f2 : PrecInv b2.inst := prec_modifyItem
    (b := { b.addItemType (orig.itemType i).length with
      origToSubItem := (growTo none (i + 1) b.origToSubItem).set i (some b.inst.itemTypes.length) })
    f1 (by intro t t' e; cases e; exact ⟨rfl, rfl⟩) h2
  have f3 := prec_modifyItem f2 (by intro t t' e; split_ifs at e; cases e; exact ⟨rfl, rfl⟩) h3
  have f4 := prec_modifyItem f3 (by intro t t' e; cases e; exact ⟨rfl, rfl⟩) h4
  have f5 := prec_modifyItem f4 (by intro t t' e; cases e; exact ⟨rfl, rfl⟩) h5
  have f6 := prec_modifyItem f5 (by intro t t' e; cases e; exact ⟨rfl, rfl⟩) h6
  have f7 := prec_modifyItem f6 (by intro t t' e; cases e; exact ⟨rfl, rfl⟩) h7
  have f8 := prec_modifyItem f7 (by intro t t' e; cases e; exact ⟨rfl, rfl⟩) h8
  have f9 := prec_copyConsumptions f8 h9
  cases h
  exact f9

theorem prec_step {b b' : InstanceBuilder} {op : Op} (hP : PrecInv b.inst)
    (h : b.step op = .ok b') : PrecInv b'.inst := by
  cases op with
  | setObjective o => cases h; exact hP.congr rfl rfl
  | setCallback f => cases h; exact hP.congr rfl rfl
  | addBinType l =>
    simp only [step, addBinType] at h
    split_ifs at h
    cases h
    exact hP.congr rfl rfl
  | setBinTypeCost i c => simp only [step] at h; exact prec_modifyBin hP h
  | setBinTypeMaximumWeight i w => simp only [step] at h; exact prec_modifyBin hP h
  | addBinTypeEligibility i e => simp only [step] at h; exact prec_modifyBin hP h
  | addBinTypeResource i c p q => simp only [step] at h; exact prec_modifyBin hP h
  | addResourceConsumption t r i c q => simp only [step] at h; exact prec_modifyBin hP h
  | setBinTypeCopies i c => simp only [step] at h; exact prec_modifyBin hP h
  | setBinTypeCopiesMin i c => simp only [step] at h; exact prec_modifyBin hP h
  | setBinTypesInfiniteCopies => cases h; exact hP.congr rfl rfl
  | setBinTypesUnweighted => cases h; exact hP.congr rfl rfl
  | addItemType l => cases h; exact prec_addItemType hP
  | setItemTypeWeight i w =>
    simp only [step] at h
    exact prec_modifyItem hP (by intro t t' e; cases e; exact ⟨rfl, rfl⟩) h
  | setItemTypeNestingLength i l =>
    simp only [step] at h
    exact prec_modifyItem hP (by intro t t' e; cases e; exact ⟨rfl, rfl⟩) h
  | setItemTypeMaximumStackability i m =>
    simp only [step] at h
    exact prec_modifyItem hP (by intro t t' e; cases e; exact ⟨rfl, rfl⟩) h
  | setItemTypeMaximumWeightAfter i w =>
    simp only [step] at h
    exact prec_modifyItem hP (by intro t t' e; cases e; exact ⟨rfl, rfl⟩) h
  | setItemTypeEligibility i e =>
    simp only [step] at h
    exact prec_modifyItem hP (by intro t t' e; cases e; exact ⟨rfl, rfl⟩) h
  | addItemTypePrecedence d g => exact prec_addPrecedence hP h
  | setItemTypeProfit i p =>
    simp only [step] at h
    exact prec_modifyItem hP (by intro t t' e; cases e; exact ⟨rfl, rfl⟩) h
  | setItemTypeCopies i c =>
    simp only [step] at h
    exact prec_modifyItem hP (by intro t t' e; split_ifs at e; cases e; exact ⟨rfl, rfl⟩) h
  | setItemTypeCopiesMin i c =>
    simp only [step] at h
    exact prec_modifyItem hP (by intro t t' e; split_ifs at e; cases e; exact ⟨rfl, rfl⟩) h
  | setItemTypesUnweighted =>
    cases h
    exact hP.congr (by simp [pids, setItemTypesUnweighted]) rfl
  | setItemTypesInfiniteCopies =>
    simp only [step, setItemTypesInfiniteCopies] at h
    split_ifs at h
    cases h
    exact hP.congr (by simp [pids]) rfl
  | addBinTypeFrom o i => exact prec_addBinTypeFrom hP h
  | addItemTypeFrom o i => exact prec_addItemTypeFrom hP h

end CopyLemmas

/-- The precedence ids of a built instance agree with its precedences. -/
theorem build_precedenceIds {o : Objective} {ops : List Op} {inst : Instance}
    (h : runOps o ops = .ok inst) : PrecedenceIdsOk inst := by
  unfold runOps at h
  obtain ⟨b, hb, h⟩ := bind_ok.mp h
  have h0 : PrecInv (new o).inst := by
    refine ⟨fun i hi => ?_, fun q hq => ?_⟩
    · simp [new, Instance.numberOfItemTypes] at hi
    · simp [new] at hq
  have h1 : PrecInv b.inst := foldlM_inv (fun b => PrecInv b.inst) h0
    (fun _ _ _ _ ha hs => prec_step ha hs) hb
  obtain ⟨b1, i1, st, hf, hF, hI, hB, hinst⟩ := build_pieces (fresh_ops hb) h
  have h2 : PrecInv b1.inst := by
    refine foldlM_inv (fun b => PrecInv b.inst) h1 ?_ hf
    rintro ⟨x, y⟩ a c _ ha hs
    rcases x with _ | x <;> rcases y with _ | y
    · cases hs; exact ha
    · cases hs; exact ha
    · cases hs; exact ha
    · exact prec_addPrecedence ha hs
  refine (h2.congr (inst' := inst) ?_ ?_).1
  · rw [hinst]
    change (withRes _ _ _).map _ = _
    rw [map_withRes _ _ _ _ (by intros; rfl), hB.itemTypes, hI.itemTypes]
    simp only [List.take_length, List.drop_length, List.append_nil, List.map_map, pids]
    apply List.map_congr_left
    intro t _
    simp only [Function.comp, resolveItem]
    split_ifs <;> rfl
  · rw [hinst]
    change st.1.precedences = _
    rw [hB.precedences, hI.precedences]

/-- **C17** for every instance returned by the builder whose bin types have
numbers of copies (with at least one item, `-1` copies are resolved by `build`). -/
theorem copy_built_subinstance_partial {orig sub : Instance} {o o' : Objective} {ops : List Op}
    {binIds itemIds : List Nat} (horig : runOps o' ops = .ok orig)
    (hitems : orig.numberOfItems ≠ -1) (hb : binIds.Nodup) (hi : itemIds.Nodup)
    (h : runOps o (copyCalls orig binIds itemIds) = .ok sub) :
    IsSubInstance orig binIds itemIds sub := by
  have hq := (build_copies_partial horig).2
  refine copy_subinstance_partial (fun t ht => (hq t ht).2.1) (fun t ht => ?_)
    (build_precedenceIds horig) hb hi h
  rcases (hq t ht).2.2.2.1 with h1 | h1
  · omega
  · rw [h1]; exact hitems

/-- An instance with two bin types, resources, three item types and two
precedences. -/
def exOrigOps : List Op := exBuild ++ [.addItemType 2, .addItemTypePrecedence 2 1]

/-- The copy of bin type 0 and item types 1 and 0 (reordered): the hypotheses are
met, and resources and the precedence between 0 and 1 are there. -/
example : (match runOps .variableSizedBinPacking exOrigOps with
    | .error _ => false
    | .ok orig => match runOps .knapsack (copyCalls orig [0] [1, 0]) with
      | .error _ => false
      | .ok sub => decide (sub.numberOfItems = 7 ∧ sub.precedences = [(1, 0)]
          ∧ (sub.binType 0).resources.map (·.capacity) = [6]
          ∧ (sub.binType 0).resources.map (·.itemConsumptions) = [[[3, 4]]]
          ∧ orig.numberOfItems ≠ -1)) = true := by decide +kernel

/-- **C17**, negation: the minimum number of copies of an item type is lost.  Item
type 1 of `exOrigOps` must be packed at least twice; its copy for a knapsack
sub-problem need not be packed. -/
theorem copy_loses_copies_min : ∃ orig sub : Instance,
    runOps .variableSizedBinPacking exOrigOps = .ok orig
    ∧ runOps .knapsack (copyCalls orig [0, 1] [0, 1, 2]) = .ok sub
    ∧ (orig.itemType 1).copiesMin = 2 ∧ (sub.itemType 1).copiesMin = 0 := by
  have : (match runOps .variableSizedBinPacking exOrigOps with
    | .error _ => false
    | .ok orig => match runOps .knapsack (copyCalls orig [0, 1] [0, 1, 2]) with
      | .error _ => false
      | .ok sub => decide ((orig.itemType 1).copiesMin = 2 ∧ (sub.itemType 1).copiesMin = 0))
      = true := by decide +kernel
  cases h : runOps .variableSizedBinPacking exOrigOps with
  | error e => rw [h] at this; cases this
  | ok orig =>
    rw [h] at this
    simp only at this
    cases h2 : runOps .knapsack (copyCalls orig [0, 1] [0, 1, 2]) with
    | error e => rw [h2] at this; cases this
    | ok sub =>
      rw [h2] at this
      exact ⟨orig, sub, rfl, h2, of_decide_eq_true this⟩

/-- **C17**, negation: copying the item types before the bin types silently drops
all resource consumptions. -/
theorem copy_order_matters : ∃ orig sub : Instance,
    runOps .variableSizedBinPacking exOrigOps = .ok orig
    ∧ runOps .knapsack [.addItemTypeFrom orig 1, .addBinTypeFrom orig 0] = .ok sub
    ∧ ((orig.binType 0).resources.getD 0 {}).itemConsumption 1 0 = 3
    ∧ ((sub.binType 0).resources.getD 0 {}).itemConsumption 0 0 = 0 := by
  have : (match runOps .variableSizedBinPacking exOrigOps with
    | .error _ => false
    | .ok orig => match runOps .knapsack [.addItemTypeFrom orig 1, .addBinTypeFrom orig 0] with
      | .error _ => false
      | .ok sub => decide (((orig.binType 0).resources.getD 0 {}).itemConsumption 1 0 = 3
          ∧ ((sub.binType 0).resources.getD 0 {}).itemConsumption 0 0 = 0))
      = true := by decide +kernel
  cases h : runOps .variableSizedBinPacking exOrigOps with
  | error e => rw [h] at this; cases this
  | ok orig =>
    rw [h] at this
    simp only at this
    cases h2 : runOps .knapsack [.addItemTypeFrom orig 1, .addBinTypeFrom orig 0] with
    | error e => rw [h2] at this; cases this
    | ok sub =>
      rw [h2] at this
      exact ⟨orig, sub, rfl, h2, of_decide_eq_true this⟩

end PackingSolver.OneDim
