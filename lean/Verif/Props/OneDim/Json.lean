import Verif.Lemmas.OneDim.Json
import Verif.Props.OneDim.Copy

/-!
# C15: instance files (JSON)
-/

namespace PackingSolver.OneDim

open OneDim.Spec InstanceBuilder ResourceLemmas JsonLemmas

/-- **C15**, the part that holds: an instance returned by the builder, whose bin
types and item types have copies that the setters accept, is written and read back
as the same instance, whose derived data are again exact.  Missing: precedences are
written but not read (`json_loses_precedences`), the feasibility callback is not
written, and bin types whose copies the setters reject cannot be read back
(`json_not_reread`). -/
theorem json_roundtrip_partial {o o' : Objective} {ops : List Op} {inst : Instance}
    (h : runOps o ops = .ok inst) (hb : ReadableBins inst) (hi : ReadableItems inst) :
    ∃ inst', readJson o' (writeJson inst) = .ok inst' ∧ SameInstance inst inst'
      ∧ Aggregates inst' := by
  have hq := build_copies_partial h
  have h' := h
  unfold runOps at h'
  obtain ⟨b0, hb0, h'⟩ := bind_ok.mp h'
  have hrange := built_inRange (fresh_ops hb0) h'
  have hmin : ∀ t ∈ inst.itemTypes, -1 ≤ t.copiesMin := by
    obtain ⟨b1, i1, st, -, hF, hI, hB, hinst⟩ := build_pieces (fresh_ops hb0) h'
    intro t ht
    have h1 : t.copiesMin ∈ inst.itemTypes.map (·.copiesMin) := List.mem_map.mpr ⟨t, ht, rfl⟩
    have h2 : inst.itemTypes.map (·.copiesMin)
        = (b1.inst.itemTypes.map (resolveItem b1.inst.objective)).map (·.copiesMin) := by
      rw [hinst]
      change (withRes _ _ _).map _ = _
      rw [map_withRes _ _ _ _ (by intros; rfl), hB.itemTypes, hI.itemTypes]
      simp
    have hcop : inst.itemTypes.map (fun t => (t.copiesMin, t.copies))
        = (b1.inst.itemTypes.map (resolveItem b1.inst.objective)).map
          (fun t => (t.copiesMin, t.copies)) := by
      rw [hinst]
      change (withRes _ _ _).map _ = _
      rw [map_withRes _ _ _ _ (by intros; rfl), hB.itemTypes, hI.itemTypes]
      simp
    have h3 : (t.copiesMin, t.copies) ∈ inst.itemTypes.map (fun t => (t.copiesMin, t.copies)) :=
      List.mem_map.mpr ⟨t, ht, rfl⟩
    rw [hcop, List.map_map] at h3
    obtain ⟨u, hu, he⟩ := List.mem_map.mp h3
    have e1 : (resolveItem b1.inst.objective u).copiesMin = t.copiesMin := congrArg Prod.fst he
    have e2 : (resolveItem b1.inst.objective u).copies = t.copies := congrArg Prod.snd he
    rw [(resolve_fields _ _).1] at e2
    have h4 := (hF.items u hu).copiesMin
    have h5 := hi t ht
    rw [← e1]
    unfold resolveItem
    split_ifs with h6 h7
    · dsimp only; omega
    · dsimp only; omega
    · exact h4
  have hbins : ∀ t ∈ inst.binTypes, 0 < t.length ∧ 0 < t.cost ∧ 0 < t.copies ∧ 0 ≤ t.copiesMin
      ∧ t.copiesMin ≤ t.copies := fun t ht =>
    ⟨(hq.2 t ht).1, (hq.2 t ht).2.1, (hb t ht).1, (hq.2 t ht).2.2.1, (hb t ht).2⟩
  have hitems : ∀ t ∈ inst.itemTypes, (0 < t.copies ∨ t.copies = -1) ∧ -1 ≤ t.copiesMin :=
    fun t ht => ⟨hi t ht, hmin t ht⟩
  have hparse : parseObjective (showObjective inst.objective).toList = some inst.objective := by
    have := objective_roundtrip inst.objective [] [] (by simp) (by simp)
    simpa using this
  obtain ⟨calls, hcalls⟩ : ∃ calls, readCalls (writeJson inst) = .ok calls := by
    unfold readCalls writeJson
    simp only [hparse]
    exact ⟨_, rfl⟩
  have hread := read_runs (o := o') hcalls hbins hitems
  have hF := fresh_ops hread
  have hresolve : ∀ t ∈ inst.itemTypes, resolveItem inst.objective (readItem t) = readItem t := by
    intro t ht
    unfold resolveItem
    split_ifs with h6 h7
    · -- knapsack: the minimum of a built instance is not -1
      exfalso
      have h8 := hq.1 t ht
      have h9 : t.copiesMin = -1 := h6
      obtain ⟨b1, i1, st, -, hF1, hI, hB, hinst⟩ := build_pieces (fresh_ops hb0) h'
      have hobj : b1.inst.objective = .knapsack := by
        rw [← h7, hinst]
        change _ = st.1.objective
        rw [hB.objective, hI.objective]
      have hcop : inst.itemTypes.map (fun t => t.copiesMin)
          = (b1.inst.itemTypes.map (resolveItem b1.inst.objective)).map (fun t => t.copiesMin) := by
        rw [hinst]
        change (withRes _ _ _).map _ = _
        rw [map_withRes _ _ _ _ (by intros; rfl), hB.itemTypes, hI.itemTypes]
        simp
      have h3 : t.copiesMin ∈ inst.itemTypes.map (fun t => t.copiesMin) :=
        List.mem_map.mpr ⟨t, ht, rfl⟩
      rw [hcop, List.map_map] at h3
      obtain ⟨u, hu, he⟩ := List.mem_map.mp h3
      simp only [Function.comp, hobj, resolveItem, if_true] at he
      split_ifs at he with h10
      · simp at he; omega
      · omega
    · have h8 := hq.1 t ht
      have h9 : t.copiesMin = -1 := h6
      rcases h8.2.2 with h10 | h10 | h10
      · exact absurd h10 h7
      · exact absurd h9 h10
      · unfold readItem
        dsimp only
        rw [show (copyItem t).copies = t.copiesMin by rw [h9, ← h10]; rfl]
    · rfl
  obtain ⟨inst', hinst'⟩ := build_progress (b := readBuilder inst) rfl hF (by
      intro t ht
      change t ∈ inst.itemTypes.map readItem at ht
      obtain ⟨u, hu, rfl⟩ := List.mem_map.mp ht
      change (resolveItem inst.objective (readItem u)).copiesMin ≤ _ ∧ _
      rw [hresolve u hu]
      exact ⟨(hq.1 u hu).1, (hq.1 u hu).2.1⟩) (by
      intro ho t ht
      change t ∈ inst.binTypes.map readBin at ht
      obtain ⟨u, hu, rfl⟩ := List.mem_map.mp ht
      have := (hq.2 u hu).2.2.2.2 ho
      change u.copiesMin ≤ 0
      omega) (by
      intro t ht r hr i hne
      change t ∈ inst.binTypes.map readBin at ht
      obtain ⟨u, hu, rfl⟩ := List.mem_map.mp ht
      change r ∈ u.resources.map readRes at hr
      obtain ⟨v, hv, rfl⟩ := List.mem_map.mp hr
      rw [sched_readRes] at hne
      have := hrange u hu v hv i hne
      change i < (inst.itemTypes.map readItem).length
      simpa using this)
  have hrun : runOps o' calls = .ok inst' := by
    unfold runOps; exact bind_ok.mpr ⟨_, hread, hinst'⟩
  refine ⟨inst', ?_, ?_, build_aggregates hrun⟩
  · unfold readJson; exact bind_ok.mpr ⟨calls, hcalls, hrun⟩
  obtain ⟨b1, i1, st, hf, -, hI, hB, he⟩ := build_pieces hF hinst'
  have hb1 : b1 = readBuilder inst := by
    have : (readBuilder inst).finalizePrecedences = .ok (readBuilder inst) := rfl
    rw [this] at hf
    exact (Except.ok.inj hf).symm
  subst hb1
  have hits : st.1.itemTypes = inst.itemTypes.map readItem := by
    rw [hB.itemTypes, hI.itemTypes]
    change ((inst.itemTypes.map readItem).take (inst.itemTypes.map readItem).length).map
      (resolveItem inst.objective) ++ _ = _
    simp only [List.take_length, List.map_map]
    change _ ++ (inst.itemTypes.map readItem).drop (inst.itemTypes.map readItem).length = _
    rw [List.drop_length, List.append_nil]
    exact List.map_congr_left fun t ht => hresolve t ht
  have hbs : st.1.binTypes = inst.binTypes.map readBin := by
    rw [hB.binTypes, hI.binTypes]
    change ((inst.binTypes.map readBin).take (inst.binTypes.map readBin).length).map
      (resolveBin _) ++ (inst.binTypes.map readBin).drop (inst.binTypes.map readBin).length = _
    simp only [List.take_length, List.map_map, List.drop_length, List.append_nil]
    refine List.map_congr_left fun t ht => ?_
    change resolveBin _ (readBin t) = readBin t
    unfold resolveBin
    rw [if_neg]
    have := (hb t ht).1
    change ¬ t.copies = -1
    omega
  have hnb : inst'.binTypes.length = inst.binTypes.length := by
    rw [he]
    change (computeItemTypeIds st.1).binTypes.length = _
    simp [computeItemTypeIds, hbs]
  have hni : inst'.itemTypes.length = inst.itemTypes.length := by
    rw [he]
    change (withRes _ _ _).length = _
    simp [withRes_length, hits]
  have hbin : ∀ t, t < inst.numberOfBinTypes → ∃ x,
      inst'.binType t = { readBin (inst.binType t) with itemTypeIds := x } := by
    intro t ht
    have : inst'.binType t = (computeItemTypeIds st.1).binType t := by rw [he]; rfl
    rw [this]
    unfold Instance.binType computeItemTypeIds
    dsimp only
    rw [List.getD_eq_getElem _ _ (by simpa [hbs, Instance.numberOfBinTypes] using ht), List.getD_eq_getElem _ _ ht]
    simp only [List.getElem_map, hbs]
    exact ⟨_, rfl⟩
  have hitem : ∀ i, i < inst.numberOfItemTypes → ∃ x,
      inst'.itemType i = { readItem (inst.itemType i) with resourceIds := x } := by
    intro i hi'
    have : inst'.itemType i = (withRes st.1.binTypes.length st.1.itemTypes
            (fun j t => wantedIds (st.1.binType t).resources
              (st.1.binType t).resources.length j)).getD i default := by rw [he]; rfl
    rw [this, List.getD_eq_getElem _ _ (by rw [withRes_length, hits]; simpa [Instance.numberOfItemTypes] using hi')]
    unfold Instance.itemType
    rw [List.getD_eq_getElem _ _ hi']
    simp only [withRes, List.getElem_mapIdx, hits, List.getElem_map]
    exact ⟨_, rfl⟩
  refine ⟨?_, hnb, hni, fun t ht => ?_, fun i hi' => ?_, fun t ht => ?_, fun t ht r i c => ?_⟩
  · rw [he]
    change st.1.objective = _
    rw [hB.objective, hI.objective]; rfl
  · obtain ⟨x, hx⟩ := hbin t ht
    rw [hx]
    exact ⟨rfl, rfl, rfl, rfl, rfl, rfl⟩
  · obtain ⟨x, hx⟩ := hitem i hi'
    rw [hx]
    exact ⟨⟨rfl, rfl, rfl, rfl, rfl, rfl, rfl, rfl⟩, rfl⟩
  · obtain ⟨x, hx⟩ := hbin t ht
    rw [hx]
    change ((inst.binType t).resources.map readRes).map _ = _
    rw [List.map_map]
    refine List.map_congr_left fun r _ => ?_
    have h3 := readRes_fields r
    simp only [Function.comp, h3.1, h3.2.1, h3.2.2]
    cases r.penalize <;> rfl
  · obtain ⟨x, hx⟩ := hbin t ht
    rw [hx]
    change ((((inst.binType t).resources.map readRes).getD r {}).itemConsumption i c) = _
    by_cases hr : r < (inst.binType t).resources.length
    · rw [List.getD_eq_getElem _ _ (by simpa using hr), List.getD_eq_getElem _ _ hr,
        List.getElem_map, itemConsumption_eq, itemConsumption_eq, sched_readRes]
    · rw [List.getD_eq_default _ _ (by simpa using hr), List.getD_eq_default _ _ (by simpa using hr)]

/-- The hypotheses are met by an instance with resources, eligibility, a minimum
number of copies and unlimited bins. -/
example : (match runOps .variableSizedBinPacking exBuild with
    | .ok i => decide ((∀ t ∈ i.binTypes, 0 < t.copies ∧ t.copiesMin ≤ t.copies)
      ∧ ∀ t ∈ i.itemTypes, 0 < t.copies ∨ t.copies = -1)
    | .error _ => false) = true := by decide +kernel

/-- **C15**, negation: precedences are written to the file and lost when the file is
read. -/
theorem json_loses_precedences : ∃ ops inst inst', runOps .variableSizedBinPacking ops = .ok inst
    ∧ readJson .default (writeJson inst) = .ok inst'
    ∧ inst.precedences = [(0, 1)] ∧ (writeJson inst).precedences = some [(0, 1)]
    ∧ inst'.precedences = [] := by
  have : (match runOps .variableSizedBinPacking exBuild with
    | .error _ => false
    | .ok inst => match readJson .default (writeJson inst) with
      | .error _ => false
      | .ok inst' => decide (inst.precedences = [(0, 1)]
          ∧ (writeJson inst).precedences = some [(0, 1)] ∧ inst'.precedences = []))
      = true := by decide +kernel
  cases h : runOps .variableSizedBinPacking exBuild with
  | error e => rw [h] at this; cases this
  | ok inst =>
    rw [h] at this
    simp only at this
    cases h2 : readJson .default (writeJson inst) with
    | error e => rw [h2] at this; cases this
    | ok inst' =>
      rw [h2] at this
      exact ⟨_, inst, inst', h, h2, of_decide_eq_true this⟩

/-- **C15**, negation: an instance whose unlimited bin type has a minimum larger
than the number of items is built and written, and the file is rejected. -/
theorem json_not_reread : ∃ ops inst, runOps .variableSizedBinPacking ops = .ok inst
    ∧ readJson .default (writeJson inst) = .error .invalidArgument := by
  have : (match runOps .variableSizedBinPacking [.addBinType 10, .setBinTypeCopies 0 (-1),
      .setBinTypeCopiesMin 0 5, .addItemType 4] with
    | .error _ => false
    | .ok inst => match readJson .default (writeJson inst) with
      | .error e => decide (e = .invalidArgument)
      | .ok _ => false) = true := by decide +kernel
  cases h : runOps .variableSizedBinPacking [.addBinType 10, .setBinTypeCopies 0 (-1),
      .setBinTypeCopiesMin 0 5, .addItemType 4] with
  | error e => rw [h] at this; cases this
  | ok inst =>
    rw [h] at this
    simp only at this
    cases h2 : readJson .default (writeJson inst) with
    | error e =>
      rw [h2] at this
      have he : e = .invalidArgument := of_decide_eq_true this
      exact ⟨_, inst, h, by rw [h2, he]⟩
    | ok inst' => rw [h2] at this; cases this

end PackingSolver.OneDim
