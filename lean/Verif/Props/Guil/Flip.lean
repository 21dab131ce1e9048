import Verif.Lemmas.Guil.Flip
import Verif.Lemmas.Guil.MirrorOk

/-!
# Properties: exchanging the axes of a guillotine instance
-/

namespace PackingSolver.Guil

open InstanceBuilder
open Guil.Spec hiding IsMaxWithZero
open PackingSolver.OneDim (getD_mem)
open PackingSolver.OneDim.CopyLemmas (itemConsumption_sched)

variable {a f : Instance} {o : Objective}

/-! ### The flipped instance -/

theorem stackItems_length (inst : Instance) (s : Nat) (l : List Nat)
    (hc : ∀ i ∈ l, 0 ≤ (inst.itemType i).copies) :
    (((l.flatMap fun i => if (inst.itemType i).stackId = (s : Int) then
      List.replicate (inst.itemType i).copies.toNat i else []).length : Nat) : Int)
      = ((l.filter fun j => (inst.itemType j).stackId = (s : Int)).map
          fun j => (inst.itemType j).copies).sum := by
  induction l with
  | nil => rfl
  | cons x l ih =>
    have ih := ih fun i hi => hc i (List.mem_cons_of_mem _ hi)
    have hx := hc x List.mem_cons_self
    rw [List.flatMap_cons, List.length_append, List.filter_cons]
    by_cases h : (inst.itemType x).stackId = (s : Int)
    · rw [if_pos h, if_pos (by simpa using h), List.map_cons, List.sum_cons, List.length_replicate,
        ← ih]
      push_cast
      omega
    · rw [if_neg h, if_neg (by simpa using h), ← ih]
      simp

theorem stackPos_lt {inst : Instance} (hs : StackTable inst)
    (hc : ∀ i < inst.numberOfItemTypes, 0 ≤ (inst.itemType i).copies) {i s : Nat}
    (hi : i < inst.numberOfItemTypes) (he : (inst.itemType i).stackId = s)  :
    (inst.itemType i).stackPos ≤ ((stackItems inst s).length : Int) := by
  rw [hs.stackPos i hi, he, ← stackItems_length inst s (List.range i) fun j hj =>
    hc j ((List.mem_range.mp hj).trans hi)]
  unfold stackItems
  obtain ⟨k, hk⟩ := Nat.exists_eq_add_of_lt hi
  rw [hk, Nat.add_assoc, List.range_add, List.flatMap_append, List.length_append]
  omega

/-- **C111**: the flipped instance is the original with the axes exchanged: sides, trims and
defects of the bin types and sides of the item types are exchanged, every other data a solution
depends on is the same, and the first cuts are vertical.  Missing: the minimum number of copies of
the item types and the callback (see the counterexamples below). -/
theorem flip_instance_partial (hc : ∀ k < a.numberOfBinTypes, 0 < (a.binType k).cost
      ∧ (a.binType k).copies ≠ -1)
    (hi : ∀ i < a.numberOfItemTypes, 0 ≤ (a.itemType i).copies) (hs : StackTable a)
    (h : Flipper.flip o a = .ok f) : FlippedOf a f := by
  obtain ⟨b, hF, hb⟩ := flipping (fun k hk => (hc k hk).1) h
  obtain ⟨ops, hr⟩ := hF.reach
  obtain ⟨⟨p1, p2, -⟩, p4, p5, p6, p7⟩ := instance_preserved hr hb
  have hni : b.inst.numberOfItemTypes = a.numberOfItemTypes := by
    unfold Instance.numberOfItemTypes
    rw [hF.items]
    simp [Instance.numberOfItemTypes]
  have hnb : b.inst.numberOfBinTypes = a.numberOfBinTypes := by
    unfold Instance.numberOfBinTypes
    rw [hF.shape.length]
    simp [Instance.numberOfBinTypes]
  have hit : ∀ i, i < a.numberOfItemTypes → b.inst.itemType i = flipItem (a.itemType i) := by
    intro i hh
    show b.inst.itemTypes.getD i default = _
    rw [hF.items, getD_range_map _ _ hh]
  have hmem : ∀ t ∈ b.inst.itemTypes, 0 ≤ t.copies ∧ 0 ≤ t.stackId := by
    intro t ht
    rw [hF.items] at ht
    obtain ⟨i, hh, rfl⟩ := List.mem_map.mp ht
    have := List.mem_range.mp hh
    exact ⟨hi i this, (hs.stackOf i this).1⟩
  obtain ⟨hst, hsid, -⟩ := built_stacks hr hb fun t ht => (hmem t ht).1
  have hsid := hsid fun t ht => (hmem t ht).2
  have hfi : ∀ i, i < a.numberOfItemTypes → FlippedItem (a.itemType i) (f.itemType i) := by
    intro i hh
    have hh' : i < f.numberOfItemTypes := by rw [p4, hni]; exact hh
    obtain ⟨q1, q2, q3, q4, q5, -⟩ := p5 i hh'
    have q6 := hsid i hh'
    rw [hit i hh] at q1 q2 q3 q4 q5 q6
    exact ⟨q1, q2, q5, q3, q4, q6⟩
  have hnf : f.numberOfItemTypes = a.numberOfItemTypes := p4.trans hni
  have hsi : ∀ s, stackItems f s = stackItems a s := by
    intro s
    unfold stackItems
    rw [hnf, List.flatMap_def, List.flatMap_def]
    congr 1
    apply List.map_congr_left
    intro i hh
    have := hfi i (List.mem_range.mp hh)
    rw [this.stackId, this.copies]
  have hpos : ∀ i, i < a.numberOfItemTypes → (f.itemType i).stackPos = (a.itemType i).stackPos := by
    intro i hh
    rw [hst.stackPos i (by rw [hnf]; exact hh), hs.stackPos i hh]
    congr 1
    rw [(hfi i hh).stackId]
    have e1 : (List.range i).filter (fun j => (f.itemType j).stackId = (a.itemType i).stackId)
        = (List.range i).filter fun j => (a.itemType j).stackId = (a.itemType i).stackId := by
      apply List.filter_congr
      intro j hj
      rw [(hfi j ((List.mem_range.mp hj).trans hh)).stackId]
    rw [e1]
    apply List.map_congr_left
    intro j hj
    exact (hfi j ((List.mem_range.mp (List.mem_filter.mp hj).1).trans hh)).copies
  refine ⟨p1.trans hF.objective, p2.trans hF.parameters, hnf, p6.trans hnb, hfi, fun k hk => ?_,
    hpos, fun i hh h0 => ?_⟩
  · rw [p7 k (by rw [p6, hnb]; exact hk)]
    have e1 := hF.shape.data k
    have e2 := hF.shape.resources k
    rw [getD_range_map _ _ hk] at e1 e2
    change { b.inst.binType k with resources := [] } = _ at e1
    change (b.inst.binType k).resources.map bare = _ at e2
    have hlen : (b.inst.binType k).resources.length = (a.binType k).resources.length := by
      have := congrArg List.length e2
      simpa [flipBin] using this
    refine ⟨by have := congrArg BinType.w e1; exact this, by have := congrArg BinType.h e1; exact this, by have := congrArg BinType.cost e1; exact this, ?_,
      by have := congrArg BinType.copiesMin e1; exact this,
      ⟨by have := congrArg BinType.leftTrim e1; exact this, by have := congrArg BinType.leftTrimType e1; exact this⟩,
      ⟨by have := congrArg BinType.rightTrim e1; exact this, by have := congrArg BinType.rightTrimType e1; exact this⟩,
      ⟨by have := congrArg BinType.bottomTrim e1; exact this, by have := congrArg BinType.bottomTrimType e1; exact this⟩,
      ⟨by have := congrArg BinType.topTrim e1; exact this, by have := congrArg BinType.topTrimType e1; exact this⟩,
      by have := congrArg BinType.defects e1; exact this, hlen, fun r hr => ?_⟩
    · have : (b.inst.binType k).copies = (a.binType k).copies := by
        have := congrArg BinType.copies e1; exact this
      show (if _ then _ else _) = _
      rw [this, if_neg (hc k hk).2]
    · have e3 : bare ((b.inst.binType k).resources.getD r {})
          = bare ((a.binType k).resources.getD r {}) := by
        have e4 := congrArg (fun l => l[r]?) e2
        simp only [flipBin, List.getElem?_map] at e4
        rw [List.getElem?_eq_getElem (by rw [hlen]; exact hr), List.getElem?_eq_getElem hr] at e4
        rw [List.getD_eq_getElem _ _ (by rw [hlen]; exact hr), List.getD_eq_getElem _ _ hr]
        have := Option.some.inj e4
        exact this
      refine ⟨by have := congrArg Resource.capacity e3; exact this, by have := congrArg Resource.penalize e3; exact this,
        by have := congrArg Resource.penalty e3; exact this, fun i c => itemConsumption_sched ?_⟩
      have := hF.sched k r i
      rw [if_pos hk] at this
      exact this
  · obtain ⟨x1, x2⟩ := hs.stackOf i hh
    obtain ⟨y1, y2⟩ := hst.stackOf i (by rw [hnf]; exact hh)
    rw [(hfi i hh).stackId] at y2
    obtain ⟨s, es⟩ := Int.eq_ofNat_of_zero_le x1
    obtain ⟨p, ep⟩ := Int.eq_ofNat_of_zero_le (show 0 ≤ (a.itemType i).stackPos - 1 by omega)
    have hlt := stackPos_lt hs hi hh es
    rw [es] at x2 y2 ⊢
    rw [ep, hst.item s y2 p (by rw [hsi]; omega), hs.item s x2 p (by omega), hsi]

/-- **C111**: … what is not copied: each item type of the flipped instance must be packed in all its
copies, in none for a knapsack, and every solution satisfies the callback. -/
theorem flip_minimum (hc : ∀ k < a.numberOfBinTypes, 0 < (a.binType k).cost)
    (h : Flipper.flip o a = .ok f) :
    (∀ i < a.numberOfItemTypes, (f.itemType i).copiesMin
      = if a.objective = .knapsack then 0 else (a.itemType i).copies)
    ∧ ∀ bins, f.callback bins = true := by
  obtain ⟨b, hF, hb⟩ := flipping hc h
  obtain ⟨ops, hr⟩ := hF.reach
  obtain ⟨⟨-, -, p3⟩, p4, p5, -⟩ := instance_preserved hr hb
  constructor
  · intro i hi
    have hit : b.inst.itemType i = flipItem (a.itemType i) := by
      show b.inst.itemTypes.getD i default = _
      rw [hF.items, getD_range_map _ _ hi]
    have hi' : i < f.numberOfItemTypes := by
      rw [p4]
      unfold Instance.numberOfItemTypes
      rw [hF.items]
      simpa using hi
    rw [(p5 i hi').2.2.2.2.2, hit, hF.objective]
    show (if (-1 : Int) = -1 then _ else _) = _
    rw [if_pos rfl]
    by_cases e : a.objective = .knapsack
    · rw [e]; rfl
    · rw [if_neg e, if_neg]
      · rfl
      · split
        · decide
        · exact e
  · intro bins
    rw [p3, hF.callback]
    rfl

/-- The tables of the flipped instance are those of its item types and resources. -/
theorem flip_aggregates (hc : ∀ k < a.numberOfBinTypes, 0 < (a.binType k).cost)
    (h : Flipper.flip o a = .ok f) : Aggregates f := by
  obtain ⟨b, hF, hb⟩ := flipping hc h
  obtain ⟨ops, hr⟩ := hF.reach
  exact instance_aggregates (o := o) (ops := ops) (by
    unfold runOps; rw [hr]; exact hb)

theorem flip_capacities (hfl : FlippedOf a f) (h : CapacitiesNonneg a) :
    CapacitiesNonneg f := by
  intro t ht r hr
  obtain ⟨k, hk, rfl⟩ := List.getElem_of_mem ht
  obtain ⟨j, hj, rfl⟩ := List.getElem_of_mem hr
  have hka : k < a.numberOfBinTypes := by rw [← hfl.numberOfBinTypes]; exact hk
  have hB := hfl.bins k hka
  have e : f.binType k = f.binTypes[k] := List.getD_eq_getElem _ _ hk
  rw [e] at hB
  have hja : j < (a.binType k).resources.length := by rw [← hB.numberOfResources]; exact hj
  have hR := (hB.resources j hja).capacity
  rw [List.getD_eq_getElem _ _ hj] at hR
  rw [hR]
  exact h _ (getD_mem _ hka) _ (getD_mem _ hja)

/-! ### The solution translated back -/

theorem itemsOf_lt {inst : Instance} {bt : BinType} {k : Nat} {nodes : List Node}
    (h : Tree inst bt k nodes) {i : Nat} (hi : i ∈ itemsOf nodes) : i < inst.numberOfItemTypes := by
  obtain ⟨n, hn, h1, h2⟩ := mem_itemsOf hi
  obtain ⟨j, hj, rfl⟩ := mem_nd hn
  obtain ⟨_, k, hk, he', _⟩ := h.items j hj h1 (by omega)
  omega

section
variable {ops : List Op} {sb : SolutionBuilder} {s : Solution}

/-- **C112**: a solution of the flipped instance whose first cuts are vertical is always translated
back, into a solution with the same pieces in the same order and bins, each with its axes exchanged,
whose first cuts are horizontal. -/
theorem unflip_solution (hfl : FlippedOf a f) (hct : 0 ≤ f.parameters.cutThickness)
    (ht : TablesOk a) (hrun : (SolutionBuilder.new f).runOrThrow f ops = .ok sb)
    (hb : sb.build f = .ok s) (hv : ∀ p ∈ plates s, p.orientation = .vertical) :
    ∃ s', Flipper.unflipSolution a s = .ok s' ∧ List.Forall₂ Mirrored (plates s) (plates s') := by
  obtain ⟨s', ops', h1, h2, h3⟩ := unflip_twins hfl hct ht hrun hb fun bin hbin =>
    hv _ (List.mem_map_of_mem hbin)
  refine ⟨s', h1, ?_⟩
  unfold plates
  rw [List.forall₂_map_left_iff, List.forall₂_map_right_iff]
  exact h3.imp fun _ _ h => h.mirrored

theorem twins_of {bs bs' : List SolutionBin} (h : List.Forall₂ (TwinBin f a) bs bs')
    (hc : ∀ b ∈ bs, CutItems b.nodes) : Twins f a bs bs' := by
  induction h with
  | nil => exact .nil
  | cons h1 _ ih =>
    exact .cons ⟨h1, hc _ List.mem_cons_self⟩ (ih fun b hb => hc b (List.mem_cons_of_mem _ hb))

/-- **C112**: if no item was set on a whole bin, the solution translated back has the same items in
the same order in every bin, and the same number of copies of every item type and bin type, the same
number of bins and items, the same cost and the same area of items. -/
theorem unflip_items (hfl : FlippedOf a f) (hct : 0 ≤ f.parameters.cutThickness)
    (ht : TablesOk a) (hrun : (SolutionBuilder.new f).runOrThrow f ops = .ok sb)
    (hb : sb.build f = .ok s) (hv : ∀ p ∈ plates s, p.orientation = .vertical)
    (hc : ∀ p ∈ plates s, CutItems p.nodes) :
    ∃ s', Flipper.unflipSolution a s = .ok s'
      ∧ List.Forall₂ (fun p q => q.items = p.items) (plates s) (plates s')
      ∧ (∀ i < a.numberOfItemTypes, s'.itemCopies.getD i 0 = s.itemCopies.getD i 0)
      ∧ (∀ k < a.numberOfBinTypes, s'.binCopies.getD k 0 = s.binCopies.getD k 0)
      ∧ s'.cost = s.cost := by
  obtain ⟨s', ops', h1, h2, h3⟩ := unflip_twins hfl hct ht hrun hb fun bin hbin =>
    hv _ (List.mem_map_of_mem hbin)
  have hT := twins_of h3 fun b hb => hc _ (List.mem_map_of_mem hb)
  have hb2 : (SolutionBuilder.run f ops).build f = .ok s := by
    rw [show SolutionBuilder.run f ops = sb from runOrThrow_foldl hrun]; exact hb
  obtain ⟨-, u2, u3, -, -, -, u7, -⟩ := totals hb2
  obtain ⟨-, v2, v3, -, -, -, v7, -⟩ := totals h2
  refine ⟨s', h1, ?_, fun i hi => ?_, fun k hk => ?_, ?_⟩
  · unfold plates
    rw [List.forall₂_map_left_iff, List.forall₂_map_right_iff]
    exact hT.imp fun _ _ h => h.1.twin.items h.2
  · rw [v7 i hi, u7 i (by rw [hfl.numberOfItemTypes]; exact hi)]
    exact hT.itemCopies i
  · rw [v2 k hk, u2 k (by rw [hfl.numberOfBinTypes]; exact hk)]
    exact hT.binCopies k
  · rw [v3, u3]
    exact hT.cost hfl

/-- **C112**: … and the same profit. -/
theorem unflip_profit (hfl : FlippedOf a f) (hct : 0 ≤ f.parameters.cutThickness)
    (ht : TablesOk a) (hrun : (SolutionBuilder.new f).runOrThrow f ops = .ok sb)
    (hb : sb.build f = .ok s) (hv : ∀ p ∈ plates s, p.orientation = .vertical)
    (hc : ∀ p ∈ plates s, CutItems p.nodes)
    (hRa : ResourceIdsOk a) (hcapa : CapacitiesNonneg a) (hnna : ConsumptionsNonneg a)
    (hRf : ResourceIdsOk f) (hcapf : CapacitiesNonneg f) (hnnf : ConsumptionsNonneg f) :
    ∃ s', Flipper.unflipSolution a s = .ok s' ∧ s'.profit = s.profit := by
  obtain ⟨s', ops', h1, h2, h3⟩ := unflip_twins hfl hct ht hrun hb fun bin hbin =>
    hv _ (List.mem_map_of_mem hbin)
  have hT := twins_of h3 fun b hb => hc _ (List.mem_map_of_mem hb)
  have hb2 : (SolutionBuilder.run f ops).build f = .ok s := by
    rw [show SolutionBuilder.run f ops = sb from runOrThrow_foldl hrun]; exact hb
  refine ⟨s', h1, ?_⟩
  rw [profit_total h2 hRa hcapa hnna, profit_total hb2 hRf hcapf hnnf]
  refine hT.profit hfl fun b hbm i hi => ?_
  obtain ⟨k, hk, rfl⟩ := List.getElem_of_mem hbm
  have hf2 := List.forall₂_iff_get.mp h3
  have htw := hf2.2 k hk (by rw [← hf2.1]; exact hk)
  have hlt := itemsOf_lt htw.twin.tree hi
  rwa [hfl.numberOfItemTypes] at hlt

/-- **C112**: a feasible solution is translated back into a feasible one.  Missing: the minimum
number of copies of the item types must not be larger than in the flipped instance, and the callback
must accept the result (see the counterexamples below). -/
theorem unflip_feasible_partial (hfl : FlippedOf a f) (hct : 0 ≤ f.parameters.cutThickness)
    (ht : TablesOk a) (hrun : (SolutionBuilder.new f).runOrThrow f ops = .ok sb)
    (hb : sb.build f = .ok s) (hv : ∀ p ∈ plates s, p.orientation = .vertical)
    (hc : ∀ p ∈ plates s, CutItems p.nodes ∧ 0 ≤ p.copies)
    (hst : 1 ≤ a.parameters.numberOfStages)
    (hi : ∀ i < a.numberOfItemTypes, 0 ≤ (a.itemType i).copies
      ∧ (a.itemType i).copiesMin ≤ (f.itemType i).copiesMin)
    (hRa : ResourceIdsOk a) (hcapa : CapacitiesNonneg a)
    (hRf : ResourceIdsOk f) (hcapf : CapacitiesNonneg f)
    (hcb : ∀ bins, a.callback bins = true)
    (hne : s.bins ≠ []) (hfeas : s.feasible = true) :
    ∃ s', Flipper.unflipSolution a s = .ok s' ∧ s'.feasible = true := by
  obtain ⟨s', ops', h1, h2, h3⟩ := unflip_twins hfl hct ht hrun hb fun bin hbin =>
    hv _ (List.mem_map_of_mem hbin)
  have hT := twins_of h3 fun b hb => (hc _ (List.mem_map_of_mem hb)).1
  have hb2 : (SolutionBuilder.run f ops).build f = .ok s := by
    rw [show SolutionBuilder.run f ops = sb from runOrThrow_foldl hrun]; exact hb
  have hpar := hfl.parameters
  have hf2 := List.forall₂_iff_get.mp hT
  -- every bin comes from one
  have hfrom : ∀ b' ∈ s'.bins, ∃ b ∈ s.bins, TwinBin f a b b' ∧ CutItems b.nodes := by
    intro b' hb'
    obtain ⟨k, hk, rfl⟩ := List.getElem_of_mem hb'
    exact ⟨_, List.getElem_mem (by rw [hf2.1]; exact hk), hf2.2 k (by rw [hf2.1]; exact hk) hk⟩
  obtain ⟨F1, F2, F3, F4, -⟩ := (feasible_iff_partial hb2 hne
    (by rw [hpar]; dsimp only; omega) (fun p hp => (hc p hp).2)
    (fun i h => by
      rw [hfl.numberOfItemTypes] at h
      rw [(hfl.items i h).copies]; exact (hi i h).1) hRf hcapf).mp hfeas
  have hne' : s'.bins ≠ [] := by
    intro e
    rw [e] at h3
    cases h4 : s.bins with
    | nil => exact hne h4
    | cons x l => rw [h4] at h3; cases h3
  refine ⟨s', h1, (feasible_iff_partial h2 hne' (by omega) ?_ (fun i h => (hi i h).1) hRa hcapa).mpr
    ⟨?_, ?_, ?_, ?_, hcb _⟩⟩
  · intro p hp
    obtain ⟨b', hb', rfl⟩ := List.mem_map.mp hp
    obtain ⟨b, hbm, htw, -⟩ := hfrom b' hb'
    show 0 ≤ b'.copies
    rw [htw.copies]
    exact (hc _ (List.mem_map_of_mem hbm)).2
  · intro b' hb'
    obtain ⟨b, hbm, htw, -⟩ := hfrom b' hb'
    refine htw.stagesOk hfl hb2 h2 hbm hb' hst ?_
    have := F1 b hbm
    rw [hpar] at this
    exact this
  · intro p hp
    obtain ⟨b', hb', rfl⟩ := List.mem_map.mp hp
    obtain ⟨b, hbm, htw, hcut⟩ := hfrom b' hb'
    obtain ⟨w1, w2, w3, w4, w5, w6, w7, w8⟩ := F2 _ (List.mem_map_of_mem hbm)
    have ho : b.firstCutOrientation = .vertical := hv _ (List.mem_map_of_mem hbm)
    rw [hpar] at w2 w3
    have hlt := htw.type_lt
    rw [hfl.numberOfBinTypes] at hlt
    refine ⟨htw.wasteOk hfl w1, htw.distancesOk ho (d := 1) (by omega) w2,
      htw.distancesOk ho (d := 2) (by omega) w3,
      htw.number1Ok hfl ho w4, htw.number2Ok hfl ho w5, htw.defectsOk hfl w6,
      htw.cutThroughOk hfl w7, ?_⟩
    have e1 : (plateOf b').binTypeId = b.binTypeId := htw.type_eq
    have e2 : (plateOf b').items = itemsOf b.nodes := htw.twin.items hcut
    rw [e1, e2]
    exact resourcesOk_flip hfl hlt w8
  · exact hT.stacksOk hfl F3
  · intro i h
    have e := hT.itemCopies i
    obtain ⟨c1, c2⟩ := F4 i (by rw [hfl.numberOfItemTypes]; exact h)
    rw [(hfl.items i h).copies] at c2
    show (a.itemType i).copiesMin ≤ itemCopies (s'.bins.map plateOf) i ∧ _
    have c1 : (f.itemType i).copiesMin ≤ itemCopies (s.bins.map plateOf) i := c1
    have c2 : itemCopies (s.bins.map plateOf) i ≤ (a.itemType i).copies := c2
    have := (hi i h).2
    refine ⟨by omega, ?_⟩
    show itemCopies (s'.bins.map plateOf) i ≤ _
    omega

/-- **C112**: flipping, solving and translating back: a feasible solution found for the flipped
instance of an instance built by calls is translated back into a feasible solution of the
instance.  Missing: the minimum numbers of copies of a knapsack and the callback. -/
theorem flip_unflip_partial {o0 : Objective} {ops0 : List BuilderOp}
    (ha : runOps o0 ops0 = .ok a) (hflip : Flipper.flip o a = .ok f)
    (hk : ∀ k < a.numberOfBinTypes, 0 < (a.binType k).cost)
    (hi : ∀ i < a.numberOfItemTypes, 0 ≤ (a.itemType i).copies
      ∧ (a.objective = .knapsack → (a.itemType i).copiesMin ≤ 0))
    (hcc : a.objective = .binPackingCuttingCost → a.parameters.cuttingCosts ≠ [])
    (hct : 0 ≤ a.parameters.cutThickness) (hst : 1 ≤ a.parameters.numberOfStages)
    (hcap : CapacitiesNonneg a) (hcb : ∀ bins, a.callback bins = true)
    (hrun : (SolutionBuilder.new f).runOrThrow f ops = .ok sb)
    (hb : sb.build f = .ok s) (hv : ∀ p ∈ plates s, p.orientation = .vertical)
    (hc : ∀ p ∈ plates s, CutItems p.nodes ∧ 0 ≤ p.copies)
    (hne : s.bins ≠ []) (hfeas : s.feasible = true) :
    ∃ s', Flipper.unflipSolution a s = .ok s' ∧ s'.feasible = true := by
  have hS := instance_sizes_partial ha
  have hfl : FlippedOf a f := flip_instance_partial (fun k hk' => ⟨hk k hk', fun e => by
    rcases (hS.bins _ (getD_mem _ hk')).2 with h | h
    · have : 0 < (a.binType k).copies := h
      omega
    · have h : (a.binType k).copies = a.numberOfItems := h
      rw [e, (instance_aggregates ha).numberOfItems] at h
      have : 0 ≤ (a.itemTypes.map (·.copies)).sum := by
        apply List.sum_nonneg
        intro x hx
        obtain ⟨t, ht, rfl⟩ := List.mem_map.mp hx
        obtain ⟨i, hil, rfl⟩ := List.getElem_of_mem ht
        have := (hi i hil).1
        unfold Instance.itemType at this
        rwa [List.getD_eq_getElem _ _ hil] at this
      omega⟩)
    (fun i h => (hi i h).1) (instance_stack_table_partial ha fun i h => (hi i h).1) hflip
  refine unflip_feasible_partial hfl (by rw [hfl.parameters]; exact hct)
    (instance_tables_partial ha (fun i h => (hi i h).1) hcc) hrun hb hv hc hst (fun i h => ⟨(hi i h).1, ?_⟩)
    (instance_aggregates ha).resourceIds hcap (flip_aggregates hk hflip).resourceIds
    (flip_capacities hfl hcap) hcb hne hfeas
  rw [(flip_minimum hk hflip).1 i h]
  split
  · rename_i e; exact (hi i h).2 e
  · exact (hS.items _ (getD_mem _ h)).2.2

end

/-! ### Non-vacuity and counterexamples -/

namespace FlipEx

open PackingSolver.OneDim.Examples (okD)

/-- The solution built by calls that all succeed. -/
def solve (inst : Instance) (ops : List Op) : Except Err Solution :=
  (SolutionBuilder.new inst).runOrThrow inst ops >>= fun sb => sb.build inst

/-- Plates of 60 × 100 with a hard bottom trim, a defect and a resource; a stack of two item
types. -/
def calls : List BuilderOp :=
  [.setObjective .variableSizedBinPacking, .setNumberOfStages 3, .setCutType .nonExact,
   .addBinType 60 100, .setBinTypeCost 0 7, .setBinTypeCopies 0 2,
   .addTrims 0 ⟨0, .soft, 0, .soft, 10, .hard, 0, .soft⟩,
   .addDefect 0 50 85 2 3, .addBinTypeResource 0 5 false 0,
   .addItemType 20 30 false 0, .setItemTypeCopies 0 2, .setItemTypeProfit 0 5,
   .addItemType 35 40 true 0, .setItemTypeCopies 1 1,
   .addResourceConsumption 0 0 0 0 1, .addResourceConsumption 0 0 0 1 1,
   .addResourceConsumption 0 0 1 0 2]

def orig : Instance := okD (new .default).inst (runOps .default calls)

def flipped : Instance := okD (new .default).inst (Flipper.flip .default orig)

/-- Two strips, with two items in the first one. -/
def strips : List Op :=
  [.addBin 0 1 .vertical, .addNode 1 40, .addNode 2 20, .setItem 0, .addNode 2 40, .setItem 0,
   .addNode 1 80, .addNode 2 35, .setItem 1]

def sol : Solution := okD {} (solve flipped strips)

theorem ok_okD {α : Type} {d : α} {r : Except Err α}
    (h : (match r with | .ok _ => true | .error _ => false) = true) : r = .ok (okD d r) := by
  cases r with
  | ok x => rfl
  | error e => cases h

theorem built : runOps .default calls = .ok orig := ok_okD (by decide +kernel)

theorem flips : Flipper.flip .default orig = .ok flipped := ok_okD (by decide +kernel)

/-- The hypotheses of the theorems above are met. -/
example : runOps .default calls = .ok orig ∧ Flipper.flip .default orig = .ok flipped
    ∧ (∀ k < orig.numberOfBinTypes, 0 < (orig.binType k).cost ∧ (orig.binType k).copies ≠ -1)
    ∧ (∀ i < orig.numberOfItemTypes, 0 ≤ (orig.itemType i).copies
      ∧ (orig.objective = .knapsack → (orig.itemType i).copiesMin ≤ 0))
    ∧ (0 ≤ orig.parameters.cutThickness ∧ 1 ≤ orig.parameters.numberOfStages)
    ∧ CapacitiesNonneg orig
    ∧ solve flipped strips = .ok sol
    ∧ (∀ p ∈ plates sol, p.orientation = .vertical ∧ CutItems p.nodes ∧ 0 ≤ p.copies)
    ∧ sol.bins ≠ [] ∧ sol.feasible = true ∧ sol.numberOfItems = 3 := by
  refine ⟨built, flips, by decide +kernel, by decide +kernel,
    by decide +kernel, by unfold CapacitiesNonneg; decide +kernel, ok_okD (by decide +kernel),
    by unfold CutItems; decide +kernel, by decide +kernel, by decide +kernel, by decide +kernel⟩

/-- The pieces of a solution, as tuples. -/
def shown (s : Solution) : List (List (Int × (Int × Int) × (Int × Int) × Int)) :=
  s.bins.map fun b => (cutPieces b.nodes).map fun x =>
    (x.1, (x.2.1.l, x.2.1.r), (x.2.1.b, x.2.1.t), x.2.2)

/-- The pieces of the solution and of the solution translated back. -/
example : shown sol = [[(1, (10, 40), (0, 60), -2), (2, (10, 40), (0, 20), 0),
      (2, (10, 40), (20, 40), 0), (2, (10, 40), (40, 60), -1), (1, (40, 80), (0, 60), -2),
      (2, (40, 80), (0, 35), 1), (2, (40, 80), (35, 60), -1), (1, (80, 100), (0, 60), -3)]]
    ∧ shown (okD {} (Flipper.unflipSolution orig sol)) = [[(1, (0, 60), (10, 40), -2),
      (2, (0, 20), (10, 40), 0), (2, (20, 40), (10, 40), 0), (2, (40, 60), (10, 40), -1),
      (1, (0, 60), (40, 80), -2), (2, (0, 35), (40, 80), 1), (2, (35, 60), (40, 80), -1),
      (1, (0, 60), (80, 100), -3)]] := by
  exact ⟨rfl, rfl⟩

/-- **C111**/**C112**: the minimum number of copies is lost for a knapsack: a feasible solution of
the flipped instance is translated back into one that is not. -/
theorem unflip_minimum_lost : ∃ (a f : Instance) (calls : List BuilderOp) (ops : List Op)
    (s s' : Solution), runOps .default calls = .ok a ∧ Flipper.flip .default a = .ok f
    ∧ solve f ops = .ok s ∧ s.feasible = true
    ∧ Flipper.unflipSolution a s = .ok s' ∧ s'.feasible = false
    ∧ (∀ bins, a.callback bins = true) := by
  let calls : List BuilderOp := [.setObjective .knapsack, .setNumberOfStages 2,
    .addBinType 60 100, .addItemType 20 30 false (-1), .addItemType 10 40 true (-1),
    .setItemTypeCopiesMin 1 1]
  let a := okD (new .default).inst (runOps .default calls)
  let f := okD (new .default).inst (Flipper.flip .default a)
  let ops : List Op := [.addBin 0 1 .vertical, .addNode 1 30, .addNode 2 20, .setItem 0]
  let s := okD {} (solve f ops)
  let s' := okD {} (Flipper.unflipSolution a s)
  exact ⟨a, f, calls, ops, s, s', ok_okD (by decide +kernel), ok_okD (by decide +kernel),
    ok_okD (by decide +kernel), by decide +kernel, ok_okD (by decide +kernel), by decide +kernel,
    fun _ => rfl⟩

/-- **C111**/**C112**: so is the callback. -/
theorem unflip_callback_lost : ∃ (a f : Instance) (calls : List BuilderOp) (ops : List Op)
    (s s' : Solution), runOps .default calls = .ok a ∧ Flipper.flip .default a = .ok f
    ∧ solve f ops = .ok s ∧ s.feasible = true
    ∧ Flipper.unflipSolution a s = .ok s' ∧ s'.feasible = false
    ∧ (∀ i < a.numberOfItemTypes, (a.itemType i).copiesMin ≤ 0) := by
  let calls : List BuilderOp := [.setObjective .knapsack, .setNumberOfStages 2,
    .setCallback (fun _ => false), .addBinType 60 100, .addItemType 20 30 false (-1)]
  let a := okD (new .default).inst (runOps .default calls)
  let f := okD (new .default).inst (Flipper.flip .default a)
  let ops : List Op := [.addBin 0 1 .vertical, .addNode 1 30, .addNode 2 20, .setItem 0]
  let s := okD {} (solve f ops)
  let s' := okD {} (Flipper.unflipSolution a s)
  exact ⟨a, f, calls, ops, s, s', ok_okD (by decide +kernel), ok_okD (by decide +kernel),
    ok_okD (by decide +kernel), by decide +kernel, ok_okD (by decide +kernel), by decide +kernel,
    by decide +kernel⟩

/-- **C112**: an item set on the whole bin is lost. -/
theorem unflip_whole_bin_lost : ∃ (a f : Instance) (calls : List BuilderOp) (ops : List Op)
    (s s' : Solution), runOps .default calls = .ok a ∧ Flipper.flip .default a = .ok f
    ∧ solve f ops = .ok s ∧ s.feasible = true ∧ s.numberOfItems = 1
    ∧ Flipper.unflipSolution a s = .ok s' ∧ s'.numberOfItems = 0 := by
  let calls : List BuilderOp := [.setObjective .knapsack, .setNumberOfStages 2, .addBinType 60 100,
    .addTrims 0 ⟨0, .soft, 0, .soft, 10, .hard, 0, .soft⟩, .addItemType 60 90 false (-1)]
  let a := okD (new .default).inst (runOps .default calls)
  let f := okD (new .default).inst (Flipper.flip .default a)
  let ops : List Op := [.addBin 0 1 .vertical, .setItem 0]
  let s := okD {} (solve f ops)
  let s' := okD {} (Flipper.unflipSolution a s)
  exact ⟨a, f, calls, ops, s, s', ok_okD (by decide +kernel), ok_okD (by decide +kernel),
    ok_okD (by decide +kernel), by decide +kernel, by decide +kernel, ok_okD (by decide +kernel),
    by decide +kernel⟩

end FlipEx

end PackingSolver.Guil
