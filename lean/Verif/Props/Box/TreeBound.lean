import Verif.Lemmas.Box.TreeDominance

/-!
# Box tree search: ranking, pruning and dominance of nodes (C99, C100)
-/

namespace PackingSolver.Box.TreeSearch

open Box.Spec FlipLemmas

variable {o o' : Objective} {ops : List InstanceBuilder.Op} {inst : Instance} {params : Parameters}
  {s : Scheme} {n n1 n2 m : Node}

/-- The packing a node is exported to. -/
theorem exported_pack (hc : Ctx s) (hn : Reached s n) {sol : Solution}
    (h : toSolution s n = .ok sol) : Reachable s.inst sol ∧ packingOf sol = pack s n := by
  obtain ⟨sol', h1, h2, h3, -⟩ := toSolution_ok hc (inv_reached hc hn)
  rw [h1] at h
  cases h
  exact ⟨h2, h3⟩

/-! ## C99: the ranking of nodes and what pruning drops -/

/-- A search prefers a node to another one exactly when the solution of the first has a better
objective value (bin packing, variable-sized bin packing with positive costs, open dimension X and Y
in the direction the driver chooses, knapsack and feasibility); under the packing objectives a
solution with all items is preferred to one without, and two solutions without all items are not
ranked.  Missing: bin packing with leftovers (see `better_leftovers_partial` and
`leftovers_dropped`), and open dimension Z, for which comparing throws. -/
theorem better_iff_partial (hb : InstanceBuilder.runOps o ops = .ok inst)
    (hs : Scheme.new o' inst params = .ok s)
    (hc : CapacitiesNonneg inst) (hd : CopiesDefinite inst)
    (ho : RanksObjective params.direction inst.objective)
    (hnn : inst.objective = .knapsack ∨ inst.objective = .feasibility →
      ConsumptionsNonneg inst ∧ params.direction = .x ∨ NoResources inst)
    (hcost : inst.objective = .variableSizedBinPacking → ∀ b ∈ inst.binTypes, 0 < b.cost)
    (h1 : Reached s n1) (h2 : Reached s n2) {sol1 sol2 : Solution}
    (e1 : toSolution s n1 = .ok sol1) (e2 : toSolution s n2 = .ok sol2) :
    ∃ r, better s n1 n2 = .ok r ∧ (r = true ↔
      if inst.objective = .knapsack ∨ inst.objective = .feasibility then
        Better inst (packingOf sol2) (packingOf sol1)
      else AllPacked inst (packingOf sol1) ∧ (¬ AllPacked inst (packingOf sol2)
        ∨ Better inst (packingOf sol2) (packingOf sol1))) := by
  have hx := ctx_of_new hb hs hc hd
  obtain ⟨-, -, e, ep, -⟩ := new_fields hs
  subst e ep
  rw [(exported_pack hx h1 e1).2, (exported_pack hx h2 e2).2]
  have l1 : AllPacked s.inst (pack s n1) ↔ leaf s n1 = true := (leaf_iff hx (inv_reached hx h1)).symm
  have l2 : AllPacked s.inst (pack s n2) ↔ leaf s n2 = true := (leaf_iff hx (inv_reached hx h2)).symm
  rw [l1, l2]
  have b1 : Spec.numberOfBins (pack s n1) = n1.numberOfBins := numberOfBins_packing _ _
  have b2 : Spec.numberOfBins (pack s n2) = n2.numberOfBins := numberOfBins_packing _ _
  have p1 := fun h => rank_profit hx h1 (hnn h)
  have p2 := fun h => rank_profit hx h2 (hnn h)
  have c12 := fun h => rank_cost hx h1 h2 (hcost h)
  unfold better Better
  generalize hobj : s.inst.objective = obj at ho p1 p2 c12 ⊢
  cases obj <;> simp only [RanksObjective] at ho
  case binPacking =>
    refine ⟨_, rfl, ?_⟩
    cases leaf s n1 <;> cases leaf s n2 <;> simp [b1, b2]
  case openDimensionX =>
    have r1 := rank_x hx h1 ho
    have r2 := rank_x hx h2 ho
    refine ⟨_, rfl, ?_⟩
    cases leaf s n1 <;> cases leaf s n2 <;> simp [r1, r2]
  case openDimensionY =>
    have r1 := rank_y hx h1 ho
    have r2 := rank_y hx h2 ho
    refine ⟨_, rfl, ?_⟩
    cases leaf s n1 <;> cases leaf s n2 <;> simp [r1, r2]
  case knapsack => exact ⟨_, rfl, by simp [p1 (by simp), p2 (by simp)]⟩
  case feasibility => exact ⟨_, rfl, by simp [p1 (by simp), p2 (by simp)]⟩
  case variableSizedBinPacking =>
    refine ⟨_, rfl, ?_⟩
    cases leaf s n1 <;> cases leaf s n2 <;> simp [c12 rfl]

/-- The directions `tree_search` chooses suit the open dimension objectives. -/
theorem directions_rank (inst : Instance) (h : inst.objective ≠ .openDimensionZ)
    (ho : Ordered inst.objective) (hl : inst.objective ≠ .binPackingWithLeftovers) :
    ∀ d ∈ directions inst, RanksObjective d inst.objective := by
  intro d hd
  unfold directions at hd
  revert hd h ho hl
  cases inst.objective <;> simp [Ordered, RanksObjective]

/-- Bin packing with leftovers, when some item has a side of length 1 along each of the two axes that
are not the one in which bins are filled: of two nodes with all items, the one with fewer bins is
preferred.  Missing: nodes with the same number of bins, which are ranked by their waste and not by
the leftover (`leftovers_dropped`). -/
theorem better_leftovers_partial (hb : InstanceBuilder.runOps o ops = .ok inst)
    (hs : Scheme.new o' inst params = .ok s)
    (hc : CapacitiesNonneg inst) (hd : CopiesDefinite inst) (hsl : Slim inst params.direction)
    (ho : inst.objective = .binPackingWithLeftovers)
    (h1 : Reached s n1) (h2 : Reached s n2) {sol1 sol2 : Solution}
    (e1 : toSolution s n1 = .ok sol1) (e2 : toSolution s n2 = .ok sol2)
    (a1 : AllPacked inst (packingOf sol1)) :
    (¬ AllPacked inst (packingOf sol2)
      ∨ Spec.numberOfBins (packingOf sol1) < Spec.numberOfBins (packingOf sol2)) →
    better s n1 n2 = .ok true := by
  have hx := ctx_of_new hb hs hc hd
  obtain ⟨-, -, e, ep, -⟩ := new_fields hs
  subst e ep
  rw [(exported_pack hx h1 e1).2] at a1 ⊢
  rw [(exported_pack hx h2 e2).2]
  have l1 : leaf s n1 = true := (leaf_iff hx (inv_reached hx h1)).mpr a1
  have l2 : AllPacked s.inst (pack s n2) ↔ leaf s n2 = true := (leaf_iff hx (inv_reached hx h2)).symm
  rw [l2]
  have b1 : Spec.numberOfBins (pack s n1) = n1.numberOfBins := numberOfBins_packing _ _
  have b2 : Spec.numberOfBins (pack s n2) = n2.numberOfBins := numberOfBins_packing _ _
  rw [b1, b2]
  intro h
  unfold better
  rw [ho]
  dsimp only
  rw [l1]
  cases hl2 : leaf s n2
  · rfl
  · rw [hl2] at h
    have hlt : n1.numberOfBins < n2.numberOfBins := by
      rcases h with h | h
      · exact absurd rfl h
      · exact_mod_cast h
    have h3 := closedVolume_lt hx h1 h2 hlt
    rw [closedVolume_leaf hx hsl h1 l1, closedVolume_leaf hx hsl h2 hl2] at h3
    have : n1.waste < n2.waste := by omega
    simp [this]

theorem bound_binPacking (hx : Ctx s) (hsl : Slim s.inst s.parameters.direction)
    (ho : s.inst.objective = .binPacking ∨ s.inst.objective = .variableSizedBinPacking)
    (h1 : Reached s n1) (hd : Descends s n1 m)
    (hb : bound s n1 n2 = .ok true) (hl : leaf s m = true) :
    leaf s n2 = true ∧ n2.numberOfBins ≤ m.numberOfBins := by
  have hm := descends_reached h1 hd
  have hw := le_trans (waste_bound hx hsl h1 hd hl) (closedVolume_le hx (inv_reached hx hm))
  obtain ⟨r, hr, hrle⟩ := binsForVolume_le _ _ 0 m.numberOfBins hw
  have key : (if !leaf s n2 then false
      else match binsForVolume (s.binTypeIds.map fun b => (s.inst.binType b).volume)
          (s.inst.itemVolume + n1.waste) 0 with
        | none => true
        | some k => decide (k ≥ n2.numberOfBins)) = true := by
    unfold bound at hb
    rcases ho with e | e <;> rw [e] at hb <;> exact Except.ok.inj hb
  rw [hr] at key
  cases hl2 : leaf s n2
  · rw [hl2] at key; simp at key
  · rw [hl2] at key
    have : r ≥ n2.numberOfBins := by simpa using key
    exact ⟨rfl, by omega⟩

/-- A node dropped because of a known solution leads to no solution with all items that uses fewer
bins (`BinPacking`, and by the order of the bins to no cheaper one for `VariableSizedBinPacking`),
when some item has a side of length 1 along each of the two axes that are not the one in which bins
are filled.  Missing: thicker items, for which the space that the smallest item cannot use is counted
as waste although another item may still be placed there (see `optimum_dropped`). -/
theorem bound_binPacking_partial (hb : InstanceBuilder.runOps o ops = .ok inst)
    (hs : Scheme.new o' inst params = .ok s)
    (hc : CapacitiesNonneg inst) (hd : CopiesDefinite inst) (hsl : Slim inst params.direction)
    (ho : inst.objective = .binPacking ∨ inst.objective = .variableSizedBinPacking)
    (h1 : Reached s n1) (h2 : Reached s n2) (hm : Descends s n1 m)
    (hbd : bound s n1 n2 = .ok true) {sol2 solm : Solution}
    (e2 : toSolution s n2 = .ok sol2) (em : toSolution s m = .ok solm)
    (ha : AllPacked inst (packingOf solm)) :
    AllPacked inst (packingOf sol2)
      ∧ Spec.numberOfBins (packingOf sol2) ≤ Spec.numberOfBins (packingOf solm)
      ∧ ((∀ b ∈ inst.binTypes, 0 < b.cost) →
        cost inst (packingOf sol2) ≤ cost inst (packingOf solm)) := by
  have hx := ctx_of_new hb hs hc hd
  obtain ⟨-, -, e, ep, -⟩ := new_fields hs
  subst e ep
  have hm' := descends_reached h1 hm
  rw [(exported_pack hx hm' em).2] at ha ⊢
  rw [(exported_pack hx h2 e2).2]
  have hl := (leaf_iff hx (inv_reached hx hm')).mpr ha
  obtain ⟨q1, q2⟩ := bound_binPacking hx hsl ho h1 hm hbd hl
  refine ⟨(leaf_iff hx (inv_reached hx h2)).mp q1, ?_, fun hpos => ?_⟩
  · have b1 : Spec.numberOfBins (pack s n2) = n2.numberOfBins := numberOfBins_packing _ _
    have b2 : Spec.numberOfBins (pack s m) = m.numberOfBins := numberOfBins_packing _ _
    rw [b1, b2]
    exact_mod_cast q2
  · by_contra hlt
    have := (rank_cost hx hm' h2 hpos).mp (not_le.mp hlt)
    omega

/-- A node dropped because of a known solution leads to no solution with all items of smaller
extent along x (`OpenDimensionX`), when some item has a side of length 1 along y and some along z.
Missing: thicker items, and `OpenDimensionY` (see `openDimensionY_dropped`). -/
theorem bound_openDimensionX_partial (hb : InstanceBuilder.runOps o ops = .ok inst)
    (hs : Scheme.new o' inst params = .ok s)
    (hc : CapacitiesNonneg inst) (hd : CopiesDefinite inst) (hsl : Slim inst params.direction)
    (hdir : params.direction = .x) (ho : inst.objective = .openDimensionX)
    (h1 : Reached s n1) (h2 : Reached s n2) (hm : Descends s n1 m)
    (hbd : bound s n1 n2 = .ok true) {sol2 solm : Solution}
    (e2 : toSolution s n2 = .ok sol2) (em : toSolution s m = .ok solm)
    (ha : AllPacked inst (packingOf solm)) :
    AllPacked inst (packingOf sol2)
      ∧ usedX inst (packingOf sol2) ≤ usedX inst (packingOf solm) := by
  have hx := ctx_of_new hb hs hc hd
  obtain ⟨-, -, e, ep, -⟩ := new_fields hs
  subst e ep
  have hm' := descends_reached h1 hm
  rw [(exported_pack hx hm' em).2] at ha ⊢
  rw [(exported_pack hx h2 e2).2]
  have hl := (leaf_iff hx (inv_reached hx hm')).mpr ha
  rw [← rank_x hx h2 hdir, ← rank_x hx hm' hdir]
  have hvm := inv_reached hx hm'
  have hv1 := inv_reached hx h1
  have hg := grows_descends hx h1 hm
  have hids := openDimension_ids hx (Or.inl ho)
  have hlen : s.binTypeIds.length = 1 := by rw [hids]; rfl
  have hb1 := hv1.binsLe
  have hbm := hvm.binsLe
  have hgb := hg.bins
  have hxm : 0 ≤ m.xeMax := by
    by_cases h0 : m.numberOfBins = 0
    · rw [reached_zero hm' h0]; exact le_refl _
    · exact (hvm.cur (by omega)).xeMax.2.1
  have hx1 : n1.xeMax ≤ m.xeMax := by
    by_cases h0 : n1.numberOfBins = 0
    · rw [reached_zero h1 h0]; exact hxm
    · exact (hg.same (by omega) (by omega)).2
  have hid0 : s.binTypeIds.getD 0 0 = 0 := by rw [hids]; rfl
  have hyz : 0 ≤ (s.inst.binType 0).box.y * (s.inst.binType 0).box.z := by
    have h0 := hx.id_lt (k := 0) (by omega)
    rw [hid0] at h0
    have := (hx.frame (d := .x) (by simp)).binPos _ h0
    exact le_of_lt (mul_pos this.2.1 this.2.2)
  have hpre : s.previousBinsVolume.getD 0 0 = 0 := by
    rw [hx.prev_eq (by omega)]; rfl
  have hw := waste_bound hx hsl h1 hm hl
  have hcl : closedVolume s m ≤ m.xeMax * ((s.inst.binType 0).box.y * (s.inst.binType 0).box.z) := by
    unfold closedVolume
    by_cases h0 : m.numberOfBins = 0
    · rw [if_pos h0]; exact mul_nonneg hxm hyz
    · rw [if_neg h0]
      obtain ⟨q, -⟩ := bin_face_le hx hvm (by omega)
      rw [show m.numberOfBins - 1 = 0 by omega, hid0,
        last_direction hvm h0 (by rw [hdir]; simp), hdir] at q
      rw [show m.numberOfBins - 1 = 0 by omega, hpre]
      have : (s.instanceOf .x) = s.inst := rfl
      rw [this] at q
      omega
  unfold bound at hbd
  rw [ho] at hbd
  have key := Except.ok.inj hbd
  cases hl2 : leaf s n2
  · rw [hl2] at key; simp at key
  · rw [hl2] at key
    refine ⟨(leaf_iff hx (inv_reached hx h2)).mp hl2, ?_⟩
    generalize (s.inst.binType 0).box.y * (s.inst.binType 0).box.z = A at key hyz hcl
    have key : n2.xeMax ≤ max n1.xeMax ((n1.waste + s.inst.itemVolume - 1).tdiv (A + 1)) := by
      simpa using key
    refine le_trans key (max_le hx1 ?_)
    have hlt : (n1.waste + s.inst.itemVolume - 1) ≤ m.xeMax * (A + 1) := by
      rw [mul_add, mul_one]; omega
    have hmono := Int.tdiv_le_tdiv (c := A + 1) (by omega) hlt
    rwa [Int.mul_tdiv_cancel _ (by omega)] at hmono

/-- A node dropped because of a known solution leads to no solution with all items that uses fewer
bins (`BinPackingWithLeftovers`), when some item has a side of length 1 along each of the two axes
that are not the one in which bins are filled.  Missing: a larger leftover with as many bins
(`leftovers_dropped`). -/
theorem bound_leftovers_partial (hb : InstanceBuilder.runOps o ops = .ok inst)
    (hs : Scheme.new o' inst params = .ok s)
    (hc : CapacitiesNonneg inst) (hd : CopiesDefinite inst) (hsl : Slim inst params.direction)
    (ho : inst.objective = .binPackingWithLeftovers)
    (h1 : Reached s n1) (h2 : Reached s n2) (hm : Descends s n1 m)
    (hbd : bound s n1 n2 = .ok true) {sol2 solm : Solution}
    (e2 : toSolution s n2 = .ok sol2) (em : toSolution s m = .ok solm)
    (ha : AllPacked inst (packingOf solm)) :
    AllPacked inst (packingOf sol2)
      ∧ Spec.numberOfBins (packingOf sol2) ≤ Spec.numberOfBins (packingOf solm) := by
  have hx := ctx_of_new hb hs hc hd
  obtain ⟨-, -, e, ep, -⟩ := new_fields hs
  subst e ep
  have hm' := descends_reached h1 hm
  rw [(exported_pack hx hm' em).2] at ha ⊢
  rw [(exported_pack hx h2 e2).2]
  have hl := (leaf_iff hx (inv_reached hx hm')).mpr ha
  unfold bound at hbd
  rw [ho] at hbd
  have key := Except.ok.inj hbd
  cases hl2 : leaf s n2
  · rw [hl2] at key; simp at key
  rw [hl2] at key
  have key : n2.waste ≤ n1.waste := by simpa using key
  refine ⟨(leaf_iff hx (inv_reached hx h2)).mp hl2, ?_⟩
  have b1 : Spec.numberOfBins (pack s n2) = n2.numberOfBins := numberOfBins_packing _ _
  have b2 : Spec.numberOfBins (pack s m) = m.numberOfBins := numberOfBins_packing _ _
  rw [b1, b2]
  by_contra hlt
  have hlt : m.numberOfBins < n2.numberOfBins := by
    have := not_le.mp hlt
    exact_mod_cast this
  have h3 := closedVolume_lt hx hm' h2 hlt
  have h4 := waste_bound hx hsl h1 hm hl
  rw [closedVolume_leaf hx hsl h2 hl2] at h3
  omega

/-- A node dropped because of a known solution leads to no solution with a higher profit
(`Knapsack`, `Feasibility`), when no profit is negative and no resource is penalized. -/
theorem bound_knapsack_partial (hb : InstanceBuilder.runOps o ops = .ok inst)
    (hs : Scheme.new o' inst params = .ok s)
    (hc : CapacitiesNonneg inst) (hd : CopiesDefinite inst)
    (ho : inst.objective = .knapsack ∨ inst.objective = .feasibility)
    (hpos : ∀ t ∈ inst.itemTypes, 0 ≤ t.profit)
    (hpen : ∀ b ∈ inst.binTypes, ∀ r ∈ b.resources, r.penalize = false)
    (h1 : Reached s n1) (h2 : Reached s n2) (hm : Descends s n1 m)
    (hbd : bound s n1 n2 = .ok true) {sol2 solm : Solution}
    (e2 : toSolution s n2 = .ok sol2) (em : toSolution s m = .ok solm) :
    AllPacked inst (packingOf sol2)
      ∧ reportedProfit inst (packingOf solm) ≤ reportedProfit inst (packingOf sol2) := by
  have hx := ctx_of_new hb hs hc hd
  obtain ⟨-, -, e, ep, -⟩ := new_fields hs
  subst e ep
  have hm' := descends_reached h1 hm
  rw [(exported_pack hx hm' em).2, (exported_pack hx h2 e2).2]
  have hl : leaf s n2 = true := by
    unfold bound at hbd
    rcases ho with e | e <;> rw [e] at hbd <;> exact Except.ok.inj hbd
  exact ⟨(leaf_iff hx (inv_reached hx h2)).mp hl, leaf_profit hx h2 hm' hl hpen hpos⟩

/-! ## C100: the dominance test -/

/-- When some item has a side of length 1 along each of the two axes that are not the one in which
bins are filled: a node dominates another one, whose last bin was opened in the same direction,
exactly when its solution uses fewer bins, or as many and on no line along that direction its last bin
is blocked further than the one of the other.  Missing: thicker items, for which a space that the
smallest item cannot use counts as blocked. -/
theorem dominates_iff_partial (hb : InstanceBuilder.runOps o ops = .ok inst)
    (hs : Scheme.new o' inst params = .ok s)
    (hc : CapacitiesNonneg inst) (hd : CopiesDefinite inst) (hsl : Slim inst params.direction)
    (h1 : Reached s n1) (h2 : Reached s n2) (h0 : n1.numberOfBins ≠ 0)
    (hdir : n1.lastBinDirection = n2.lastBinDirection) {sol1 sol2 : Solution}
    (e1 : toSolution s n1 = .ok sol1) (e2 : toSolution s n2 = .ok sol2) :
    dominates n1 n2 = true ↔
      Spec.numberOfBins (packingOf sol1) < Spec.numberOfBins (packingOf sol2)
      ∨ Spec.numberOfBins (packingOf sol1) = Spec.numberOfBins (packingOf sol2)
        ∧ ∀ c, blockedUpTo inst n1.lastBinDirection (lastItems (packingOf sol1)) c
          ≤ blockedUpTo inst n1.lastBinDirection (lastItems (packingOf sol2)) c := by
  have hx := ctx_of_new hb hs hc hd
  obtain ⟨-, -, e, ep, -⟩ := new_fields hs
  subst e ep
  rw [(exported_pack hx h1 e1).2, (exported_pack hx h2 e2).2]
  have b1 : Spec.numberOfBins (pack s n1) = n1.numberOfBins := numberOfBins_packing _ _
  have b2 : Spec.numberOfBins (pack s n2) = n2.numberOfBins := numberOfBins_packing _ _
  rw [b1, b2]
  unfold dominates
  by_cases q1 : n1.numberOfBins < n2.numberOfBins
  · rw [if_pos q1]; simp [q1]
  rw [if_neg q1]
  by_cases q2 : n1.numberOfBins > n2.numberOfBins
  · rw [if_pos q2]
    constructor
    · intro h; cases h
    · rintro (h | ⟨h, -⟩) <;> omega
  rw [if_neg q2]
  have e : n1.numberOfBins = n2.numberOfBins := by omega
  have hv1 := inv_reached hx h1
  have hv2 := inv_reached hx h2
  have t1 := (hv1.cur (by omega)).face.tiles
  have t2 := (hv2.cur (by omega)).face.tiles
  rw [← hdir, ← e] at t2
  have p1 := (bnd_reached hx hsl h1 (by omega)).plain
  have p2 := (bnd_reached hx hsl h2 (by omega)).plain
  have hall : (n1.uncoveredItems.all fun u => n2.uncoveredItems.all fun v =>
      decide (u.ys ≥ v.ye) || decide (u.ye ≤ v.ys) || decide (u.zs ≥ v.ze) || decide (u.ze ≤ v.zs)
        || !decide (u.xDominance > v.xDominance)) = true ↔
      ∀ u ∈ n1.uncoveredItems, ∀ v ∈ n2.uncoveredItems, CellsMeet u v → u.x ≤ v.x := by
    simp only [List.all_eq_true, Bool.or_eq_true, decide_eq_true_eq, Bool.not_eq_true',
      decide_eq_false_iff_not]
    constructor
    · intro h u hu v hv hm
      have := h u hu v hv
      rw [p1 u hu, p2 v hv] at this
      unfold CellsMeet at hm
      omega
    · intro h u hu v hv
      have := h u hu v hv
      rw [p1 u hu, p2 v hv]
      unfold CellsMeet at this
      omega
  rw [hall]
  constructor
  · intro h
    refine .inr ⟨by rw [e], fun c => ?_⟩
    by_cases hc' : InRect 0 ((s.instanceOf n1.lastBinDirection).binType
        (s.binTypeIds.getD (n1.numberOfBins - 1) 0)).box.y 0
        ((s.instanceOf n1.lastBinDirection).binType
        (s.binTypeIds.getD (n1.numberOfBins - 1) 0)).box.z c
    · obtain ⟨u, hu, cu⟩ := t1.exists hc'
      obtain ⟨v, hv, cv⟩ := t2.exists hc'
      have hle := h u hu v hv (by unfold CellsMeet; unfold Covers InRect at cu cv; omega)
      rw [node_blocked hx h1 (by omega) hu cu, node_blocked hx h2 (by omega) hv cv, ← hdir] at hle
      exact hle
    · rw [blocked_outside hx h1 (by omega) hc', hdir, blocked_outside hx h2 (by omega)
        (by rw [← hdir, ← e]; exact hc')]
  · rintro (h | ⟨-, h⟩)
    · omega
    · intro u hu v hv hm
      unfold CellsMeet at hm
      have m1 := t1.mem u hu
      have m2 := t2.mem v hv
      have cu : Covers u (max u.ys v.ys, max u.zs v.zs) := by
        refine ⟨?_, ?_, ?_, ?_⟩ <;> dsimp only <;> omega
      have cv : Covers v (max u.ys v.ys, max u.zs v.zs) := by
        refine ⟨?_, ?_, ?_, ?_⟩ <;> dsimp only <;> omega
      have := h (max u.ys v.ys, max u.zs v.zs)
      rw [node_blocked hx h1 (by omega) hu cu, node_blocked hx h2 (by omega) hv cv, ← hdir]
      exact this

end PackingSolver.Box.TreeSearch
