import Verif.Model.OneDim.Json
import Verif.Spec.OneDimJson
import Verif.Lemmas.OneDim.Copy
import Verif.Props.Names
import Verif.Props.OneDim.Certificate

/-! Helper lemmas: reading back a written instance file. -/

namespace PackingSolver.OneDim.JsonLemmas

open OneDim.Spec InstanceBuilder ResourceLemmas

/-! ### Forward versions of the setters on the last type -/

theorem modifyBin_last_eq {b : InstanceBuilder} {l : List BinType} {x y : BinType}
    {f : BinType → Except Err BinType} (h : f x = .ok y) :
    (withBinTypes b (l ++ [x])).modifyBin l.length f = .ok (withBinTypes b (l ++ [y])) := by
  unfold modifyBin
  rw [if_neg (by simp [withBinTypes])]
  have : (withBinTypes b (l ++ [x])).inst.binType l.length = x := by
    simp [withBinTypes, Instance.binType]
  rw [this, h]
  simp [withBinTypes]

theorem modifyItem_last_eq {b : InstanceBuilder} {l : List ItemType} {x y : ItemType}
    {f : ItemType → Except Err ItemType} (h : f x = .ok y) :
    (withItemTypes b (l ++ [x])).modifyItem l.length f = .ok (withItemTypes b (l ++ [y])) := by
  unfold modifyItem
  rw [if_neg (by simp [withItemTypes])]
  have : (withItemTypes b (l ++ [x])).inst.itemType l.length = x := by
    simp [withItemTypes, Instance.itemType]
  rw [this, h]
  simp [withItemTypes]

/-- Runs a list of calls that only affect the last bin type. -/
def RunsBin (b : InstanceBuilder) (l : List BinType) (ops : List Op) (x y : BinType) : Prop :=
  ops.foldlM step (withBinTypes b (l ++ [x])) = .ok (withBinTypes b (l ++ [y]))

theorem RunsBin.nil (b : InstanceBuilder) (l : List BinType) (x : BinType) :
    RunsBin b l [] x x := rfl

theorem RunsBin.append {b : InstanceBuilder} {l : List BinType} {ops ops' : List Op}
    {x y z : BinType} (h : RunsBin b l ops x y) (h' : RunsBin b l ops' y z) :
    RunsBin b l (ops ++ ops') x z := foldlM_append_ok h h'

theorem RunsBin.cons {b : InstanceBuilder} {l : List BinType} {op : Op} {ops : List Op}
    {x y z : BinType} (h : step (withBinTypes b (l ++ [x])) op = .ok (withBinTypes b (l ++ [y])))
    (h' : RunsBin b l ops y z) : RunsBin b l (op :: ops) x z :=
  foldlM_cons_ok.mpr ⟨_, h, h'⟩

/-- The same for item types. -/
def RunsItem (b : InstanceBuilder) (l : List ItemType) (ops : List Op) (x y : ItemType) : Prop :=
  ops.foldlM step (withItemTypes b (l ++ [x])) = .ok (withItemTypes b (l ++ [y]))

theorem RunsItem.nil (b : InstanceBuilder) (l : List ItemType) (x : ItemType) :
    RunsItem b l [] x x := rfl

theorem RunsItem.append {b : InstanceBuilder} {l : List ItemType} {ops ops' : List Op}
    {x y z : ItemType} (h : RunsItem b l ops x y) (h' : RunsItem b l ops' y z) :
    RunsItem b l (ops ++ ops') x z := foldlM_append_ok h h'

theorem RunsItem.cons {b : InstanceBuilder} {l : List ItemType} {op : Op} {ops : List Op}
    {x y z : ItemType}
    (h : step (withItemTypes b (l ++ [x])) op = .ok (withItemTypes b (l ++ [y])))
    (h' : RunsItem b l ops y z) : RunsItem b l (op :: ops) x z :=
  foldlM_cons_ok.mpr ⟨_, h, h'⟩

/-! ### Item types -/

/-- The item type obtained by reading. -/
def readItem (t : ItemType) : ItemType :=
  { copyItem t with copiesMin := t.copiesMin }

theorem readItem_runs (b : InstanceBuilder) (t : ItemType)
    (hc : 0 < t.copies ∨ t.copies = -1) (hm : -1 ≤ t.copiesMin) :
    (readItemType b.inst.itemTypes.length (writeItemType t)).foldlM step b
      = .ok (withItemTypes b (b.inst.itemTypes ++ [readItem t])) := by
  set l := b.inst.itemTypes with hl
  unfold readItemType writeItemType
  simp only [Option.map_some, Option.toList_some, List.cons_append,
    List.nil_append]
  refine foldlM_cons_ok.mpr ⟨withItemTypes b (l ++ [
      { length := t.length, profit := t.length, copies := 1, copiesMin := -1 }]), rfl, ?_⟩
  refine RunsItem.cons (modifyItem_last_eq (f := fun u => .ok { u with profit := t.profit }) rfl) ?_
  refine RunsItem.cons (modifyItem_last_eq (f := fun u => .ok { u with weight := t.weight }) rfl) ?_
  refine RunsItem.cons 
    (y := ⟨t.length, t.profit, t.copies, -1, t.weight, 0, 2147483647, .inf, -1, [], [], 0, []⟩)
    (by
      simp only [step, setItemTypeCopies]
      exact modifyItem_last_eq (by rw [if_neg (by omega)])) ?_
  refine RunsItem.cons 
    (y := ⟨t.length, t.profit, t.copies, t.copiesMin, t.weight, 0, 2147483647, .inf, -1, [], [],
      0, []⟩)
    (by
      simp only [step, setItemTypeCopiesMin]
      exact modifyItem_last_eq (by rw [if_neg (by omega)])) ?_
  refine RunsItem.cons (modifyItem_last_eq
    (f := fun u => .ok { u with nestingLength := t.nestingLength }) rfl) ?_
  refine RunsItem.append 
    (y := ⟨t.length, t.profit, t.copies, t.copiesMin, t.weight, t.nestingLength,
      t.maximumStackability, t.maximumWeightAfter, -1, [], [], 0, []⟩) ?_ ?_
  · refine RunsItem.append 
      (y := ⟨t.length, t.profit, t.copies, t.copiesMin, t.weight, t.nestingLength,
        t.maximumStackability, .inf, -1, [], [], 0, []⟩) ?_ ?_
    · by_cases h : t.maximumStackability = 2147483647
      · rw [if_neg (by simpa using h), h]; rfl
      · rw [if_pos h]
        exact RunsItem.cons (modifyItem_last_eq
          (f := fun u => .ok { u with maximumStackability := t.maximumStackability }) rfl)
          (RunsItem.nil _ _ _)
    · cases h : t.maximumWeightAfter with
      | inf => rfl
      | fin w =>
        exact RunsItem.cons (modifyItem_last_eq
          (f := fun u => .ok { u with maximumWeightAfter := .fin w }) rfl) (RunsItem.nil _ _ _)
  · unfold readItem copyItem
    by_cases h : t.eligibilityId = -1
    · rw [if_neg (by simpa using h), h]; rfl
    · rw [if_pos h]
      exact RunsItem.cons (modifyItem_last_eq
        (f := fun u => .ok { u with eligibilityId := t.eligibilityId }) rfl) (RunsItem.nil _ _ _)

/-! ### Resources -/

/-- The writes made while reading a consumption entry. -/
def amountWrites (j : JsonConsumption) (r : Resource) : Resource :=
  match j.amount with
  | .schedule s => (List.range s.length).foldl
      (fun r c => r.addConsumption j.itemTypeId c (s.getD c 0)) r
  | .uniform q => r.addConsumption j.itemTypeId 0 q

theorem addConsumption_last {b : InstanceBuilder} {l : List BinType} {x : BinType}
    {rs : List Resource} {r : Resource} (hx : x.resources = rs ++ [r]) (i c : Nat) (q : ℚ) :
    step (withBinTypes b (l ++ [x])) (.addResourceConsumption l.length rs.length i c q)
      = .ok (withBinTypes b (l ++ [{ x with resources := rs ++ [r.addConsumption i c q] }])) := by
  simp only [step, addResourceConsumption]
  refine modifyBin_last_eq ?_
  rw [if_neg (by simp [hx]), if_neg (by omega)]
  congr 2
  rw [hx, CertificateLemmas.modify_snoc]
  simp

theorem amount_runs {b : InstanceBuilder} {l : List BinType} {x : BinType} {rs : List Resource}
    {r : Resource} (hx : x.resources = rs ++ [r]) (j : JsonConsumption) :
    RunsBin b l (readConsumption l.length rs.length j) x
      { x with resources := rs ++ [amountWrites j r] } := by
  unfold readConsumption amountWrites
  cases j.amount with
  | uniform q => exact RunsBin.cons (addConsumption_last hx _ _ _) (RunsBin.nil _ _ _)
  | schedule s =>
    dsimp only
    induction List.range s.length generalizing x r with
    | nil =>
      have : x = { x with resources := rs ++ [r] } := by rw [← hx]
      simpa using (this ▸ RunsBin.nil b l x)
    | cons c cs ih =>
      rw [List.map_cons, List.foldl_cons]
      exact RunsBin.cons (addConsumption_last hx _ _ _) (ih rfl)

theorem amounts_runs {b : InstanceBuilder} {l : List BinType} {x : BinType} {rs : List Resource}
    {r : Resource} (hx : x.resources = rs ++ [r]) (js : List JsonConsumption) :
    RunsBin b l (js.flatMap (readConsumption l.length rs.length)) x
      { x with resources := rs ++ [js.foldl (fun r j => amountWrites j r) r] } := by
  induction js generalizing x r with
  | nil =>
    have : x = { x with resources := rs ++ [r] } := by rw [← hx]
    simpa using (this ▸ RunsBin.nil b l x)
  | cons j js ih =>
    rw [List.flatMap_cons, List.foldl_cons]
    exact RunsBin.append (amount_runs hx j) (ih rfl)

/-- The resource obtained by reading. -/
def readRes (r : Resource) : Resource :=
  (writeConsumptions r).foldl (fun r j => amountWrites j r)
    { capacity := r.capacity, penalize := r.penalize,
      penalty := if r.penalize then r.penalty else 0 }

theorem resource_runs {b : InstanceBuilder} {l : List BinType} (x : BinType) (r : Resource) :
    RunsBin b l (readResource l.length x.resources.length (writeResource r)) x
      { x with resources := x.resources ++ [readRes r] } := by
  unfold readResource writeResource
  refine RunsBin.cons (y := { x with resources := x.resources ++
      [{ capacity := r.capacity, penalize := r.penalize,
         penalty := if r.penalize then r.penalty else 0 }] }) ?_ ?_
  · simp only [step, addBinTypeResource]
    refine modifyBin_last_eq ?_
    cases r.penalize <;> rfl
  · exact amounts_runs (x := { x with resources := x.resources ++
      [{ capacity := r.capacity, penalize := r.penalize,
         penalty := if r.penalize then r.penalty else 0 }] }) rfl (writeConsumptions r)

theorem resources_runs {b : InstanceBuilder} {l : List BinType} (x : BinType)
    (rs : List Resource) :
    RunsBin b l (((rs.map writeResource).zipIdx x.resources.length).flatMap
        fun p => readResource l.length p.2 p.1) x
      { x with resources := x.resources ++ rs.map readRes } := by
  induction rs generalizing x with
  | nil => simpa using RunsBin.nil b l x
  | cons r rs ih =>
    rw [List.map_cons, List.zipIdx_cons, List.flatMap_cons]
    refine RunsBin.append (resource_runs x r) ?_
    have := ih { x with resources := x.resources ++ [readRes r] }
    simpa using this

/-! ### Bin types -/

/-- The bin type obtained by reading. -/
def readBin (t : BinType) : BinType :=
  { copyBin t with resources := t.resources.map readRes }

theorem eligibility_runs {b : InstanceBuilder} {l : List BinType} (x : BinType) (es : List Int) :
    RunsBin b l (es.map (.addBinTypeEligibility l.length)) x
      { x with eligibilityIds := x.eligibilityIds ++ es } := by
  induction es generalizing x with
  | nil => simpa using RunsBin.nil b l x
  | cons e es ih =>
    rw [List.map_cons]
    refine RunsBin.cons (modifyBin_last_eq
      (f := fun t => .ok { t with eligibilityIds := t.eligibilityIds ++ [e] }) rfl) ?_
    simpa using ih { x with eligibilityIds := x.eligibilityIds ++ [e] }

theorem readBin_runs (b : InstanceBuilder) (t : BinType) (hl : 0 < t.length) (hcost : 0 < t.cost)
    (hc : 0 < t.copies) (hm0 : 0 ≤ t.copiesMin) (hm : t.copiesMin ≤ t.copies) :
    (readBinType b.inst.binTypes.length (writeBinType t)).foldlM step b
      = .ok (withBinTypes b (b.inst.binTypes ++ [readBin t])) := by
  set l := b.inst.binTypes with hl'
  unfold readBinType writeBinType
  simp only [Option.map_some, Option.toList_some, List.cons_append,
    List.nil_append]
  refine foldlM_cons_ok.mpr ⟨withBinTypes b (l ++ [
      { length := t.length, cost := t.length, copies := 1, copiesMin := 0 }]), ?_, ?_⟩
  · simp only [step, addBinType]
    rw [if_neg (by omega)]
    rfl
  refine RunsBin.cons (y := ⟨t.length, t.cost, 1, 0, .inf, [], [], [], []⟩) ?_ ?_
  · simp only [step, setBinTypeCost]
    refine modifyBin_last_eq ?_
    rw [if_neg (by intro h; linarith [h.1])]
    have : t.cost ≠ -1 := by intro h; linarith
    simp [this]
  refine RunsBin.cons (y := ⟨t.length, t.cost, t.copies, 0, .inf, [], [], [], []⟩) ?_ ?_
  · simp only [step, setBinTypeCopies]
    refine modifyBin_last_eq ?_
    dsimp only
    rw [if_neg (by omega)]
  refine RunsBin.cons (y := ⟨t.length, t.cost, t.copies, t.copiesMin, .inf, [], [], [], []⟩) ?_ ?_
  · simp only [step, setBinTypeCopiesMin]
    refine modifyBin_last_eq ?_
    dsimp only
    rw [if_neg (by omega)]
  refine RunsBin.append 
    (y := ⟨t.length, t.cost, t.copies, t.copiesMin, t.maximumWeight, t.eligibilityIds, [], [], []⟩)
    ?_ ?_
  · refine RunsBin.append 
      (y := ⟨t.length, t.cost, t.copies, t.copiesMin, t.maximumWeight, [], [], [], []⟩) ?_ ?_
    · cases h : t.maximumWeight with
      | inf => rfl
      | fin w =>
        exact RunsBin.cons (modifyBin_last_eq
          (f := fun u => .ok { u with maximumWeight := .fin w }) rfl) (RunsBin.nil _ _ _)
    · have : ((if t.eligibilityIds.isEmpty then none else some t.eligibilityIds :
          Option (List Int)).getD []) = t.eligibilityIds := by
        cases t.eligibilityIds <;> rfl
      rw [this]
      simpa using eligibility_runs (b := b) (l := l)
        ⟨t.length, t.cost, t.copies, t.copiesMin, t.maximumWeight, [], [], [], []⟩ t.eligibilityIds
  · have : ((if t.resources.isEmpty then none else some (t.resources.map writeResource) :
        Option (List JsonResource)).getD []) = t.resources.map writeResource := by
      cases t.resources <;> rfl
    rw [this]
    simpa [readBin, copyBin] using resources_runs (b := b) (l := l)
      ⟨t.length, t.cost, t.copies, t.copiesMin, t.maximumWeight, t.eligibilityIds, [], [], []⟩ t.resources

/-! ### Schedules -/

theorem amountWrites_fields (j : JsonConsumption) (r : Resource) :
    (amountWrites j r).capacity = r.capacity ∧ (amountWrites j r).penalize = r.penalize
    ∧ (amountWrites j r).penalty = r.penalty := by
  unfold amountWrites
  cases j.amount with
  | uniform q => exact ⟨rfl, rfl, rfl⟩
  | schedule s =>
    dsimp only
    induction List.range s.length generalizing r with
    | nil => exact ⟨rfl, rfl, rfl⟩
    | cons c cs ih => rw [List.foldl_cons]; exact ih _

theorem foldWrites_fields (js : List JsonConsumption) (r : Resource) :
    (js.foldl (fun r j => amountWrites j r) r).capacity = r.capacity
    ∧ (js.foldl (fun r j => amountWrites j r) r).penalize = r.penalize
    ∧ (js.foldl (fun r j => amountWrites j r) r).penalty = r.penalty := by
  induction js generalizing r with
  | nil => exact ⟨rfl, rfl, rfl⟩
  | cons j js ih =>
    rw [List.foldl_cons]
    have := amountWrites_fields j r
    rw [(ih _).1, (ih _).2.1, (ih _).2.2]
    exact this

theorem readRes_fields (r : Resource) : (readRes r).capacity = r.capacity
    ∧ (readRes r).penalize = r.penalize
    ∧ (readRes r).penalty = if r.penalize then r.penalty else 0 :=
  foldWrites_fields _ _

theorem sched_schedule (r : Resource) (i : Nat) (s : List ℚ) (h0 : sched r i = []) (j : Nat) :
    sched ((List.range s.length).foldl (fun r c => r.addConsumption i c (s.getD c 0)) r) j
      = if j = i then s else sched r j := by
  have : ∀ n, n ≤ s.length →
      ∀ j, sched ((List.range n).foldl (fun r c => r.addConsumption i c (s.getD c 0)) r) j
        = if j = i then s.take n else sched r j := by
    intro n
    induction n with
    | zero =>
      intro _ j
      by_cases hj : j = i
      · simp [hj, h0]
      · simp [hj]
    | succ n ih =>
      intro hn j
      rw [List.range_succ, List.foldl_append, List.foldl_cons, List.foldl_nil, sched_add]
      by_cases hj : j = i
      · rw [if_pos hj, if_pos hj, ih (by omega), if_pos rfl, take_succ_getD s n 0 (by omega)]
        unfold growTo
        have : n + 1 - (s.take n).length = 1 := by simp; omega
        rw [this, List.set_append_right _ _ (by simp)]
        have : n - (s.take n).length = 0 := by simp; omega
        rw [this]; rfl
      · rw [if_neg hj, if_neg hj, ih (by omega), if_neg hj]
  have h := this s.length (le_refl _) j
  rwa [List.take_length] at h

theorem sched_amount (j : JsonConsumption) (r : Resource) (h0 : sched r j.itemTypeId = [])
    (i : Nat) : sched (amountWrites j r) i
      = if i = j.itemTypeId then (match j.amount with | .uniform q => [q] | .schedule s => s)
        else sched r i := by
  unfold amountWrites
  cases j.amount with
  | uniform q =>
    dsimp only
    rw [sched_add, h0]
    rfl
  | schedule s => exact sched_schedule r _ s h0 i

/-- Reading the written consumptions restores every schedule. -/
theorem sched_writes (ic : List (List ℚ)) (k : Nat) (r : Resource)
    (h0 : ∀ i, k ≤ i → sched r i = []) (i : Nat) :
    sched (((ic.zipIdx k).filterMap writeConsumption).foldl (fun r j => amountWrites j r) r) i
      = if i < k then sched r i else ic.getD (i - k) [] := by
  induction ic generalizing k r with
  | nil =>
    by_cases h : i < k
    · simp [h]
    · simp [h, h0 i (by omega)]
  | cons s ic ih =>
    rw [List.zipIdx_cons]
    have key : ∀ r' : Resource, (∀ i, sched r' i = if i = k then s else sched r i) →
        sched (((ic.zipIdx (k + 1)).filterMap writeConsumption).foldl (fun r j => amountWrites j r) r') i
        = if i < k then sched r i else (s :: ic).getD (i - k) [] := by
      intro r' hr'
      rw [ih (k + 1) r' (fun i hi => by rw [hr', if_neg (by omega)]; exact h0 i (by omega))]
      by_cases h1 : i < k
      · rw [if_pos (by omega), if_pos h1, hr', if_neg (by omega)]
      · rw [if_neg h1]
        by_cases h2 : i = k
        · rw [if_pos (by omega), hr', if_pos h2, h2]; simp
        · rw [if_neg (by omega)]
          have : i - k = (i - (k + 1)) + 1 := by omega
          rw [this, List.getD_cons_succ]
    match s, key with
    | [], key =>
      rw [List.filterMap_cons_none rfl]
      refine key r (fun i => ?_)
      by_cases h : i = k
      · rw [if_pos h, h, h0 k (le_refl _)]
      · rw [if_neg h]
    | [q], key =>
      rw [List.filterMap_cons_some (f := writeConsumption) (b := ⟨k, .uniform q⟩) rfl, List.foldl_cons]
      refine key _ (fun i => ?_)
      rw [sched_amount _ _ (h0 k (le_refl _))]
    | a :: c :: s, key =>
      rw [List.filterMap_cons_some (f := writeConsumption) (b := ⟨k, .schedule (a :: c :: s)⟩) rfl,
        List.foldl_cons]
      refine key _ (fun i => ?_)
      rw [sched_amount _ _ (h0 k (le_refl _))]

theorem sched_readRes (r : Resource) (i : Nat) : sched (readRes r) i = sched r i := by
  unfold readRes writeConsumptions
  refine (sched_writes r.itemConsumptions 0 _ (fun i _ => by simp [sched]) i).trans ?_
  simp [sched]

/-! ### The whole document -/

theorem bins_run (b : InstanceBuilder) (ts : List BinType)
    (h : ∀ t ∈ ts, 0 < t.length ∧ 0 < t.cost ∧ 0 < t.copies ∧ 0 ≤ t.copiesMin
      ∧ t.copiesMin ≤ t.copies) :
    (((ts.map writeBinType).zipIdx b.inst.binTypes.length).flatMap
        fun p => readBinType p.2 p.1).foldlM step b
      = .ok (withBinTypes b (b.inst.binTypes ++ ts.map readBin)) := by
  induction ts generalizing b with
  | nil => simp [withBinTypes, pure, Except.pure]
  | cons t ts ih =>
    obtain ⟨h1, h2, h3, h4, h5⟩ := h t (by simp)
    rw [List.map_cons, List.zipIdx_cons, List.flatMap_cons]
    refine foldlM_append_ok (readBin_runs b t h1 h2 h3 h4 h5) ?_
    have := ih (withBinTypes b (b.inst.binTypes ++ [readBin t])) (fun t ht => h t (by simp [ht]))
    have hlen : (withBinTypes b (b.inst.binTypes ++ [readBin t])).inst.binTypes.length
        = b.inst.binTypes.length + 1 := by simp [withBinTypes]
    rw [hlen] at this
    rw [this]
    simp [withBinTypes]

theorem items_run (b : InstanceBuilder) (ts : List ItemType)
    (h : ∀ t ∈ ts, (0 < t.copies ∨ t.copies = -1) ∧ -1 ≤ t.copiesMin) :
    (((ts.map writeItemType).zipIdx b.inst.itemTypes.length).flatMap
        fun p => readItemType p.2 p.1).foldlM step b
      = .ok (withItemTypes b (b.inst.itemTypes ++ ts.map readItem)) := by
  induction ts generalizing b with
  | nil => simp [withItemTypes, pure, Except.pure]
  | cons t ts ih =>
    obtain ⟨h1, h2⟩ := h t (by simp)
    rw [List.map_cons, List.zipIdx_cons, List.flatMap_cons]
    refine foldlM_append_ok (readItem_runs b t h1 h2) ?_
    have := ih (withItemTypes b (b.inst.itemTypes ++ [readItem t])) (fun t ht => h t (by simp [ht]))
    have hlen : (withItemTypes b (b.inst.itemTypes ++ [readItem t])).inst.itemTypes.length
        = b.inst.itemTypes.length + 1 := by simp [withItemTypes]
    rw [hlen] at this
    rw [this]
    simp [withItemTypes]

/-- The builder after reading. -/
def readBuilder (inst : Instance) : InstanceBuilder :=
  { inst := { objective := inst.objective, itemTypes := inst.itemTypes.map readItem,
              binTypes := inst.binTypes.map readBin } }

/-- Reading the written document leaves the builder with the types of the instance. -/
theorem read_runs {o : Objective} {inst : Instance} {ops : List Op}
    (hops : readCalls (writeJson inst) = .ok ops)
    (hb : ∀ t ∈ inst.binTypes, 0 < t.length ∧ 0 < t.cost ∧ 0 < t.copies ∧ 0 ≤ t.copiesMin
      ∧ t.copiesMin ≤ t.copies)
    (hi : ∀ t ∈ inst.itemTypes, (0 < t.copies ∨ t.copies = -1) ∧ -1 ≤ t.copiesMin) :
    ops.foldlM step (new o) = .ok (readBuilder inst) := by
  have hparse : parseObjective (showObjective inst.objective).toList = some inst.objective := by
    have := objective_roundtrip inst.objective [] [] (by simp) (by simp)
    simpa using this
  unfold readCalls writeJson at hops
  simp only [hparse] at hops
  cases hops
  refine foldlM_append_ok (s1 := withBinTypes (setObjective (new o) inst.objective)
    (inst.binTypes.map readBin)) ?_ ?_
  · refine foldlM_cons_ok.mpr ⟨setObjective (new o) inst.objective, rfl, ?_⟩
    exact bins_run (setObjective (new o) inst.objective) inst.binTypes hb
  · exact items_run (withBinTypes (setObjective (new o) inst.objective)
      (inst.binTypes.map readBin)) inst.itemTypes hi

/-! ### Building succeeds -/

/-- A loop over `0, …, n-1` succeeds if every step does under an invariant. -/
theorem foldlM_range_progress {β : Type} {f : β → Nat → Except Err β} {n : Nat} {s : β}
    (P : Nat → β → Prop) (h0 : P 0 s)
    (hstep : ∀ k a, k < n → P k a → ∃ b, f a k = .ok b ∧ P (k + 1) b) :
    ∃ s', (List.range n).foldlM f s = .ok s' ∧ P n s' := by
  induction n with
  | zero => exact ⟨s, rfl, h0⟩
  | succ n ih =>
    obtain ⟨s1, h1, h2⟩ := ih (fun k a hk => hstep k a (by omega))
    obtain ⟨s2, h3, h4⟩ := hstep n s1 (by omega) h2
    exact ⟨s2, by rw [List.range_succ]; exact foldlM_snoc_ok.mpr ⟨s1, h1, h3⟩, h4⟩

/-- A loop whose steps change nothing. -/
theorem foldlM_const {α β : Type} {f : β → α → Except Err β} {l : List α} {s : β}
    (h : ∀ x ∈ l, f s x = .ok s) : l.foldlM f s = .ok s := by
  induction l with
  | nil => rfl
  | cons a l ih =>
    exact foldlM_cons_ok.mpr ⟨s, h a (by simp), ih (fun x hx => h x (by simp [hx]))⟩

/-- Non-empty schedules belong to existing item types. -/
def SchedulesInRange (inst : Instance) : Prop :=
  ∀ t ∈ inst.binTypes, ∀ r ∈ t.resources, ∀ i, sched r i ≠ [] → i < inst.itemTypes.length

theorem pushResourceId_len {b r i : Nat} {its its' : List ItemType}
    (h : pushResourceId b r its i = .ok its') : its'.length = its.length ∧ i < its.length := by
  unfold pushResourceId at h
  split_ifs at h with hi
  cases h
  exact ⟨by simp, hi⟩

theorem computeResourceIds_progress {inst : Instance} (h : SchedulesInRange inst) :
    ∃ inst', computeResourceIds inst = .ok inst' := by
  unfold computeResourceIds
  obtain ⟨its, h1, -⟩ := foldlM_range_progress (n := inst.binTypes.length)
    (s := inst.itemTypes.map fun t =>
      { t with resourceIds := growTo [] inst.binTypes.length t.resourceIds })
    (f := fun its b => (List.range (inst.binType b).resources.length).foldlM
      (fun its r =>
        let ic := ((inst.binType b).resources.getD r {}).itemConsumptions
        (List.range ic.length).foldlM
          (fun its i => if ic.getD i [] = [] then .ok its else pushResourceId b r its i) its)
      its)
    (P := fun _ its => its.length = inst.itemTypes.length) (by simp) (by
    intro b its hb hits
    refine foldlM_range_progress
      (P := fun _ (its : List ItemType) => its.length = inst.itemTypes.length) hits ?_
    intro r its hr hits
    dsimp only
    refine foldlM_range_progress
      (P := fun _ (its : List ItemType) => its.length = inst.itemTypes.length) hits ?_
    intro i its hi hits
    by_cases he : ((inst.binType b).resources.getD r {}).itemConsumptions.getD i [] = []
    · rw [if_pos he]; exact ⟨its, rfl, hits⟩
    · rw [if_neg he]
      have hlt := h (inst.binType b) (getD_mem _ hb) _ (getD_mem _ hr) i he
      unfold pushResourceId
      rw [if_pos (by omega)]
      exact ⟨_, rfl, by simpa using hits⟩)
  exact ⟨{ inst with itemTypes := its }, bind_ok.mpr ⟨its, h1, rfl⟩⟩

theorem build_progress {b : InstanceBuilder} (hp : b.pending = []) (hF : BFresh b.inst)
    (hi : ∀ t ∈ b.inst.itemTypes, (resolveItem b.inst.objective t).copiesMin ≤ t.copies
      ∧ t.length ≠ 0)
    (hb : b.inst.objective = .binPacking → ∀ t ∈ b.inst.binTypes, t.copiesMin ≤ 0)
    (hr : SchedulesInRange b.inst) : ∃ inst, b.build = .ok inst := by
  have h1 : b.finalizePrecedences = .ok b := by
    unfold finalizePrecedences; rw [hp]; rfl
  obtain ⟨i1, h2, hI⟩ := foldlM_range_progress (n := b.inst.itemTypes.length)
    (f := buildItem (binTypesLengthMax b.inst))
    (s := { b.inst with allItemTypesInfiniteCopies := true })
    (P := ItemInv (binTypesLengthMax b.inst) b.inst) (itemInv_zero hF) (by
      intro k a hk ha
      have hget : a.itemType k = b.inst.itemType k := by
        unfold Instance.itemType
        rw [ha.itemTypes, getD_map_take_drop _ _ _ _ hk]
      have hmem := hi (b.inst.itemType k) (getD_mem _ hk)
      have hs : ∃ c, buildItem (binTypesLengthMax b.inst) a k = .ok c := by
        unfold buildItem
        dsimp only
        rw [hget, ha.objective, (resolve_fields _ _).1, (resolve_fields _ _).2.1,
          if_neg (by omega), if_neg hmem.2]
        exact ⟨_, rfl⟩
      obtain ⟨c, hc⟩ := hs
      exact ⟨c, hc, itemInv_step hk ha hc⟩)
  obtain ⟨st, h3, hB⟩ := foldlM_range_progress (n := i1.binTypes.length)
    (f := buildBin) (s := ({ i1 with binLength := 0 }, 0))
    (P := BinInv i1) (binInv_zero (by rw [hI.binTypeIds, hF.binTypeIds])
      (by rw [hI.previousBinsLength, hF.previousBinsLength])
      (by rw [hI.largestBinCost, hF.largestBinCost])) (by
      intro k a hk ha
      have hget : a.1.binType k = i1.binType k := by
        unfold Instance.binType
        rw [ha.binTypes, getD_map_take_drop _ _ _ _ hk]
      have hs : ∃ c, buildBin a k = .ok c := by
        unfold buildBin
        dsimp only
        rw [hget, ha.objective, hI.objective, if_neg]
        · exact ⟨_, rfl⟩
        · rintro ⟨h4, h5⟩
          have : i1.binType k ∈ b.inst.binTypes := by
            rw [← hI.binTypes]; exact getD_mem _ hk
          have := hb h4 _ this
          omega
      obtain ⟨c, hc⟩ := hs
      exact ⟨c, hc, binInv_step hk ha hc⟩)
  have hbins : st.1.binTypes = b.inst.binTypes.map (resolveBin i1.numberOfItems) := by
    rw [hB.binTypes, hI.binTypes]; simp
  have hits : st.1.itemTypes.length = b.inst.itemTypes.length := by
    rw [hB.itemTypes, hI.itemTypes]; simp
  obtain ⟨i3, h4⟩ := computeResourceIds_progress (inst := computeItemTypeIds st.1) (by
    intro t ht r hr' i hs
    unfold computeItemTypeIds at ht
    obtain ⟨u, hu, rfl⟩ := List.mem_map.mp ht
    rw [hbins] at hu
    obtain ⟨v, hv, rfl⟩ := List.mem_map.mp hu
    have h5 : r ∈ v.resources := by
      rw [← (resolveBin_fields i1.numberOfItems v).2.2.2.1]; exact hr'
    have := hr v hv r h5 i hs
    change i < st.1.itemTypes.length
    omega)
  have hfix : ∀ t ∈ i3.binTypes, t.fixedItems = [] := by
    have : i3.binTypes = (computeItemTypeIds st.1).binTypes := by
      unfold computeResourceIds at h4
      obtain ⟨its, -, h5⟩ := bind_ok.mp h4
      cases h5
      rfl
    rw [this]
    intro t ht
    unfold computeItemTypeIds at ht
    obtain ⟨u, hu, rfl⟩ := List.mem_map.mp ht
    rw [hbins] at hu
    obtain ⟨v, hv, rfl⟩ := List.mem_map.mp hu
    change (resolveBin i1.numberOfItems v).fixedItems = []
    rw [(resolveBin_fields _ _).2.2.2.2.2.2]
    exact (hF.bins v hv).fixedItems
  have h5 : computeCopiesFixed i3 = .ok i3 := by
    unfold computeCopiesFixed
    refine bind_ok.mpr ⟨i3.itemTypes, ?_, rfl⟩
    refine foldlM_const (fun t ht => ?_)
    rw [hfix t ht, if_neg (by simp)]
    rfl
  refine ⟨i3, ?_⟩
  unfold build
  exact bind_ok.mpr ⟨b, h1, bind_ok.mpr ⟨i1, h2, bind_ok.mpr ⟨st, h3, bind_ok.mpr ⟨i3, h4, h5⟩⟩⟩⟩

/-- The schedules of a built instance belong to existing item types. -/
theorem built_inRange {b : InstanceBuilder} {inst : Instance} (hF : BFresh b.inst)
    (h : b.build = .ok inst) : SchedulesInRange inst := by
  obtain ⟨b1, i1, st, -, -, hI, hB, hinst⟩ := build_pieces hF h
  unfold build at h
  obtain ⟨b1', h1, h⟩ := bind_ok.mp h
  obtain ⟨i1', h2, h⟩ := bind_ok.mp h
  obtain ⟨st', h3, h⟩ := bind_ok.mp h
  obtain ⟨i3, h4, h⟩ := bind_ok.mp h
  have hlen5 : inst.itemTypes.length = i3.itemTypes.length ∧ inst.binTypes = i3.binTypes := by
    unfold computeCopiesFixed at h
    obtain ⟨its, h5, h6⟩ := bind_ok.mp h
    cases h6
    refine ⟨?_, rfl⟩
    refine foldlM_inv (fun l => l.length = i3.itemTypes.length) rfl ?_ h5
    intro t a c _ ha hs
    split_ifs at hs
    refine foldlM_inv (fun l => l.length = i3.itemTypes.length) ha ?_ hs
    intro f a c _ ha hs
    split_ifs at hs
    cases hs
    simpa using ha
  unfold computeResourceIds at h4
  obtain ⟨its, h5, h6⟩ := bind_ok.mp h4
  cases h6
  set I := computeItemTypeIds st'.1 with hIdef
  have hinner : ∀ (k r : Nat) (a c : List ItemType), a.length = I.itemTypes.length →
      (List.range (((I.binType k).resources.getD r {}).itemConsumptions).length).foldlM
        (fun its i => if (((I.binType k).resources.getD r {}).itemConsumptions).getD i [] = []
          then .ok its else pushResourceId k r its i) a = .ok c →
      c.length = I.itemTypes.length
        ∧ ∀ i, sched ((I.binType k).resources.getD r {}) i ≠ [] → i < I.itemTypes.length := by
    intro k r a c ha hs
    have := foldlM_range_inv (P := fun n l => l.length = I.itemTypes.length
      ∧ ∀ i, i < n → sched ((I.binType k).resources.getD r {}) i ≠ [] → i < I.itemTypes.length)
      ⟨ha, by intro i hi; omega⟩ (by
        intro n a c _ ha hs
        by_cases he : ((I.binType k).resources.getD r {}).itemConsumptions.getD n [] = []
        · rw [if_pos he] at hs
          cases hs
          refine ⟨ha.1, fun i hi hne => ?_⟩
          by_cases hin : i = n
          · exact absurd (hin ▸ he) hne
          · exact ha.2 i (by omega) hne
        · rw [if_neg he] at hs
          obtain ⟨h7, h8⟩ := pushResourceId_len hs
          refine ⟨by rw [h7]; exact ha.1, fun i hi hne => ?_⟩
          by_cases hin : i = n
          · rw [hin, ← ha.1]; exact h8
          · exact ha.2 i (by omega) hne) hs
    refine ⟨this.1, fun i hne => ?_⟩
    refine this.2 i ?_ hne
    by_contra hge
    exact hne (List.getD_eq_default _ _ (by omega))
  have houter := foldlM_range_inv (P := fun n l => l.length = I.itemTypes.length
      ∧ ∀ k, k < n → ∀ r, r < (I.binType k).resources.length →
        ∀ i, sched ((I.binType k).resources.getD r {}) i ≠ [] → i < I.itemTypes.length)
      ⟨by simp, by intro i hi; omega⟩ (by
        intro n a c _ ha hs
        have := foldlM_range_inv (P := fun m l => l.length = I.itemTypes.length
          ∧ ∀ r, r < m →
            ∀ i, sched ((I.binType n).resources.getD r {}) i ≠ [] → i < I.itemTypes.length)
          ⟨ha.1, by intro i hi; omega⟩ (by
            intro m a c _ ha hs
            have h9 := hinner n m a c ha.1 hs
            refine ⟨h9.1, fun r hr => ?_⟩
            by_cases hrm : r = m
            · rw [hrm]; exact h9.2
            · exact ha.2 r (by omega)) hs
        refine ⟨this.1, fun k hk => ?_⟩
        by_cases hkn : k = n
        · rw [hkn]; exact this.2
        · exact ha.2 k (by omega)) h5
  intro t ht r hr i hne
  rw [hlen5.2] at ht
  change t ∈ I.binTypes at ht
  obtain ⟨k, hk, rfl⟩ := List.mem_iff_getElem.mp ht
  obtain ⟨m, hm, rfl⟩ := List.mem_iff_getElem.mp hr
  have hbt : I.binType k = I.binTypes[k] := List.getD_eq_getElem _ _ hk
  rw [hlen5.1]
  change i < its.length
  rw [houter.1]
  refine houter.2 k hk m (by rw [hbt]; exact hm) i ?_
  rw [hbt, List.getD_eq_getElem _ _ hm]
  exact hne

end PackingSolver.OneDim.JsonLemmas
