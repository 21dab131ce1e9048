import Verif.Lemmas.Guil.InstBuilt

/-! Helper lemmas: the tables of stacks built by `build_stacks`. -/

namespace PackingSolver.Guil

open InstanceBuilder
open Guil.Spec hiding IsMaxWithZero
open PackingSolver.OneDim (getD_mem take_succ_getD)

/-- A loop over `0, …, n-1` whose iterations all succeed. -/
theorem foldlM_range_ok {β ε : Type} {f : β → Nat → Except ε β} {n : Nat} {s : β}
    (P : Nat → β → Prop) (h0 : P 0 s)
    (hstep : ∀ k a, k < n → P k a → ∃ b, f a k = .ok b ∧ P (k + 1) b) :
    ∃ s', (List.range n).foldlM f s = .ok s' ∧ P n s' := by
  induction n with
  | zero => exact ⟨s, rfl, h0⟩
  | succ n ih =>
    obtain ⟨s1, h1, h2⟩ := ih (fun k a hk => hstep k a (by omega))
    obtain ⟨s2, h3, h4⟩ := hstep n s1 (by omega) h2
    refine ⟨s2, ?_, h4⟩
    rw [List.range_succ]
    exact foldlM_snoc_ok.mpr ⟨s1, h1, h3⟩

theorem getD_set_ite {α : Type} (l : List α) (i j : Nat) (v d : α) :
    (l.set i v).getD j d = if i = j ∧ j < l.length then v else l.getD j d := by
  rw [List.getD_eq_getElem?_getD, List.getElem?_set, List.getD_eq_getElem?_getD]
  by_cases h : i = j
  · subst h
    by_cases h2 : i < l.length
    · simp [h2]
    · rw [if_pos rfl, if_neg h2, if_neg (by omega), List.getElem?_eq_none (by omega)]
  · rw [if_neg h, if_neg (by omega)]

theorem getD_modify_ite {α : Type} (l : List α) (i j : Nat) (f : α → α) (d : α) :
    (l.modify i f).getD j d = if i = j ∧ j < l.length then f (l.getD j d) else l.getD j d := by
  rw [List.getD_eq_getElem?_getD, List.getElem?_modify, List.getD_eq_getElem?_getD]
  by_cases h : i = j
  · subst h
    by_cases h2 : i < l.length
    · simp [h2]
    · rw [if_neg (by omega), List.getElem?_eq_none (by omega)]; rfl
  · rw [if_neg (by omega)]
    simp [h]

/-- The copies, among the first `k` item types, of those in stack `s`. -/
def stackK (c sid : Nat → Nat) (k s : Nat) : List Nat :=
  (List.range k).flatMap fun i => if sid i = s then List.replicate (c i) i else []

/-- Number of copies, in the stacks before stack `s`, of the first `n` item types. -/
def offK (c sid : Nat → Nat) (n s : Nat) : Nat :=
  ((List.range s).map fun r => (stackK c sid n r).length).sum

variable {c sid : Nat → Nat}

theorem stackK_succ (k s : Nat) : stackK c sid (k + 1) s
    = stackK c sid k s ++ (if sid k = s then List.replicate (c k) k else []) := by
  unfold stackK
  rw [List.range_succ, List.flatMap_append]
  simp

theorem stackK_length_mono {k n : Nat} (h : k ≤ n) (s : Nat) :
    (stackK c sid k s).length ≤ (stackK c sid n s).length := by
  induction n with
  | zero => have : k = 0 := by omega
            rw [this]
  | succ n ih =>
    rcases Nat.eq_or_lt_of_le h with rfl | h
    · exact le_refl _
    · rw [stackK_succ, List.length_append]
      have := ih (by omega)
      omega

theorem offK_succ (n s : Nat) :
    offK c sid n (s + 1) = offK c sid n s + (stackK c sid n s).length := by
  unfold offK
  rw [List.range_succ, List.map_append, List.sum_append]
  simp

theorem offK_mono {n s s' : Nat} (h : s ≤ s') : offK c sid n s ≤ offK c sid n s' := by
  induction s' with
  | zero => have : s = 0 := by omega
            rw [this]
  | succ m ih =>
    rcases Nat.eq_or_lt_of_le h with rfl | h
    · exact le_refl _
    · rw [offK_succ]
      have := ih (by omega)
      omega

theorem writeCopies_spec {ids : List Nat} {o : Nat} (cc id : Nat) (h : o + cc ≤ ids.length) :
    ∃ ids', writeCopies ids (o : Int) (cc : Int) id = .ok ids' ∧ ids'.length = ids.length
      ∧ ∀ p, ids'.getD p 0 = if o ≤ p ∧ p < o + cc then id else ids.getD p 0 := by
  unfold writeCopies
  rw [Int.toNat_natCast]
  refine foldlM_range_ok (fun k (ids' : List Nat) => ids'.length = ids.length
      ∧ ∀ p, ids'.getD p 0 = if o ≤ p ∧ p < o + k then id else ids.getD p 0) ⟨rfl, fun p => ?_⟩ ?_
  · rw [if_neg (by omega)]
  · rintro k a hk ⟨hl, ha⟩
    refine ⟨a.set (o + k) id, ?_, by rw [List.length_set, hl], fun p => ?_⟩
    · rw [if_pos (by omega)]
      congr 2
    · rw [getD_set_ite, ha p]
      by_cases h1 : o + k = p
      · rw [if_pos (by omega), if_pos (by omega)]
      · rw [if_neg (by omega)]
        by_cases h2 : o ≤ p ∧ p < o + k
        · rw [if_pos h2, if_pos (by omega)]
        · rw [if_neg h2, if_neg (by omega)]

/-- Filling a slice of the flat array extends the description of what it contains. -/
theorem fill_slice {n nS k : Nat} {ids ids' : List Nat} (hk : k < n)
    (hids : ∀ s < nS, ∀ p < (stackK c sid k s).length,
      ids.getD (offK c sid n s + p) 0 = (stackK c sid k s).getD p 0)
    (hw : ∀ p, ids'.getD p 0
      = if offK c sid n (sid k) + (stackK c sid k (sid k)).length ≤ p
          ∧ p < offK c sid n (sid k) + (stackK c sid k (sid k)).length + c k then k
        else ids.getD p 0) :
    ∀ s < nS, ∀ p < (stackK c sid (k + 1) s).length,
      ids'.getD (offK c sid n s + p) 0 = (stackK c sid (k + 1) s).getD p 0 := by
  intro s hs' p hp
  rw [hw, stackK_succ]
  rw [stackK_succ, List.length_append] at hp
  by_cases e : sid k = s
  · subst e
    rw [if_pos rfl] at hp ⊢
    rw [List.length_replicate] at hp
    by_cases h1 : p < (stackK c sid k (sid k)).length
    · rw [if_neg (by omega), hids _ hs' p h1, List.getD_append _ _ _ _ h1]
    · rw [if_pos (by omega), List.getD_append_right _ _ _ _ (by omega),
        List.getD_eq_getElem _ _ (by rw [List.length_replicate]; omega), List.getElem_replicate]
  · rw [if_neg e] at hp ⊢
    simp only [List.length_nil, Nat.add_zero] at hp
    rw [List.append_nil]
    have h2 := stackK_length_mono (c := c) (sid := sid) (Nat.le_of_lt hk) s
    have h3 := offK_succ (c := c) (sid := sid) n s
    have h4 := offK_succ (c := c) (sid := sid) n (sid k)
    have h5 := stackK_length_mono (c := c) (sid := sid) (Nat.succ_le_of_lt hk) (sid k)
    rw [stackK_succ, if_pos rfl, List.length_append, List.length_replicate] at h5
    rw [if_neg, hids s hs' p hp]
    rcases Nat.lt_or_gt_of_ne e with h6 | h6
    · have := offK_mono (c := c) (sid := sid) (n := n) (s := sid k + 1) (s' := s) h6
      omega
    · have := offK_mono (c := c) (sid := sid) (n := n) (s := s + 1) (s' := sid k) h6
      omega

/-- Room in the flat array for the next item type. -/
theorem fill_room {n nS k : Nat} (hk : k < n) (hs : sid k < nS) :
    offK c sid n (sid k) + (stackK c sid k (sid k)).length + c k ≤ offK c sid n nS := by
  have h4 := offK_succ (c := c) (sid := sid) n (sid k)
  have h5 := stackK_length_mono (c := c) (sid := sid) (Nat.succ_le_of_lt hk) (sid k)
  rw [stackK_succ, if_pos rfl, List.length_append, List.length_replicate] at h5
  have := offK_mono (c := c) (sid := sid) (n := n) (s := sid k + 1) (s' := nS) hs
  omega

/-! ## Sizes and offsets of the named stacks -/

/-- Copies of an item type, as a natural number. -/
def copiesOf (its : List ItemType) (i : Nat) : Nat := (its.getD i default).copies.toNat

/-- Stack of an item type, as a natural number. -/
def stackOf (its : List ItemType) (i : Nat) : Nat := (its.getD i default).stackId.toNat

variable {its : List ItemType}

theorem stackSizes_length : (stackSizes its).length = (numberOfNamedStacks its).toNat := by
  unfold stackSizes
  have : ∀ (l : List ItemType) (z : List Int),
      (l.foldl (fun sizes t => sizes.modify t.stackId.toNat (· + t.copies)) z).length = z.length := by
    intro l
    induction l with
    | nil => intro z; rfl
    | cons a l ih => intro z; rw [List.foldl_cons, ih, List.length_modify]
  rw [this, List.length_replicate]

theorem stackSizes_getD (hc : ∀ t ∈ its, 0 ≤ t.copies) {s : Nat}
    (hs : s < (stackSizes its).length) : (stackSizes its).getD s 0
      = ((stackK (copiesOf its) (stackOf its) its.length s).length : Int) := by
  have hlen := stackSizes_length (its := its)
  have key : ∀ k, k ≤ its.length →
      ((its.take k).foldl (fun sizes t => sizes.modify t.stackId.toNat (· + t.copies))
        (List.replicate (numberOfNamedStacks its).toNat 0)).length
          = (numberOfNamedStacks its).toNat
      ∧ ((its.take k).foldl (fun sizes t => sizes.modify t.stackId.toNat (· + t.copies))
        (List.replicate (numberOfNamedStacks its).toNat 0)).getD s 0
        = ((stackK (copiesOf its) (stackOf its) k s).length : Int) := by
    intro k
    induction k with
    | zero =>
      intro _
      rw [List.take_zero, List.foldl_nil, List.length_replicate,
        List.getD_eq_getElem _ _ (by rw [List.length_replicate]; omega), List.getElem_replicate]
      exact ⟨rfl, rfl⟩
    | succ k ih =>
      intro hk
      obtain ⟨h1, h2⟩ := ih (by omega)
      rw [take_succ_getD its k default (by omega), List.foldl_append, List.foldl_cons,
        List.foldl_nil, List.length_modify, getD_modify_ite, h1, h2, stackK_succ]
      refine ⟨rfl, ?_⟩
      have hck := hc _ (getD_mem (l := its) (i := k) (d := default) (by omega))
      by_cases e : stackOf its k = s
      · rw [if_pos ⟨e, by omega⟩, if_pos e, List.length_append, List.length_replicate]
        unfold copiesOf
        omega
      · rw [if_neg (fun h => e h.1), if_neg e, List.append_nil]
  have := (key its.length (le_refl _)).2
  rw [List.take_length] at this
  exact this

theorem prefixOffsets_spec {sizes : List Int} {sz : Nat → Nat}
    (h : ∀ s < sizes.length, sizes.getD s 0 = (sz s : Int)) :
    (prefixOffsets sizes).length = sizes.length + 1
    ∧ ∀ s ≤ sizes.length, (prefixOffsets sizes).getD s 0
      = ((((List.range s).map sz).sum : Nat) : Int) := by
  unfold prefixOffsets
  refine foldl_range_inv (n := sizes.length) (fun k (offs : List Int) => offs.length = sizes.length + 1
      ∧ ∀ s ≤ k, offs.getD s 0 = ((((List.range s).map sz).sum : Nat) : Int)) ⟨by simp, ?_⟩ ?_
  · intro s hs
    have : s = 0 := by omega
    subst this
    rw [List.getD_eq_getElem _ _ (by simp), List.getElem_replicate]
    rfl
  · rintro k offs hk ⟨h1, h2⟩
    refine ⟨by rw [List.length_set, h1], fun s hs => ?_⟩
    rw [getD_set_ite]
    by_cases e : k + 1 = s
    · rw [if_pos ⟨e, by omega⟩, ← e, List.range_succ, List.map_append, List.sum_append,
        h2 k (le_refl _), h k hk]
      simp
    · rw [if_neg (fun hh => e hh.1), h2 s (by omega)]

theorem stack_lt (hn : ∀ t ∈ its, 0 ≤ t.stackId) {i : Nat} (hi : i < its.length) :
    stackOf its i < (stackSizes its).length := by
  rw [stackSizes_length]
  have key : ∀ (l : List ItemType) (m : Int), m ≤ l.foldl (fun n t => max n (t.stackId + 1)) m
      ∧ ∀ t ∈ l, t.stackId + 1 ≤ l.foldl (fun n t => max n (t.stackId + 1)) m := by
    intro l
    induction l with
    | nil => intro m; simp
    | cons a l ih =>
      intro m
      obtain ⟨h1, h2⟩ := ih (max m (a.stackId + 1))
      rw [List.foldl_cons]
      refine ⟨by omega, fun t ht => ?_⟩
      rcases List.mem_cons.mp ht with rfl | ht
      · omega
      · exact h2 t ht
  have h1 := (key its 0).2 _ (getD_mem (l := its) (i := i) (d := default) hi)
  have h2 := hn _ (getD_mem (l := its) (i := i) (d := default) hi)
  unfold stackOf numberOfNamedStacks
  omega

/-! ## The two branches -/

/-- What both branches of `build_stacks` establish. -/
structure Tabled (c sid : Nat → Nat) (n nS : Nat) (inst : Instance) : Prop where
  length : inst.itemTypes.length = n
  copies : ∀ i < n, (inst.itemType i).copies = (c i : Int)
  stackId : ∀ i < n, (inst.itemType i).stackId = (sid i : Int)
  stackLt : ∀ i < n, sid i < nS
  stackPos : ∀ i < n, (inst.itemType i).stackPos = ((stackK c sid i (sid i)).length : Int)
  offsets : inst.stackOffsets.length = nS + 1
  offset : ∀ s ≤ nS, inst.stackOffsets.getD s 0 = (offK c sid n s : Int)
  ids : inst.itemTypeIds.length = offK c sid n nS
  id : ∀ s < nS, ∀ p < (stackK c sid n s).length,
    inst.itemTypeIds.getD (offK c sid n s + p) 0 = (stackK c sid n s).getD p 0

theorem stackItems_eq {n nS : Nat} {inst : Instance} (h : Tabled c sid n nS inst) (s : Nat) :
    stackItems inst s = stackK c sid n s := by
  unfold stackItems stackK Instance.numberOfItemTypes
  rw [h.length]
  unfold List.flatMap
  congr 1
  apply List.map_congr_left
  intro i hi
  have hi := List.mem_range.mp hi
  rw [h.stackId i hi, h.copies i hi, Int.toNat_natCast]
  by_cases e : sid i = s
  · rw [if_pos e, if_pos (by omega)]
  · rw [if_neg e, if_neg (by omega)]

theorem stackK_length (k s : Nat) : ((stackK c sid k s).length : Int)
    = (((List.range k).filter fun j => sid j = s).map fun j => (c j : Int)).sum := by
  induction k with
  | zero => rfl
  | succ k ih =>
    rw [stackK_succ, List.length_append, List.range_succ, List.filter_append, List.map_append,
      List.sum_append, ← ih]
    by_cases e : sid k = s
    · simp [e]
    · simp [e]

theorem Tabled.stackTable {n nS : Nat} {inst : Instance} (h : Tabled c sid n nS inst) :
    StackTable inst := by
  have hns : inst.numberOfStacks = (nS : Int) := by
    unfold Instance.numberOfStacks
    rw [h.offsets]
    omega
  refine {
    stackOf := fun i hi => ?_
    stackPos := fun i hi => ?_
    size := fun s hs => ?_
    item := fun s hs p hp => ?_
    first := by rw [h.offset 0 (by omega)]; rfl
    last := by rw [hns, Int.toNat_natCast, h.offset nS (le_refl _), h.ids]
    nonneg := by omega }
  · unfold Instance.numberOfItemTypes at hi
    rw [h.length] at hi
    have := h.stackLt i hi
    rw [h.stackId i hi, hns]
    omega
  · unfold Instance.numberOfItemTypes at hi
    rw [h.length] at hi
    rw [h.stackPos i hi, stackK_length]
    congr 1
    have e : (List.range i).filter (fun j => decide ((inst.itemType j).stackId
        = (inst.itemType i).stackId)) = (List.range i).filter fun j => decide (sid j = sid i) := by
      apply List.filter_congr
      intro j hj
      have := List.mem_range.mp hj
      rw [h.stackId j (by omega), h.stackId i hi]
      exact decide_eq_decide.mpr Int.natCast_inj
    rw [e]
    apply List.map_congr_left
    intro j hj
    have := List.mem_range.mp (List.mem_filter.mp hj).1
    rw [h.copies j (by omega)]
  · have hs' : s < nS := by omega
    unfold Instance.stackSize
    rw [stackItems_eq h, h.offset s (by omega), h.offset (s + 1) (by omega), offK_succ]
    omega
  · have hs' : s < nS := by omega
    rw [stackItems_eq h] at hp ⊢
    unfold Instance.item Instance.stackIndex
    rw [Int.toNat_natCast, h.offset s (by omega), ← h.id s hs' p hp]
    congr 1

theorem buildNamedStacks_ok {inst : Instance} (hc : ∀ t ∈ inst.itemTypes, 0 ≤ t.copies)
    (hn : ∀ t ∈ inst.itemTypes, 0 ≤ t.stackId) :
    ∃ inst', buildNamedStacks inst = .ok inst'
      ∧ Tabled (copiesOf inst.itemTypes) (stackOf inst.itemTypes) inst.itemTypes.length
        (stackSizes inst.itemTypes).length inst' := by
  obtain ⟨ho1, ho2⟩ := prefixOffsets_spec (sizes := stackSizes inst.itemTypes)
    (fun s hs => stackSizes_getD hc hs)
  change ∀ s ≤ _, _ = ((offK (copiesOf inst.itemTypes) (stackOf inst.itemTypes)
    inst.itemTypes.length s : Nat) : Int) at ho2
  unfold buildNamedStacks
  dsimp only
  generalize hits : inst.itemTypes = its at hc hn ho1 ho2 ⊢
  generalize hcc : copiesOf its = cc at ho1 ho2 ⊢
  generalize hsid : stackOf its = sd at ho1 ho2 ⊢
  have hres : resizeIds ((prefixOffsets (stackSizes its)).getD (stackSizes its).length 0)
      = .ok (List.replicate (offK cc sd its.length (stackSizes its).length) 0) := by
    unfold resizeIds
    rw [ho2 _ (le_refl _), if_neg (by omega), Int.toNat_natCast]
  rw [hres]
  have hck : ∀ i < its.length, (its.getD i default).copies = (cc i : Int) := fun i hi => by
    have := hc _ (getD_mem (l := its) (i := i) (d := default) hi)
    rw [← hcc]
    unfold copiesOf
    omega
  have hsk : ∀ i < its.length, (its.getD i default).stackId = (sd i : Int) := fun i hi => by
    have := hn _ (getD_mem (l := its) (i := i) (d := default) hi)
    rw [← hsid]
    unfold stackOf
    omega
  have hlt : ∀ i < its.length, sd i < (stackSizes its).length := fun i hi => by
    rw [← hsid]; exact stack_lt hn hi
  obtain ⟨st, hst, P1, P2, P3, P4, P5, P6⟩ := foldlM_range_ok (n := its.length)
    (f := fillNamed (prefixOffsets (stackSizes its)))
    (s := { its := its
            ids := List.replicate (offK cc sd its.length (stackSizes its).length) 0
            writePos := List.replicate (stackSizes its).length 0 })
    (fun k st => st.its.length = its.length
      ∧ (∀ j < its.length, st.its.getD j default = if j < k then
          { its.getD j default with stackPos := ((stackK cc sd j (sd j)).length : Int) }
          else its.getD j default)
      ∧ st.writePos.length = (stackSizes its).length
      ∧ (∀ s < (stackSizes its).length, st.writePos.getD s 0 = ((stackK cc sd k s).length : Int))
      ∧ st.ids.length = offK cc sd its.length (stackSizes its).length
      ∧ ∀ s < (stackSizes its).length, ∀ p < (stackK cc sd k s).length,
          st.ids.getD (offK cc sd its.length s + p) 0 = (stackK cc sd k s).getD p 0)
    ⟨rfl, fun j _ => by rw [if_neg (by omega)], by rw [List.length_replicate], fun s hs => by
      rw [List.getD_eq_getElem _ _ (by rw [List.length_replicate]; exact hs),
        List.getElem_replicate]; rfl, by rw [List.length_replicate], fun s _ p hp => by
        exact absurd hp (by simp [stackK])⟩
    (by
      rintro k st hk ⟨q1, q2, q3, q4, q5, q6⟩
      have hlk := hlt k hk
      have e1 : st.its.getD k default = its.getD k default := by rw [q2 k hk, if_neg (by omega)]
      have e2 : (its.getD k default).stackId.toNat = sd k := by
        rw [hsk k hk, Int.toNat_natCast]
      obtain ⟨ids', w1, w2, w3⟩ := writeCopies_spec (ids := st.ids)
        (o := offK cc sd its.length (sd k) + (stackK cc sd k (sd k)).length) (cc k) k
        (by rw [q5]; exact fill_room hk hlk)
      rw [Int.natCast_add] at w1
      unfold fillNamed
      dsimp only
      rw [e1, e2, q4 _ hlk, ho2 _ (by omega), hck k hk, w1]
      refine ⟨_, rfl, by rw [List.length_set]; exact q1, fun j hj => ?_,
        by rw [List.length_set]; exact q3, fun s hs => ?_, by rw [w2]; exact q5,
        fill_slice hk q6 w3⟩
      · dsimp only
        rw [getD_set_ite, q1, q2 j hj]
        by_cases e : k = j
        · subst e
          rw [if_pos ⟨rfl, hj⟩, if_pos (by omega), hck k hk]
        · rw [if_neg (fun hh => e hh.1)]
          by_cases h2 : j < k
          · rw [if_pos h2, if_pos (by omega)]
          · rw [if_neg h2, if_neg (by omega)]
      · dsimp only
        rw [getD_set_ite, q3, q4 s hs, stackK_succ]
        by_cases e : sd k = s
        · subst e
          rw [if_pos ⟨rfl, hs⟩, if_pos rfl, List.length_append, List.length_replicate]
          omega
        · rw [if_neg (fun hh => e hh.1), if_neg e, List.append_nil])
  refine ⟨_, bind_ok.mpr ⟨_, rfl, bind_ok.mpr ⟨st, hst, rfl⟩⟩, ?_⟩
  have hit : ∀ i < its.length, st.its.getD i default
      = { its.getD i default with stackPos := ((stackK cc sd i (sd i)).length : Int) } :=
    fun i hi => by rw [P2 i hi, if_pos hi]
  exact {
    length := P1
    copies := fun i hi => by
      change (st.its.getD i default).copies = _; rw [hit i hi]; exact hck i hi
    stackId := fun i hi => by
      change (st.its.getD i default).stackId = _; rw [hit i hi]; exact hsk i hi
    stackLt := hlt
    stackPos := fun i hi => by change (st.its.getD i default).stackPos = _; rw [hit i hi]
    offsets := ho1
    offset := ho2
    ids := P5
    id := P6 }

theorem buildOwnStacks_ok {inst : Instance} (hc : ∀ t ∈ inst.itemTypes, 0 ≤ t.copies) :
    ∃ inst', buildOwnStacks inst = .ok inst'
      ∧ Tabled (copiesOf inst.itemTypes) (fun i => i) inst.itemTypes.length
        inst.itemTypes.length inst' := by
  unfold buildOwnStacks
  dsimp only
  generalize hits : inst.itemTypes = its at hc ⊢
  generalize hcc : copiesOf its = cc
  have hck : ∀ i < its.length, (its.getD i default).copies = (cc i : Int) := fun i hi => by
    have := hc _ (getD_mem (l := its) (i := i) (d := default) hi)
    rw [← hcc]
    unfold copiesOf
    omega
  have hsz : ∀ k s, (stackK cc (fun i => i) k s).length = if s < k then cc s else 0 := by
    intro k s
    induction k with
    | zero => rfl
    | succ k ih =>
      rw [stackK_succ, List.length_append, ih]
      by_cases e : k = s
      · subst e
        rw [if_neg (by omega), if_pos rfl, if_pos (by omega), List.length_replicate]; omega
      · rw [if_neg e, List.length_nil, Nat.add_zero]
        by_cases h2 : s < k
        · rw [if_pos h2, if_pos (by omega)]
        · rw [if_neg h2, if_neg (by omega)]
  have hoff : ∀ k < its.length, offK cc (fun i => i) its.length (k + 1)
      = offK cc (fun i => i) its.length k + cc k := fun k hk => by
    rw [offK_succ, hsz, if_pos hk]
  obtain ⟨A1, A2, A3, A4, A5⟩ := foldl_range_inv (n := its.length) (f := ownStack)
    (a := (its, List.replicate (its.length + 1) 0, 0))
    (fun k st => st.1.length = its.length
      ∧ (∀ j < its.length, st.1.getD j default = if j < k then
          { its.getD j default with stackId := (j : Int), stackPos := 0 }
          else its.getD j default)
      ∧ st.2.1.length = its.length + 1
      ∧ (∀ j < k, st.2.1.getD j 0 = (offK cc (fun i => i) its.length j : Int))
      ∧ st.2.2 = (offK cc (fun i => i) its.length k : Int))
    ⟨rfl, fun j _ => by rw [if_neg (by omega)], by rw [List.length_replicate],
      fun j hj => absurd hj (by omega), rfl⟩
    (by
      rintro k st hk ⟨q1, q2, q3, q4, q5⟩
      have e1 : st.1.getD k default = its.getD k default := by rw [q2 k hk, if_neg (by omega)]
      unfold ownStack
      dsimp only
      rw [e1]
      refine ⟨by rw [List.length_set]; exact q1, fun j hj => ?_,
        by rw [List.length_set]; exact q3, fun j hj => ?_, ?_⟩
      · rw [getD_set_ite, q1, q2 j hj]
        by_cases e : k = j
        · subst e
          rw [if_pos ⟨rfl, hj⟩, if_pos (by omega)]
        · rw [if_neg (fun hh => e hh.1)]
          by_cases h2 : j < k
          · rw [if_pos h2, if_pos (by omega)]
          · rw [if_neg h2, if_neg (by omega)]
      · rw [getD_set_ite]
        by_cases e : k = j
        · subst e
          rw [if_pos ⟨rfl, by omega⟩, q5]
        · rw [if_neg (fun hh => e hh.1), q4 j (by omega)]
      · rw [q5, hck k hk, hoff k hk]
        omega)
  generalize (List.range its.length).foldl ownStack (its, List.replicate (its.length + 1) 0, 0)
    = st at A1 A2 A3 A4 A5 ⊢
  have hit : ∀ i < its.length, st.1.getD i default
      = { its.getD i default with stackId := (i : Int), stackPos := 0 } :=
    fun i hi => by rw [A2 i hi, if_pos hi]
  have hres : resizeIds st.2.2
      = .ok (List.replicate (offK cc (fun i => i) its.length its.length) 0) := by
    unfold resizeIds
    rw [A5, if_neg (by omega), Int.toNat_natCast]
  rw [hres]
  obtain ⟨r, hr, P1, P2, P3⟩ := foldlM_range_ok (n := its.length)
    (f := fun (r : List Nat × Int) id => do
      let t := st.1.getD id default
      let ids ← writeCopies r.1 r.2 t.copies id
      Except.ok (ids, r.2 + t.copies))
    (s := (List.replicate (offK cc (fun i => i) its.length its.length) 0, 0))
    (fun k r => r.1.length = offK cc (fun i => i) its.length its.length
      ∧ r.2 = (offK cc (fun i => i) its.length k : Int)
      ∧ ∀ s < its.length, ∀ p < (stackK cc (fun i => i) k s).length,
          r.1.getD (offK cc (fun i => i) its.length s + p) 0
            = (stackK cc (fun i => i) k s).getD p 0)
    ⟨by rw [List.length_replicate], rfl, fun s _ p hp => by exact absurd hp (by simp [stackK])⟩
    (by
      rintro k r hk ⟨q1, q2, q3⟩
      have hz : (stackK cc (fun i => i) k k).length = 0 := by rw [hsz, if_neg (by omega)]
      have hroom := fill_room (c := cc) (sid := fun i => i) (nS := its.length) hk hk
      rw [hz, Nat.add_zero] at hroom
      obtain ⟨ids', w1, w2, w3⟩ := writeCopies_spec (ids := r.1)
        (o := offK cc (fun i => i) its.length k) (cc k) k (by rw [q1]; exact hroom)
      dsimp only
      rw [hit k hk]
      dsimp only
      rw [hck k hk, q2, w1]
      refine ⟨_, rfl, by rw [w2]; exact q1, by rw [hoff k hk]; omega,
        fill_slice hk q3 (fun p => ?_)⟩
      dsimp only
      rw [w3 p, hz, Nat.add_zero])
  refine ⟨_, bind_ok.mpr ⟨_, rfl, bind_ok.mpr ⟨r, hr, rfl⟩⟩, ?_⟩
  exact {
    length := A1
    copies := fun i hi => by
      change (st.1.getD i default).copies = _; rw [hit i hi]; exact hck i hi
    stackId := fun i hi => by change (st.1.getD i default).stackId = _; rw [hit i hi]
    stackLt := fun i hi => hi
    stackPos := fun i hi => by
      change (st.1.getD i default).stackPos = _; rw [hit i hi, hsz, if_neg (by omega)]; rfl
    offsets := by change (st.2.1.set _ _).length = _; rw [List.length_set]; exact A3
    offset := fun s hs => by
      change (st.2.1.set _ _).getD s 0 = _
      rw [getD_set_ite, A3]
      by_cases e : its.length = s
      · rw [if_pos ⟨e, by omega⟩, ← e]; exact A5
      · rw [if_neg (fun hh => e hh.1)]; exact A4 s (by omega)
    ids := P1
    id := P3 }

theorem buildStacks_cases {inst : Instance} (hc : ∀ t ∈ inst.itemTypes, 0 ≤ t.copies) :
    ((∃ t ∈ inst.itemTypes, 0 ≤ t.stackId) ∧ (∃ t ∈ inst.itemTypes, t.stackId < 0)
      ∧ buildStacks inst = .error .invalidArgument)
    ∨ ((∀ t ∈ inst.itemTypes, 0 ≤ t.stackId) ∧ inst.itemTypes ≠ []
      ∧ ∃ inst', buildStacks inst = .ok inst'
      ∧ Tabled (copiesOf inst.itemTypes) (stackOf inst.itemTypes) inst.itemTypes.length
        (stackSizes inst.itemTypes).length inst')
    ∨ ((∀ t ∈ inst.itemTypes, t.stackId < 0) ∧ ∃ inst', buildStacks inst = .ok inst'
      ∧ Tabled (copiesOf inst.itemTypes) (fun i => i) inst.itemTypes.length
        inst.itemTypes.length inst') := by
  unfold buildStacks
  dsimp only
  by_cases h1 : ∃ t ∈ inst.itemTypes, 0 ≤ t.stackId
  · have e1 : (inst.itemTypes.any fun t => decide (t.stackId ≥ 0)) = true := by
      obtain ⟨t, ht, h⟩ := h1
      exact List.any_eq_true.mpr ⟨t, ht, by simpa using h⟩
    rw [e1]
    by_cases h2 : ∃ t ∈ inst.itemTypes, t.stackId < 0
    · have e2 : (inst.itemTypes.any fun t => !decide (t.stackId ≥ 0)) = true := by
        obtain ⟨t, ht, h⟩ := h2
        exact List.any_eq_true.mpr ⟨t, ht, by simpa using h⟩
      rw [e2]
      exact Or.inl ⟨h1, h2, rfl⟩
    · have e2 : (inst.itemTypes.any fun t => !decide (t.stackId ≥ 0)) = false := by
        rw [List.any_eq_false]
        intro t ht
        have : ¬ t.stackId < 0 := fun h => h2 ⟨t, ht, h⟩
        simp; omega
      rw [e2]
      have hn : ∀ t ∈ inst.itemTypes, 0 ≤ t.stackId := fun t ht => by
        by_contra h
        exact h2 ⟨t, ht, by omega⟩
      obtain ⟨inst', h3, h4⟩ := buildNamedStacks_ok hc hn
      obtain ⟨t, ht, -⟩ := h1
      exact Or.inr (Or.inl ⟨hn, List.ne_nil_of_mem ht, inst', h3, h4⟩)
  · have e1 : (inst.itemTypes.any fun t => decide (t.stackId ≥ 0)) = false := by
      rw [List.any_eq_false]
      intro t ht
      have : ¬ 0 ≤ t.stackId := fun h => h1 ⟨t, ht, h⟩
      simp; omega
    rw [e1]
    obtain ⟨inst', h3, h4⟩ := buildOwnStacks_ok hc
    refine Or.inr (Or.inr ⟨fun t ht => ?_, inst', h3, h4⟩)
    by_contra h
    exact h1 ⟨t, ht, by omega⟩

end PackingSolver.Guil
