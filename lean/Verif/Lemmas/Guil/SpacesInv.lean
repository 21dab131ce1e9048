import Verif.Lemmas.Guil.Spaces
import Verif.Lemmas.Except
import Mathlib.Algebra.Order.BigOperators.Group.List

/-!
# Invariant of the states of the search over unused rectangles
-/

namespace PackingSolver.Guil.Spaces

open PackingSolver.Guil.Spec
open PackingSolver.Rect.Block (cnt cnt_cons cnt_nil Incr Pos mem_iff_cnt cnt_eq_zero)

/-- What the search relies on. -/
structure Scheme.Ok (sc : Scheme) : Prop where
  thick : 0 ≤ sc.inst.parameters.cutThickness
  blocks : ∀ c ∈ sc.blocks, Block.Inv sc.inst sc.bt c

theorem scheme_ok {inst : Instance} {sc : Scheme} (ht : 0 ≤ inst.parameters.cutThickness)
    (hi : PosItems inst) (h : scheme inst = .ok sc) : sc.inst = inst ∧ sc.Ok := by
  unfold scheme at h
  cases hb : inst.binTypeIds.head? with
  | none => rw [hb] at h; cases h
  | some b =>
    rw [hb] at h
    obtain ⟨l, e, hg, -⟩ := Block.computeBlocks_ok (bt := inst.binType b) (M := 10000) ht hi
    dsimp only at h
    rw [e] at h
    cases h
    exact ⟨rfl, ht, fun c hc => (hg c hc).inv⟩

theorem block_some {sc : Scheme} {id : Nat} (h : id < sc.blocks.length) :
    sc.blocks[id]? = some (sc.block id) ∧ sc.block id ∈ sc.blocks := by
  unfold Scheme.block
  rw [List.getD_eq_getElem _ _ h]
  exact ⟨List.getElem?_eq_getElem h, List.getElem_mem h⟩

/-- The totals of a state. -/
def State.load (n : State) : Load :=
  (fun i => n.copies.getD i 0, n.profit, n.itemArea, n.numberOfItems)

/-- What every state satisfies. -/
structure StateInv (sc : Scheme) (n : State) : Prop where
  holed : Holed sc.inst sc.bt.w sc.bt.h n.spaces n.load
  len : n.copies.length = sc.inst.numberOfItemTypes
  nonneg : ∀ c ∈ n.copies, 0 ≤ c
  le : ∀ i, 0 < n.copies.getD i 0 → n.copies.getD i 0 ≤ (sc.inst.itemType i).copies
  valid : ∀ id, id ∈ n.valid ↔ id < sc.blocks.length ∧ ∀ p ∈ (sc.block id).itemCopies,
    n.copies.getD p.1 0 + p.2 ≤ (sc.inst.itemType p.1).copies
  sum : n.copies.sum = n.numberOfItems

section
variable {sc : Scheme} {n n' : State} {ins : Insertion}

theorem stateInv_root (h : sc.Ok) : StateInv sc sc.root := by
  have hz : ∀ i, (List.replicate sc.inst.numberOfItemTypes (0 : Int)).getD i 0 = 0 := by
    intro i
    rw [List.getD_eq_getElem?_getD, List.getElem?_replicate]
    split <;> rfl
  refine ⟨?_, by simp [Scheme.root], ?_, ?_, ?_, by simp [Scheme.root]⟩
  · intro q hq
    have : sc.root.load + q = q := by
      have : sc.root.load = 0 := by
        unfold State.load Scheme.root
        dsimp only
        simp only [hz]
        rfl
      rw [this, zero_add]
    rw [this]
    exact hq
  · intro c hc
    have := List.eq_of_mem_replicate (show c ∈ List.replicate _ (0 : Int) from hc)
    omega
  · intro i hi
    have := hz i
    unfold Scheme.root at hi
    dsimp only at hi
    omega
  · intro id
    show id ∈ List.range _ ↔ _
    rw [List.mem_range]
    constructor
    · intro hid
      refine ⟨hid, fun p hp => ?_⟩
      show (List.replicate sc.inst.numberOfItemTypes (0 : Int)).getD p.1 0 + p.2 ≤ _
      rw [hz, zero_add]
      exact (h.blocks _ (block_some hid).2).copies p hp
    · exact fun hid => hid.1

theorem mem_stillValid {copies : List Int} {valid : List Nat} {id : Nat} :
    id ∈ sc.stillValid copies valid ↔ id ∈ valid ∧ ∀ p ∈ (sc.block id).itemCopies,
      copies.getD p.1 0 + p.2 ≤ (sc.inst.itemType p.1).copies := by
  unfold Scheme.stillValid
  rw [List.mem_filter, List.all_eq_true]
  simp

/-- The step of the search, without the partiality. -/
theorem apply_eq {s : Space} (hs : n.spaces[ins.spaceId]? = some s)
    (hb : ins.blockId < sc.blocks.length) : sc.apply n ins = .ok
      { placed := n.placed ++ [{ blockId := ins.blockId, x := s.x, y := s.y, co := ins.co }]
        copies := addCopies n.copies (sc.block ins.blockId).itemCopies
        itemArea := n.itemArea + (sc.block ins.blockId).itemArea
        profit := n.profit + (sc.block ins.blockId).itemProfit
        numberOfItems := n.numberOfItems + (sc.block ins.blockId).numberOfItems
        valid := sc.stillValid (addCopies n.copies (sc.block ins.blockId).itemCopies) n.valid
        spaces := prune (sc.hasFitting (sc.stillValid
            (addCopies n.copies (sc.block ins.blockId).itemCopies) n.valid))
          (n.spaces.eraseIdx ins.spaceId ++ newSpaces sc.t s (sc.block ins.blockId).w
            (sc.block ins.blockId).h ins.co) } := by
  unfold Scheme.apply
  rw [hs, (block_some hb).1]

theorem perm_eraseIdx {l : List Space} {k : Nat} {s : Space} (h : l[k]? = some s) :
    l.Perm (s :: l.eraseIdx k) := by
  obtain ⟨hk, rfl⟩ := List.getElem?_eq_some_iff.mp h
  exact (List.getElem_cons_eraseIdx_perm hk).symm

theorem stateInv_apply (h : sc.Ok) (hn : StateInv sc n) (hi : ins ∈ sc.insertions n)
    (ha : sc.apply n ins = .ok n') : StateInv sc n' := by
  obtain ⟨s, hb, hs, hv, fw, fh, -⟩ := mem_insertions.mp hi
  obtain ⟨hlt, hval⟩ := (hn.valid _).mp hv
  rw [apply_eq hs hlt] at ha
  cases ha
  have hinv := h.blocks _ (block_some hlt).2
  generalize sc.block ins.blockId = b at *
  have hkeys : ∀ p ∈ b.itemCopies, p.1 < n.copies.length := by
    intro p hp; rw [hn.len]; exact hinv.exist p hp
  have hget := addCopies_getD b.itemCopies n.copies hkeys
  have hnn : ∀ i, 0 ≤ n.copies.getD i 0 := by
    intro i
    rw [List.getD_eq_getElem?_getD]
    cases hc : n.copies[i]? with
    | none => exact le_refl _
    | some c => exact hn.nonneg c (List.mem_of_getElem? hc)
  have hcnt : ∀ i, 0 ≤ cnt b.itemCopies i := by
    intro i
    by_cases h0 : cnt b.itemCopies i < 0
    · exfalso
      have : ∀ p ∈ b.itemCopies, p.1 ≠ i := by
        intro p hp he
        have h1 := hinv.pos p hp
        have h2 := (mem_iff_cnt hinv.incr hinv.pos p.1 p.2).mp hp
        rw [he] at h2
        omega
      rw [cnt_eq_zero this] at h0
      omega
    · omega
  have hnn' : ∀ i, 0 ≤ (addCopies n.copies b.itemCopies).getD i 0 := by
    intro i; rw [hget]; have := hnn i; have := hcnt i; omega
  refine ⟨?_, ?_, ?_, ?_, ?_, ?_⟩
  · dsimp only
    refine Holed.perm (prune_perm _ _).symm ?_
    refine Holed.filter _ ?_
    refine Holed.perm List.perm_append_comm ?_
    have h1 := Holed.perm (perm_eraseIdx hs) hn.holed
    have h2 := holed_newSpaces (s := s) (q := (cnt b.itemCopies, b.itemProfit, b.itemArea,
      b.numberOfItems)) ins.co h.thick hinv.posW hinv.posH fw fh hinv.cut
    have h3 := Holed.compose h1 h2
    have e : n.load + (cnt b.itemCopies, b.itemProfit, b.itemArea, b.numberOfItems)
        = State.load { placed := n.placed ++ [{ blockId := ins.blockId, x := s.x, y := s.y, co := ins.co }], copies := addCopies n.copies b.itemCopies, itemArea := n.itemArea + b.itemArea, profit := n.profit + b.itemProfit, numberOfItems := n.numberOfItems + b.numberOfItems } := by
      unfold State.load
      dsimp only
      simp only [hget]
      rfl
    rw [e] at h3
    exact h3
  · rw [addCopies_length]; exact hn.len
  · intro c hc
    obtain ⟨i, hi', rfl⟩ := List.getElem_of_mem hc
    have := hnn' i
    rwa [List.getD_eq_getElem _ _ hi'] at this
  · intro i hpos
    dsimp only at hpos ⊢
    rw [hget] at hpos ⊢
    by_cases h0 : 0 < cnt b.itemCopies i
    · exact hval (i, cnt b.itemCopies i) ((mem_iff_cnt hinv.incr hinv.pos i _).mpr ⟨rfl, h0⟩)
    · have := hcnt i
      have h1 := hn.le i (by omega)
      omega
  · intro id
    dsimp only
    rw [mem_stillValid, hn.valid]
    constructor
    · rintro ⟨⟨h1, -⟩, h2⟩; exact ⟨h1, h2⟩
    · rintro ⟨h1, h2⟩
      refine ⟨⟨h1, fun p hp => ?_⟩, h2⟩
      have := h2 p hp
      rw [hget] at this
      have := hcnt p.1
      omega
  · dsimp only
    rw [addCopies_sum _ _ hkeys, hn.sum, hinv.total]

theorem reached_inv (h : sc.Ok) (hr : Reached sc n) : StateInv sc n := by
  induction hr with
  | root => exact stateInv_root h
  | child _ hi ha ih => exact stateInv_apply h ih hi ha

/-- Every insertion can be carried out. -/
theorem apply_defined (h : sc.Ok) (hr : Reached sc n) (hi : ins ∈ sc.insertions n) :
    ∃ n', sc.apply n ins = .ok n' := by
  obtain ⟨s, hb, hs, hv, -⟩ := mem_insertions.mp hi
  exact ⟨_, apply_eq hs (((reached_inv h hr).valid _).mp hv).1⟩

theorem apply_number (h : sc.Ok) (hr : Reached sc n) (hi : ins ∈ sc.insertions n)
    (ha : sc.apply n ins = .ok n') : n.numberOfItems + 1 ≤ n'.numberOfItems := by
  obtain ⟨s, hb, hs, hv, -⟩ := mem_insertions.mp hi
  obtain ⟨hlt, -⟩ := ((reached_inv h hr).valid _).mp hv
  rw [apply_eq hs hlt] at ha
  cases ha
  have := (h.blocks _ (block_some hlt).2).many
  dsimp only
  omega

theorem sum_le_of_getD : ∀ (l : List Int) (m : List Int), l.length = m.length →
    (∀ i, l.getD i 0 ≤ m.getD i 0) → l.sum ≤ m.sum := by
  intro l
  induction l with
  | nil => intro m h _; cases m with
    | nil => simp
    | cons => simp at h
  | cons a l ih =>
    intro m h hle
    cases m with
    | nil => simp at h
    | cons b m =>
      have h0 := hle 0
      have h1 := ih m (by simpa using h) fun i => by simpa using hle (i + 1)
      simp at h0 ⊢
      omega

theorem getD_copies (inst : Instance) (i : Nat) :
    (inst.itemTypes.map ItemType.copies).getD i 0 = (inst.itemType i).copies := by
  unfold Instance.itemType
  rw [List.getD_eq_getElem?_getD, List.getD_eq_getElem?_getD, List.getElem?_map]
  cases inst.itemTypes[i]? <;> rfl

/-- No state holds more items than there are. -/
theorem number_le (h : sc.Ok) (hc : ∀ it ∈ sc.inst.itemTypes, 0 ≤ it.copies) (hr : Reached sc n) :
    n.numberOfItems ≤ (sc.inst.itemTypes.map ItemType.copies).sum := by
  have hn := reached_inv h hr
  rw [← hn.sum]
  refine sum_le_of_getD _ _ ?_ ?_
  · rw [hn.len, List.length_map]; rfl
  · intro i
    rw [getD_copies]
    by_cases h0 : 0 < n.copies.getD i 0
    · exact hn.le i h0
    · have : 0 ≤ (sc.inst.itemType i).copies := by
        unfold Instance.itemType
        rw [List.getD_eq_getElem?_getD]
        cases he : sc.inst.itemTypes[i]? with
        | none => exact le_refl _
        | some it => exact hc it (List.mem_of_getElem? he)
      omega

/-- The greedy completion ends. -/
theorem greedy_ok (h : sc.Ok) (hc : ∀ it ∈ sc.inst.itemTypes, 0 ≤ it.copies) :
    ∀ (fuel : Nat) {n : State}, Reached sc n →
    (sc.inst.itemTypes.map ItemType.copies).sum - n.numberOfItems < fuel →
    ∃ g, sc.greedy fuel n = .ok g ∧ Reached sc g ∧ sc.bestInsertion g = none
      ∧ n.placed <+: g.placed := by
  intro fuel
  induction fuel with
  | zero =>
    intro n hr hf
    have := number_le h hc hr
    omega
  | succ fuel ih =>
    intro n hr hf
    rw [Scheme.greedy]
    cases hb : sc.bestInsertion n with
    | none => exact ⟨n, rfl, hr, hb, List.prefix_refl _⟩
    | some ins =>
      obtain ⟨hi, -⟩ := bestInsertion_some hb
      obtain ⟨n', ha⟩ := apply_defined h hr hi
      have hnum := apply_number h hr hi ha
      obtain ⟨g, e, h1, h2, h3⟩ := ih (.child hr hi ha) (by omega)
      refine ⟨g, ?_, h1, h2, ?_⟩
      · dsimp only
        rw [ha]
        exact e
      · refine List.IsPrefix.trans ?_ h3
        obtain ⟨s, hb', hs, hv, -⟩ := mem_insertions.mp hi
        rw [apply_eq hs (((reached_inv h hr).valid _).mp hv).1] at ha
        cases ha
        exact List.prefix_append _ _

theorem reached_number_nonneg (h : sc.Ok) (hr : Reached sc n) : 0 ≤ n.numberOfItems := by
  have hn := reached_inv h hr
  rw [← hn.sum]
  exact List.sum_nonneg hn.nonneg

end

end PackingSolver.Guil.Spaces
