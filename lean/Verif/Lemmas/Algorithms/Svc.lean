import Verif.Spec.Svc
import Mathlib.Data.List.Count
import Mathlib.Data.List.GetD
import Mathlib.Data.List.Perm.Basic
import Mathlib.Algebra.BigOperators.Group.List.Basic
import Mathlib.Tactic.Linarith
import Mathlib.Tactic.Ring

/-!
# Lemmas for sequential value correction
-/

namespace PackingSolver.Svc.SvcLemmas

open PackingSolver.Svc.Spec

/-! ### Sums -/

theorem numberOfBins_append (l : List Bin) (b : Bin) :
    numberOfBins (l ++ [b]) = numberOfBins l + b.copies := by
  simp [numberOfBins]

theorem binCopies_append (l : List Bin) (b : Bin) (t : Nat) :
    binCopies (l ++ [b]) t = binCopies l t + if b.typeId = t then b.copies else 0 := by
  simp [binCopies]

theorem itemCopies_append (l : List Bin) (b : Bin) (i : Nat) :
    itemCopies (l ++ [b]) i = itemCopies l i + b.copies * (b.items.count i : Int) := by
  simp [itemCopies]

theorem binsUsed_eq (l : List Bin) (t : Nat) : binsUsed l t = binCopies l t := by
  induction l with
  | nil => rfl
  | cons b l ih =>
    unfold binsUsed binCopies at *
    by_cases h : b.typeId = t
    · simp [h, ih]
    · simp [h, ih]

theorem itemsUsed_eq (l : List Bin) (i : Nat) : itemsUsed l i = itemCopies l i := rfl

/-- Fixed items in the bins of a solution. -/
def fixedIn (inst : InstanceData) (l : List Bin) (i : Nat) : Int :=
  (l.map fun b => b.copies * binFixed inst b.typeId i).sum

theorem sum_range_ite (n t : Nat) (f : Nat → Int) (h : t < n) :
    ((List.range n).map fun s => if t = s then f s else 0).sum = f t := by
  induction n with
  | zero => omega
  | succ n ih =>
    rw [List.range_succ, List.map_append, List.sum_append]
    by_cases ht : t < n
    · rw [ih ht]
      have : t ≠ n := by omega
      simp [this]
    · have : t = n := by omega
      subst this
      have : ((List.range t).map fun s => if t = s then f s else 0).sum = 0 := by
        apply List.sum_eq_zero
        intro x hx
        rw [List.mem_map] at hx
        obtain ⟨s, hs, rfl⟩ := hx
        rw [List.mem_range] at hs
        rw [if_neg (by omega)]
      rw [this]; simp

theorem sum_map_add (l : List Nat) (f g : Nat → Int) :
    (l.map fun s => f s + g s).sum = (l.map f).sum + (l.map g).sum := by
  induction l with
  | nil => rfl
  | cons a l ih => simp only [List.map_cons, List.sum_cons, ih]; ring

theorem sum_binCopies (w : Nat → Int) (n : Nat) (l : List Bin) (h : ∀ b ∈ l, b.typeId < n) :
    (l.map fun b => b.copies * w b.typeId).sum
      = ((List.range n).map fun t => binCopies l t * w t).sum := by
  induction l with
  | nil => simp [binCopies]
  | cons b l ih =>
    rw [List.map_cons, List.sum_cons, ih fun b hb => h b (List.mem_cons_of_mem _ hb)]
    have e : ∀ t, binCopies (b :: l) t * w t
        = (if b.typeId = t then b.copies * w t else 0) + binCopies l t * w t := by
      intro t
      unfold binCopies
      rw [List.map_cons, List.sum_cons]
      split_ifs <;> ring
    rw [show (fun t => binCopies (b :: l) t * w t) = fun t =>
      (if b.typeId = t then b.copies * w t else 0) + binCopies l t * w t from funext e]
    rw [sum_map_add, sum_range_ite _ _ (fun t => b.copies * w t) (h b List.mem_cons_self)]

theorem sum_range_getD {α : Type*} (l : List α) (d : α) (f : α → Int) :
    ((List.range l.length).map fun t => f (l.getD t d)).sum = (l.map f).sum := by
  congr 1
  apply List.ext_getElem
  · simp
  · intro i h1 h2
    simp only [List.length_map, List.length_range] at h1
    rw [List.getElem_map, List.getElem_map, List.getElem_range, List.getD_eq_getElem _ _ h1]

theorem sum_map_le (l : List Nat) (f g : Nat → Int) (h : ∀ a ∈ l, f a ≤ g a) :
    (l.map f).sum ≤ (l.map g).sum := by
  induction l with
  | nil => exact le_refl _
  | cons a l ih =>
    rw [List.map_cons, List.map_cons, List.sum_cons, List.sum_cons]
    have h1 := h a List.mem_cons_self
    have h2 := ih fun b hb => h b (List.mem_cons_of_mem _ hb)
    omega

theorem numberOfBins_le (inst : InstanceData) (l : List Bin)
    (ht : ∀ b ∈ l, b.typeId < inst.binTypes.length)
    (h : ∀ t, binCopies l t ≤ (inst.binType t).copies) :
    numberOfBins l ≤ inst.numberOfBins := by
  have e := sum_binCopies (fun _ => 1) inst.binTypes.length l ht
  simp only [mul_one] at e
  unfold numberOfBins InstanceData.numberOfBins
  rw [e, ← sum_range_getD inst.binTypes {} fun t => t.copies]
  exact sum_map_le _ _ _ fun t _ => h t

theorem fixedIn_le (inst : InstanceData) (l : List Bin) (i : Nat)
    (ht : ∀ b ∈ l, b.typeId < inst.binTypes.length)
    (h : ∀ t, binCopies l t ≤ (inst.binType t).copies) :
    fixedIn inst l i ≤ inst.copiesFixed i := by
  unfold fixedIn
  rw [sum_binCopies (fun t => binFixed inst t i) inst.binTypes.length l ht]
  unfold InstanceData.copiesFixed
  rw [← sum_range_getD inst.binTypes {} fun t => t.copies * (t.fixedItems.count i : Int)]
  exact sum_map_le _ _ _ fun t _ =>
    mul_le_mul_of_nonneg_right (h t) (by unfold binFixed; exact Int.natCast_nonneg _)

theorem sum_copies_nonneg (l : List BinTypeData) (h : ∀ t ∈ l, 0 ≤ t.copies) :
    0 ≤ (l.map fun t => t.copies).sum := by
  induction l with
  | nil => exact le_refl _
  | cons b l ih =>
    rw [List.map_cons, List.sum_cons]
    have h1 := h b List.mem_cons_self
    have h2 := ih fun t ht => h t (List.mem_cons_of_mem _ ht)
    omega

/-! ### The invariant -/

structure Inv (inst : InstanceData) (P : Nat → List Nat → Prop) (bins : List Bin)
    (pf : Nat → Int) : Prop where
  types : ∀ b ∈ bins, b.typeId < inst.binTypes.length ∧ 1 ≤ b.copies
    ∧ ∀ i ∈ b.items, i < inst.itemCopies.length
  pred : ∀ b ∈ bins, P b.typeId b.items
  copies : ∀ t, binCopies bins t ≤ (inst.binType t).copies
  fixed : ∀ i, pf i ≤ fixedIn inst bins i
  free : ∀ i, itemCopies bins i - pf i ≤ inst.itemCopies.getD i 0 - inst.copiesFixed i

theorem Inv.within {inst : InstanceData} {P : Nat → List Nat → Prop} {bins : List Bin}
    {pf : Nat → Int} (h : Inv inst P bins pf) : WithinCopies inst bins := by
  refine ⟨h.types, fun t => by rw [binsUsed_eq]; exact h.copies t, fun i => ?_⟩
  rw [itemsUsed_eq]
  have h1 := h.free i
  have h2 := h.fixed i
  have h3 := fixedIn_le inst bins i (fun b hb => (h.types b hb).1) h.copies
  omega

theorem binType_copies_nonneg {inst : InstanceData} (hv : ValidInstance inst) (t : Nat) :
    0 ≤ (inst.binType t).copies ∧
      (t < inst.binTypes.length → (inst.binType t).copiesMin ≤ (inst.binType t).copies) := by
  unfold InstanceData.binType
  by_cases ht : t < inst.binTypes.length
  · rw [List.getD_eq_getElem _ _ ht]
    exact ⟨(hv.copies _ (List.getElem_mem ht)).1, fun _ => (hv.copies _ (List.getElem_mem ht)).2⟩
  · rw [List.getD_eq_default _ _ (by omega)]
    exact ⟨by decide, fun h => absurd h ht⟩

theorem Inv.nil {inst : InstanceData} {P : Nat → List Nat → Prop} (hv : ValidInstance inst) :
    Inv inst P [] (fun _ => 0) := by
  refine ⟨by simp, by simp, fun t => ?_, fun i => ?_, fun i => ?_⟩
  · exact (binType_copies_nonneg hv t).1
  · simp [fixedIn]
  · have := hv.fixed i
    simp only [itemCopies, List.map_nil, List.sum_nil]
    omega

theorem Inv.append {inst : InstanceData} {P : Nat → List Nat → Prop} {bins : List Bin}
    {pf : Nat → Int} (h : Inv inst P bins pf) (t : Nat) (n : Int) (items : List Nat)
    (ht : t < inst.binTypes.length) (hn : 1 ≤ n)
    (hc : n ≤ (inst.binType t).copies - binCopies bins t)
    (hi : ∀ i ∈ items, i < inst.itemCopies.length) (hP : P t items)
    (hf : ∀ i, n * ((items.count i : Int) - binFixed inst t i)
      ≤ inst.itemCopies.getD i 0 - inst.copiesFixed i - (itemCopies bins i - pf i)) :
    Inv inst P (bins ++ [⟨t, n, items⟩]) (fun i => pf i + n * binFixed inst t i) := by
  refine ⟨?_, ?_, ?_, ?_, ?_⟩
  · intro b hb
    rcases List.mem_append.1 hb with hb | hb
    · exact h.types b hb
    · rw [List.mem_singleton] at hb
      subst hb
      exact ⟨ht, hn, hi⟩
  · intro b hb
    rcases List.mem_append.1 hb with hb | hb
    · exact h.pred b hb
    · rw [List.mem_singleton] at hb
      subst hb
      exact hP
  · intro s
    rw [binCopies_append]
    have := h.copies s
    by_cases e : t = s
    · subst e; simp only [if_true]; omega
    · simp only [if_neg e]; omega
  · intro i
    have := h.fixed i
    unfold fixedIn at *
    rw [List.map_append, List.sum_append]
    simp only [List.map_cons, List.map_nil, List.sum_cons, List.sum_nil]
    omega
  · intro i
    rw [itemCopies_append]
    have := hf i
    have e : n * ((items.count i : Int) - binFixed inst t i)
        = n * (items.count i : Int) - n * binFixed inst t i := by ring
    rw [e] at this
    simp only
    omega

/-- An empty bin. -/
theorem Inv.append_empty {inst : InstanceData} {P : Nat → List Nat → Prop} {bins : List Bin}
    {pf : Nat → Int} (h : Inv inst P bins pf) (t : Nat)
    (ht : t < inst.binTypes.length) (hP : P t [])
    (hc : binCopies bins t < (inst.binType t).copies) :
    Inv inst P (bins ++ [⟨t, 1, []⟩]) pf := by
  refine ⟨?_, ?_, ?_, ?_, ?_⟩
  · intro b hb
    rcases List.mem_append.1 hb with hb | hb
    · exact h.types b hb
    · rw [List.mem_singleton] at hb
      subst hb
      exact ⟨ht, le_refl _, by simp⟩
  · intro b hb
    rcases List.mem_append.1 hb with hb | hb
    · exact h.pred b hb
    · rw [List.mem_singleton] at hb
      subst hb
      exact hP
  · intro s
    rw [binCopies_append]
    have := h.copies s
    by_cases e : t = s
    · subst e; simp only [if_true]; omega
    · simp only [if_neg e]; omega
  · intro i
    have := h.fixed i
    have h0 : 0 ≤ binFixed inst t i := Int.natCast_nonneg _
    unfold fixedIn at *
    rw [List.map_append, List.sum_append]
    simp only [List.map_cons, List.map_nil, List.sum_cons, List.sum_nil]
    omega
  · intro i
    rw [itemCopies_append]
    have := h.free i
    have e : (([] : List Nat).count i : Int) = 0 := by simp
    simp only [e, mul_zero, add_zero]
    exact this

/-! ### The number of copies -/

theorem fold_le (inst : InstanceData) (st : State) (t : Nat) (items ids : List Nat) (n0 : Int) :
    let r := ids.foldl (fun n i =>
      let freePacked := (items.count i : Int) - binFixed inst t i
      if freePacked > 0 then min n ((freeRemaining inst st i).tdiv freePacked) else n) n0
    r ≤ n0 ∧ ∀ i ∈ ids, (items.count i : Int) - binFixed inst t i > 0 →
      r ≤ (freeRemaining inst st i).tdiv ((items.count i : Int) - binFixed inst t i) := by
  induction ids generalizing n0 with
  | nil => simp
  | cons a ids ih =>
    intro r
    dsimp only at ih
    have h := ih (if (items.count a : Int) - binFixed inst t a > 0 then
      min n0 ((freeRemaining inst st a).tdiv ((items.count a : Int) - binFixed inst t a)) else n0)
    have hle : (if (items.count a : Int) - binFixed inst t a > 0 then
      min n0 ((freeRemaining inst st a).tdiv ((items.count a : Int) - binFixed inst t a)) else n0)
        ≤ n0 := by
      split_ifs
      · exact min_le_left _ _
      · exact le_refl _
    refine ⟨le_trans h.1 hle, fun i hi hp => ?_⟩
    rcases List.mem_cons.1 hi with rfl | hi
    · refine le_trans h.1 ?_
      rw [if_pos hp]
      exact min_le_right _ _
    · exact h.2 i hi hp

theorem fold_ge (inst : InstanceData) (st : State) (t : Nat) (items ids : List Nat) (n0 : Int)
    (h0 : 1 ≤ n0)
    (h : ∀ i ∈ ids, (items.count i : Int) - binFixed inst t i > 0 →
      (items.count i : Int) - binFixed inst t i ≤ freeRemaining inst st i) :
    1 ≤ ids.foldl (fun n i =>
      let freePacked := (items.count i : Int) - binFixed inst t i
      if freePacked > 0 then min n ((freeRemaining inst st i).tdiv freePacked) else n) n0 := by
  induction ids generalizing n0 with
  | nil => exact h0
  | cons a ids ih =>
    rw [List.foldl_cons]
    refine ih _ ?_ fun i hi => h i (List.mem_cons_of_mem _ hi)
    dsimp only
    by_cases hp : (items.count a : Int) - binFixed inst t a > 0
    · rw [if_pos hp]
      refine le_min h0 ?_
      have h1 := h a List.mem_cons_self hp
      rw [Int.tdiv_eq_ediv_of_nonneg (by omega)]
      exact Int.le_ediv_of_mul_le hp (by omega)
    · rw [if_neg hp]; exact h0

/-- A bin that fits: no item type more often than available. -/
def Fits (inst : InstanceData) (st : State) (t : Nat) (items : List Nat) : Prop :=
  ∀ i, (items.count i : Int) ≤ max 0 (available inst st t i) ∧
    (i ∈ items → i < inst.itemCopies.length)

theorem Fits.free {inst : InstanceData} {st : State} {t : Nat} {items : List Nat}
    (h : Fits inst st t items) (i : Nat) (hp : (items.count i : Int) - binFixed inst t i > 0) :
    (items.count i : Int) - binFixed inst t i ≤ freeRemaining inst st i
      ∧ 0 < available inst st t i ∧ i < inst.itemCopies.length := by
  have h0 : 0 ≤ binFixed inst t i := Int.natCast_nonneg _
  have h1 := (h i).1
  have hm : i ∈ items := by
    rw [← List.count_pos_iff]; omega
  refine ⟨?_, ?_, (h i).2 hm⟩
  · unfold available at h1; omega
  · omega

theorem numberOfCopies_facts {inst : InstanceData} {st : State} {t : Nat} {items ids : List Nat}
    (hfree : ∀ i, 0 ≤ freeRemaining inst st i)
    (hids : ∀ i, (items.count i : Int) - binFixed inst t i > 0 → i ∈ ids) :
    numberOfCopies inst st t items ids ≤ (inst.binType t).copies - binCopies st.bins t ∧
    (1 ≤ numberOfCopies inst st t items ids →
      ∀ i, numberOfCopies inst st t items ids * ((items.count i : Int) - binFixed inst t i)
      ≤ freeRemaining inst st i) := by
  have h := fold_le inst st t items ids ((inst.binType t).copies - binCopies st.bins t)
  dsimp only at h
  refine ⟨h.1, fun hn i => ?_⟩
  unfold numberOfCopies at hn ⊢
  by_cases hp : (items.count i : Int) - binFixed inst t i > 0
  · have h2 := h.2 i (hids i hp) hp
    rw [Int.tdiv_eq_ediv_of_nonneg (hfree i)] at h2
    exact Int.mul_le_of_le_ediv hp h2
  · refine le_trans ?_ (hfree i)
    exact Int.mul_nonpos_of_nonneg_of_nonpos (by omega) (by omega)

theorem numberOfCopies_pos {inst : InstanceData} {st : State} {t : Nat} {items ids : List Nat}
    (hf : Fits inst st t items) (hc : binCopies st.bins t < (inst.binType t).copies) :
    1 ≤ numberOfCopies inst st t items ids :=
  fold_ge inst st t items ids _ (by omega) fun i _ hp => (hf.free i hp).1

/-! ### One bin type -/

/-- The order of the bins, unless any bin type may be used at any time. -/
def Ordered (inst : InstanceData) (bins : List Bin) : Prop :=
  inst.objective ≠ .variableSizedBinPacking →
    binSequence bins = (binTypeIdsByPosition inst).take (binSequence bins).length

/-- All items are packed or all bins are used, unless bins may be chosen freely. -/
def Complete (inst : InstanceData) (bins : List Bin) : Prop :=
  inst.objective ≠ .variableSizedBinPacking →
    numberOfItems bins = inst.numberOfItems ∨ numberOfBins bins = inst.numberOfBins

/-- What is known of an emitted solution. -/
structure EmittedOk (inst : InstanceData) (P : Nat → List Nat → Prop) (s : List Bin) : Prop where
  within : WithinCopies inst s
  pred : ∀ b ∈ s, P b.typeId b.items
  ordered : Ordered inst s
  complete : Complete inst s

/-- What holds before and after each bin type is tried. -/
structure StepInv (inst : InstanceData) (P : Nat → List Nat → Prop) (st : State) : Prop where
  inv : Inv inst P st.bins st.partialFixed
  cur : ∀ t, ∀ i ∈ (st.cur t).1, i < inst.itemCopies.length
  curP : ∀ t, P t (st.cur t).1
  emitted : ∀ s ∈ st.emitted, EmittedOk inst P s

theorem StepInv.free {inst : InstanceData} {P : Nat → List Nat → Prop} {st : State}
    (h : StepInv inst P st) (i : Nat) :
    0 ≤ freeRemaining inst st i := by
  have := h.inv.free i
  unfold freeRemaining
  omega

theorem fits_congr {inst : InstanceData} {st st' : State} (hb : st'.bins = st.bins)
    (hp : st'.partialFixed = st.partialFixed) {t : Nat} {items : List Nat} :
    Fits inst st' t items ↔ Fits inst st t items := by
  unfold Fits available freeRemaining
  rw [hb, hp]

theorem tryBinType_facts {inst : InstanceData} {P : Nat → List Nat → Prop} {o : Oracle}
    (ho : FeasibleAnswers inst o) (hP : AnswersSatisfy o P)
    {it : Nat} {st : State} {t : Nat} (h : StepInv inst P st) (ht : t < inst.binTypes.length)
    (hc : binCopies st.bins t < (inst.binType t).copies) :
    let r := tryBinType inst o it st t
    StepInv inst P r.1 ∧ r.1.bins = st.bins ∧ r.1.partialFixed = st.partialFixed ∧
    (∀ s, s ≠ t → r.1.cur s = st.cur s) ∧
    (r.2 = .running → Fits inst st t (r.1.cur t).1) ∧
    (r.2 = .running ∨ r.2 = .returned ∨
      (r.2 = .threw .invalidArgument ∧ (inst.binType t).copiesMin > 1)) := by
  intro r
  have hr : r = tryBinType inst o it st t := rfl
  unfold tryBinType at hr
  dsimp only at hr
  split_ifs at hr with h1 h2 h3
  · rw [hr]
    refine ⟨h, rfl, rfl, fun _ _ => rfl, fun _ i => ⟨?_, h.cur t i⟩, .inl rfl⟩
    by_cases hi : i < inst.itemCopies.length
    · have := h1.2.2 i hi
      dsimp only
      omega
    · have : (st.cur t).1.count i = 0 := by
        rw [List.count_eq_zero]
        exact fun hm => hi (h.cur t i hm)
      rw [this]; exact le_max_left _ _
  · rw [hr]
    exact ⟨h, rfl, rfl, fun _ _ => rfl, by simp, .inr (.inr ⟨rfl, h2⟩)⟩
  · rw [hr]
    exact ⟨h, rfl, rfl, fun _ _ => rfl, by simp, .inr (.inl rfl)⟩
  · cases hk : o.kp it st t (fun i => max 0 (available inst st t i)) with
    | none =>
      simp only [hk] at hr
      rw [hr]
      refine ⟨⟨h.inv, ?_, ?_, h.emitted⟩, rfl, rfl, fun s hs => ?_, fun _ i => ?_, .inl rfl⟩
      · intro s i hi
        dsimp only at hi
        by_cases e : s = t
        · subst e; rw [Function.update_self] at hi; simp at hi
        · rw [Function.update_of_ne e] at hi; exact h.cur s i hi
      · intro s
        dsimp only
        by_cases e : s = t
        · subst e; rw [Function.update_self]; exact hP.empty s
        · rw [Function.update_of_ne e]; exact h.curP s
      · dsimp only; rw [Function.update_of_ne hs]
      · dsimp only; rw [Function.update_self]; simp
    | some p =>
      simp only [hk] at hr
      have hp := ho.1 _ _ _ _ _ (fun i => le_max_left _ _) hk
      have hfit : Fits inst st t p.1 := fun i => ⟨(hp i).1, (hp i).2⟩
      have hn := numberOfCopies_pos (ids := (List.range inst.itemCopies.length).filter fun i =>
        available inst st t i > 0) hfit hc
      rw [if_neg (by omega)] at hr
      generalize hN : numberOfCopies inst st t p.1 ((List.range inst.itemCopies.length).filter
        fun i => available inst st t i > 0) = n at hr hn
      generalize hR : decide (inst.objective = Objective.binPackingWithLeftovers ∧
        numberOfItems st.bins + n * (p.1.length : Int) = inst.numberOfItems) = re at hr
      generalize hp' : (if re = true then (o.leftovers it st t fun i =>
        if available inst st t i > 0 then
          (freeRemaining inst st i).tdiv n + binFixed inst t i else 0).getD p else p) = p' at hr
      by_cases h5 : re = true ∧ o.ends it st (2 * t + 2) = true
      · rw [if_pos h5] at hr
        rw [hr]
        exact ⟨h, rfl, rfl, fun _ _ => rfl, by simp, .inr (.inl rfl)⟩
      rw [if_neg h5] at hr
      have hfit' : Fits inst st t p'.1 := by
        rw [← hp']
        split_ifs with h7
        · cases hq : o.leftovers it st t fun i =>
              if available inst st t i > 0 then
                (freeRemaining inst st i).tdiv n + binFixed inst t i else 0 with
          | none => exact hfit
          | some q =>
            intro i
            have hq' := ho.2 _ _ _ _ _ (fun i => by
              split_ifs
              · have hf := h.free i
                rw [Int.tdiv_eq_ediv_of_nonneg hf]
                have h0 : 0 ≤ binFixed inst t i := Int.natCast_nonneg _
                have h1 : 0 ≤ freeRemaining inst st i / n := Int.ediv_nonneg hf (by omega)
                omega
              · exact le_refl _) hq i
            rw [Option.getD_some]
            refine ⟨le_trans hq'.1 ?_, hq'.2⟩
            split_ifs with h8
            · have hf := h.free i
              rw [Int.tdiv_eq_ediv_of_nonneg hf]
              have : freeRemaining inst st i / n ≤ freeRemaining inst st i :=
                Int.ediv_le_self _ hf
              unfold available
              omega
            · exact le_max_left _ _
        · exact hfit
      have hcur : ∀ s, ∀ i ∈ (Function.update st.cur t p' s).1, i < inst.itemCopies.length := by
        intro s i hi
        by_cases e : s = t
        · subst e; rw [Function.update_self] at hi; exact (hfit' i).2 hi
        · rw [Function.update_of_ne e] at hi; exact h.cur s i hi
      have hPp' : P t p'.1 := by
        rw [← hp']
        split_ifs with h7
        · cases hq : o.leftovers it st t fun i =>
              if available inst st t i > 0 then
                (freeRemaining inst st i).tdiv n + binFixed inst t i else 0 with
          | none => exact hP.kp _ _ _ _ _ hk
          | some q => exact hP.leftovers _ _ _ _ _ hq
        · exact hP.kp _ _ _ _ _ hk
      have hcurP : ∀ s, P s (Function.update st.cur t p' s).1 := by
        intro s
        by_cases e : s = t
        · subst e; rw [Function.update_self]; exact hPp'
        · rw [Function.update_of_ne e]; exact h.curP s
      by_cases h6 : inst.objective = Objective.variableSizedBinPacking ∧
          numberOfItems st.bins + n * (p'.1.length : Int) = inst.numberOfItems
      · rw [if_pos h6] at hr
        rw [hr]
        refine ⟨⟨h.inv, hcur, hcurP, ?_⟩, rfl, rfl, fun s hs => by
          dsimp only; rw [Function.update_of_ne hs], fun _ => by
          dsimp only; rw [Function.update_self]; exact hfit', .inl rfl⟩
        intro s hs
        rcases List.mem_append.1 hs with hs | hs
        · exact h.emitted s hs
        · rw [List.mem_singleton] at hs
          subst hs
          have hpp : p' = p := by
            rw [← hp', if_neg]
            intro h7
            rw [h7] at hR
            have := of_decide_eq_true hR
            rw [h6.1] at this
            exact absurd this.1 (by decide)
          have hfacts := numberOfCopies_facts (inst := inst) (st := st) (t := t) (items := p.1)
            (ids := (List.range inst.itemCopies.length).filter fun i =>
              available inst st t i > 0) h.free fun i hi => by
                have := hfit.free i hi
                rw [List.mem_filter, List.mem_range]
                exact ⟨this.2.2, decide_eq_true this.2.1⟩
          rw [hN] at hfacts
          rw [hpp]
          have hA := h.inv.append t n p.1 ht hn hfacts.1 (fun i hi => (hfit i).2 hi)
            (hP.kp _ _ _ _ _ hk) (fun i => hfacts.2 hn i)
          exact ⟨hA.within, hA.pred, fun hne => absurd h6.1 hne, fun hne => absurd h6.1 hne⟩
      · rw [if_neg h6] at hr
        rw [hr]
        exact ⟨⟨h.inv, hcur, hcurP, h.emitted⟩, rfl, rfl, fun s hs => by
          dsimp only; rw [Function.update_of_ne hs], fun _ => by
          dsimp only; rw [Function.update_self]; exact hfit', .inl rfl⟩

end PackingSolver.Svc.SvcLemmas
