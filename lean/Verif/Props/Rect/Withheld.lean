import Verif.Props.Rect.TreeSearchEx
import Mathlib.Data.Prod.Lex
import Mathlib.Data.Finset.Max

/-!
# Item types withheld by the rectangle tree search
-/

namespace PackingSolver.Rect.TreeSearch

variable {inst : Instance} {params : Parameters} {s : Scheme} {n : Node}
  {sortByX : List PlacedItem → List PlacedItem}

/-- What the predecessor strategy ranks item types by, best first: profit, weight or the opposite of
the weight. -/
def rank (strategy : Nat) (t : ItemType) : ℚ :=
  match strategy with
  | 0 => -t.profit
  | 1 => t.weight
  | _ => -t.weight

/-- Item type `j` is ranked before item type `i`: same group, and better, or as good and first. -/
structure Ranked (inst : Instance) (strategy : Nat) (i j : Nat) : Prop where
  exists_ : j < inst.numberOfItemTypes
  group : (inst.itemType j).groupId = (inst.itemType i).groupId
  rank : rank strategy (inst.itemType j) < rank strategy (inst.itemType i)
    ∨ (rank strategy (inst.itemType j) = rank strategy (inst.itemType i) ∧ j < i)

/-- The same piece: the same sides in some allowed order, both rotatable or both not. -/
def SamePiece (a b : ItemType) : Prop :=
  (a.x = b.x ∧ a.y = b.y ∧ a.oriented = b.oriented)
  ∨ (a.x = b.y ∧ a.y = b.x ∧ a.oriented = false ∧ b.oriented = false)

/-- The piece `b`, that may not be rotated, is the rotatable piece `a` in this rotation. -/
def FixedPiece (rotated : Bool) (a b : ItemType) : Prop :=
  a.oriented = false ∧ b.oriented = true
    ∧ if rotated then a.x = b.y ∧ a.y = b.x else a.x = b.x ∧ a.y = b.y

theorem dominates_rank {strategy : Nat} {a b : ItemType} {d : Bool}
    (h : itemTypeDominates strategy a b = .ok d) :
    d = true ↔ rank strategy a ≤ rank strategy b := by
  unfold itemTypeDominates at h
  unfold rank
  split at h
  · cases h; rw [decide_eq_true_eq]
    show _ ↔ -a.profit ≤ -b.profit
    constructor <;> intro h <;> linarith
  · cases h; rw [decide_eq_true_eq]
    exact Iff.rfl
  · cases h; rw [decide_eq_true_eq]
    show _ ↔ -a.weight ≤ -b.weight
    constructor <;> intro h <;> linarith
  · cases h

theorem comesBefore_iff {strategy i j : Nat} {c : Bool} (hj : j < inst.numberOfItemTypes)
    (h : comesBefore inst strategy i j = .ok c) : c = true ↔ Ranked inst strategy i j := by
  unfold comesBefore at h
  dsimp only at h
  by_cases h1 : i = j
  · rw [if_pos h1] at h
    cases h
    constructor
    · intro h; cases h
    · rintro ⟨_, _, h | h⟩
      · rw [h1] at h; exact absurd h (lt_irrefl _)
      · omega
  rw [if_neg h1] at h
  by_cases h2 : (inst.itemType i).groupId ≠ (inst.itemType j).groupId
  · rw [if_pos h2] at h
    cases h
    constructor
    · intro h; cases h
    · intro h; exact absurd h.group.symm h2
  · rw [if_neg h2] at h
    obtain ⟨d, hd, h⟩ := bind_ok.mp h
    have hd := dominates_rank hd
    have hg : (inst.itemType j).groupId = (inst.itemType i).groupId := (not_not.mp h2).symm
    cases d with
    | false =>
      cases h
      constructor
      · intro h; cases h
      · rintro ⟨_, _, h | h⟩
        · exact absurd (hd.mpr (le_of_lt h)) (by decide)
        · exact absurd (hd.mpr (le_of_eq h.1)) (by decide)
    | true =>
      have hle := hd.mp rfl
      simp only [Bool.not_true, Bool.false_eq_true, if_false] at h
      split_ifs at h with h3
      · obtain ⟨d', hd', h⟩ := bind_ok.mp h
        have hd' := dominates_rank hd'
        cases h
        cases d' with
        | false =>
          constructor
          · intro _
            refine ⟨hj, hg, .inl (lt_of_not_ge fun hh => ?_)⟩
            exact absurd (hd'.mpr hh) (by decide)
          · intro _; rfl
        | true =>
          have hle' := hd'.mp rfl
          constructor
          · intro h; cases h
          · rintro ⟨_, _, h | h⟩
            · exact absurd hle' (not_le.mpr h)
            · omega
      · cases h
        refine ⟨fun _ => ⟨hj, hg, ?_⟩, fun _ => rfl⟩
        rcases lt_or_eq_of_le hle with h | h
        · exact .inl h
        · exact .inr ⟨h, by omega⟩

theorem filterAuxM_ok {α : Type} {p : α → Except Err Bool} {l : List α} : ∀ {acc m : List α},
    l.filterAuxM p acc = .ok m → (∀ x ∈ l, ∃ b, p x = .ok b)
      ∧ ∀ x, x ∈ m ↔ x ∈ acc ∨ (x ∈ l ∧ p x = .ok true) := by
  induction l with
  | nil =>
    intro acc m h
    cases h
    simp
  | cons y l ih =>
    intro acc m h
    unfold List.filterAuxM at h
    obtain ⟨b, hb, h⟩ := bind_ok.mp h
    obtain ⟨i1, i2⟩ := ih h
    refine ⟨fun x hx => ?_, fun x => ?_⟩
    · rcases List.mem_cons.mp hx with rfl | hx
      · exact ⟨b, hb⟩
      · exact i1 x hx
    · rw [i2]
      cases b with
      | true =>
        simp only [cond_true, List.mem_cons]
        constructor
        · rintro ((rfl | h) | h)
          · exact .inr ⟨.inl rfl, hb⟩
          · exact .inl h
          · exact .inr ⟨.inr h.1, h.2⟩
        · rintro (h | ⟨rfl | h, h'⟩)
          · exact .inl (.inr h)
          · exact .inl (.inl rfl)
          · exact .inr ⟨h, h'⟩
      | false =>
        simp only [cond_false, List.mem_cons]
        constructor
        · rintro (h | h)
          · exact .inl h
          · exact .inr ⟨.inr h.1, h.2⟩
        · rintro (h | ⟨rfl | h, h'⟩)
          · exact .inl h
          · rw [hb] at h'; cases h'
          · exact .inr ⟨h, h'⟩

theorem filterM_ok {α : Type} {p : α → Except Err Bool} {l m : List α}
    (h : l.filterM p = .ok m) : (∀ x ∈ l, ∃ b, p x = .ok b)
      ∧ ∀ x, x ∈ m ↔ x ∈ l ∧ p x = .ok true := by
  unfold List.filterM at h
  obtain ⟨m', hm', h⟩ := bind_ok.mp h
  cases h
  obtain ⟨h1, h2⟩ := filterAuxM_ok hm'
  refine ⟨h1, fun x => ?_⟩
  rw [List.mem_reverse, h2]
  simp

theorem mapM_forall₂_ok {α β : Type} {f : α → Except Err β} {l : List α} :
    ∀ {m : List β}, l.mapM f = .ok m → List.Forall₂ (fun x y => f x = .ok y) l m := by
  induction l with
  | nil => intro m h; simp [pure, Except.pure] at h; subst h; exact .nil
  | cons x l ih =>
    intro m h
    rw [List.mapM_cons] at h
    obtain ⟨y, hy, h⟩ := bind_ok.mp h
    obtain ⟨m', hm', h⟩ := bind_ok.mp h
    cases h
    exact .cons hy (ih hm')

theorem mapM_range_ok {α : Type} {n : Nat} {f : Nat → Except Err α} {m : List α} {d : α}
    (h : (List.range n).mapM f = .ok m) : ∀ i < n, f i = .ok (m.getD i d) := by
  intro i hi
  have h2 := List.forall₂_iff_get.mp (mapM_forall₂_ok h)
  have hl : i < m.length := by rw [← h2.1]; simpa using hi
  have := h2.2 i (by simpa using hi) hl
  rw [List.getD_eq_getElem _ _ hl]
  simpa using this

/-- The meaning of the three tables. -/
theorem table_row {strategy : Nat} {test : ItemType → ItemType → Bool} {tab : List (List Nat)}
    (h : predecessorTable inst strategy test = .ok tab) {i : Nat}
    (hi : i < inst.numberOfItemTypes) (j : Nat) :
    j ∈ tab.getD i [] ↔ Ranked inst strategy i j
      ∧ test (inst.itemType i) (inst.itemType j) = true := by
  unfold predecessorTable at h
  obtain ⟨h1, h2⟩ := filterM_ok (mapM_range_ok (d := []) h i hi)
  rw [h2]
  constructor
  · rintro ⟨hj, h⟩
    obtain ⟨c, hc, h⟩ := bind_ok.mp h
    have h := Except.ok.inj h
    rw [Bool.and_eq_true] at h
    exact ⟨(comesBefore_iff (List.mem_range.mp hj) hc).mp h.1, h.2⟩
  · rintro ⟨hr, ht⟩
    have hj := List.mem_range.mpr hr.exists_
    refine ⟨hj, ?_⟩
    obtain ⟨b, hb⟩ := h1 j hj
    obtain ⟨c, hc, hb⟩ := bind_ok.mp hb
    rw [hc, (comesBefore_iff hr.exists_ hc).mpr hr, ht]
    rfl

theorem scheme_tables (h : Scheme.new inst params sortByX = .ok s) :
    s.inst = inst
    ∧ predecessorTable inst params.predecessorStrategy samePiece = .ok s.predecessors
    ∧ predecessorTable inst params.predecessorStrategy samePieceUnrotated = .ok s.predecessors1
    ∧ predecessorTable inst params.predecessorStrategy samePieceRotated = .ok s.predecessors2 := by
  unfold Scheme.new at h
  obtain ⟨f, -, h⟩ := bind_ok.mp h
  dsimp only at h
  obtain ⟨p0, h0, h⟩ := bind_ok.mp h
  obtain ⟨p1, h1, h⟩ := bind_ok.mp h
  obtain ⟨p2, h2, h⟩ := bind_ok.mp h
  split at h
  · cases h; exact ⟨rfl, h0, h1, h2⟩
  · obtain ⟨r, -, h⟩ := bind_ok.mp h
    cases h; exact ⟨rfl, h0, h1, h2⟩

theorem allPacked_iff {preds : List (List Nat)} {i : Nat} (he : s.inst = inst) :
    allPacked s n preds i = true ↔ ∀ j ∈ preds.getD i [],
      n.itemNumberOfCopies.getD j 0 = (inst.itemType j).copies := by
  unfold allPacked
  rw [List.all_eq_true, he]
  simp only [Bool.not_eq_true', decide_eq_false_iff_not, not_not]

/-- **C113**: an item type is considered exactly if it has copies left and every item type with the
same piece that is ranked before it has none. -/
theorem considered_withheld_iff (h : Scheme.new inst params sortByX = .ok s) {i : Nat}
    (hi : i < inst.numberOfItemTypes) :
    considered s inst n i = true ↔ n.itemNumberOfCopies.getD i 0 ≠ (inst.itemType i).copies
      ∧ ∀ j, Ranked inst params.predecessorStrategy i j →
        SamePiece (inst.itemType i) (inst.itemType j) →
        n.itemNumberOfCopies.getD j 0 = (inst.itemType j).copies := by
  obtain ⟨he, h0, -, -⟩ := scheme_tables h
  unfold considered
  rw [Bool.and_eq_true, allPacked_iff he, and_comm]
  simp only [Bool.not_eq_true', decide_eq_false_iff_not]
  refine and_congr Iff.rfl (forall_congr' fun j => ?_)
  rw [table_row h0 hi]
  unfold samePiece SamePiece
  simp only [Bool.or_eq_true, Bool.and_eq_true, decide_eq_true_eq, Bool.not_eq_true', and_imp,
    and_assoc]

/-- **C113**: a rotation of an item type is tried exactly if it is allowed and every item type ranked
before it that is that piece, and may not be rotated, has no copies left. -/
theorem rotation_iff (h : Scheme.new inst params sortByX = .ok s) {i : Nat}
    (hi : i < inst.numberOfItemTypes) (rotated : Bool) :
    rotated ∈ rotations s n (inst.itemType i) i ↔
      (rotated = true → (inst.itemType i).oriented = false)
      ∧ ∀ j, Ranked inst params.predecessorStrategy i j →
        FixedPiece rotated (inst.itemType i) (inst.itemType j) →
        n.itemNumberOfCopies.getD j 0 = (inst.itemType j).copies := by
  obtain ⟨he, -, h1, h2⟩ := scheme_tables h
  have e1 : allPacked s n s.predecessors1 i = true ↔ ∀ j,
      Ranked inst params.predecessorStrategy i j →
        FixedPiece false (inst.itemType i) (inst.itemType j) →
        n.itemNumberOfCopies.getD j 0 = (inst.itemType j).copies := by
    rw [allPacked_iff he]
    refine forall_congr' fun j => ?_
    rw [table_row h1 hi]
    unfold samePieceUnrotated FixedPiece
    simp only [Bool.and_eq_true, decide_eq_true_eq, Bool.not_eq_true', Bool.false_eq_true, if_false,
      and_imp]
    tauto
  have e2 : allPacked s n s.predecessors2 i = true ↔ ∀ j,
      Ranked inst params.predecessorStrategy i j →
        FixedPiece true (inst.itemType i) (inst.itemType j) →
        n.itemNumberOfCopies.getD j 0 = (inst.itemType j).copies := by
    rw [allPacked_iff he]
    refine forall_congr' fun j => ?_
    rw [table_row h2 hi]
    unfold samePieceRotated FixedPiece
    simp only [Bool.and_eq_true, decide_eq_true_eq, Bool.not_eq_true', if_true, and_imp]
    tauto
  unfold rotations
  rw [List.mem_append]
  cases rotated with
  | false =>
    rw [← e1]
    split_ifs <;> simp_all
  | true =>
    rw [← e2]
    split_ifs <;> simp_all

/-- **C113**: the item types never wait for each other in a circle: as long as some item type has
copies left, one is considered, and in one rotation at least. -/
theorem some_considered (h : Scheme.new inst params sortByX = .ok s)
    (hl : ∃ i < inst.numberOfItemTypes, n.itemNumberOfCopies.getD i 0 ≠ (inst.itemType i).copies) :
    ∃ i < inst.numberOfItemTypes, considered s inst n i = true
      ∧ rotations s n (inst.itemType i) i ≠ [] := by
  classical
  let S : Finset Nat := (Finset.range inst.numberOfItemTypes).filter
    fun i => n.itemNumberOfCopies.getD i 0 ≠ (inst.itemType i).copies
  have hS : S.Nonempty := by
    obtain ⟨i, hi, hc⟩ := hl
    exact ⟨i, Finset.mem_filter.mpr ⟨Finset.mem_range.mpr hi, hc⟩⟩
  obtain ⟨i, hi, hmin⟩ := Finset.exists_min_image S
    (fun i => toLex (rank params.predecessorStrategy (inst.itemType i), i)) hS
  obtain ⟨hi1, hi2⟩ := Finset.mem_filter.mp hi
  have hi1 := Finset.mem_range.mp hi1
  have hfree : ∀ j, Ranked inst params.predecessorStrategy i j →
      n.itemNumberOfCopies.getD j 0 = (inst.itemType j).copies := by
    intro j hj
    by_contra hne
    have hjS : j ∈ S := Finset.mem_filter.mpr ⟨Finset.mem_range.mpr hj.exists_, hne⟩
    have := hmin j hjS
    rw [Prod.Lex.le_iff] at this
    simp only [ofLex_toLex] at this
    rcases this with h1 | ⟨h1, h2⟩
    · rcases hj.rank with h | h
      · exact absurd h1 (not_lt.mpr (le_of_lt h))
      · rw [h.1] at h1; exact absurd h1 (lt_irrefl _)
    · rcases hj.rank with h | h
      · rw [h1] at h; exact absurd h (lt_irrefl _)
      · omega
  refine ⟨i, hi1, (considered_withheld_iff h hi1).mpr ⟨hi2, fun j hj _ => hfree j hj⟩, ?_⟩
  intro hnil
  have := (rotation_iff (n := n) h hi1 false).mpr ⟨(by intro h; cases h), fun j hj _ => hfree j hj⟩
  rw [hnil] at this
  cases this

namespace ExWithheld

/-- Two item types with the same rotatable piece, the second one better, and a better piece that may
not be rotated. -/
def ops : List InstanceBuilder.Op :=
  [.setObjective .knapsack, .addBinType 10 10, .addItemType 4 2 false, .setItemTypeProfit 0 2,
   .addItemType 2 4 false, .setItemTypeProfit 1 3, .addItemType 4 2 true, .setItemTypeProfit 2 5]

/-- The hypotheses are met: at the root the first item type is withheld, and the second one may only
be placed as it is given. -/
example : Scheme.new (instOf ops) { direction := .x } id = .ok (schemeOf ops { direction := .x })
    ∧ (∃ i < (instOf ops).numberOfItemTypes,
      (schemeOf ops { direction := .x }).rootNode.itemNumberOfCopies.getD i 0
        ≠ ((instOf ops).itemType i).copies)
    ∧ (List.range 3).map (considered (schemeOf ops { direction := .x }) (instOf ops)
      (schemeOf ops { direction := .x }).rootNode) = [false, true, true]
    ∧ rotations (schemeOf ops { direction := .x }) (schemeOf ops { direction := .x }).rootNode
      ((instOf ops).itemType 1) 1 = [false] := by
  have h := runs_ok (ops := ops) (p := { direction := .x }) (cs := []) (by decide +kernel)
  exact ⟨h.2.1, ⟨0, by decide +kernel, by decide +kernel⟩, by decide +kernel, by decide +kernel⟩

end ExWithheld

end PackingSolver.Rect.TreeSearch
