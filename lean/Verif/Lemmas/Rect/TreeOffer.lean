import Verif.Lemmas.Rect.TreeBin
import Verif.Lemmas.Except

/-! Helper lemmas: the insertions offered by the rectangle branching scheme. -/

namespace PackingSolver.Rect.TreeSearch

open Rect.Spec

/-! ### Moving to the right of the defects -/

/-- The defects that end after `x`. -/
def after (ds : List Defect) (x : Int) : Nat := ds.countP fun d => decide (x < d.posX + d.x)

theorem after_mono (ds : List Defect) {x y : Int} (h : x ≤ y) : after ds y ≤ after ds x := by
  unfold after
  apply List.countP_mono_left
  intro d _ hd
  simp only [decide_eq_true_eq] at hd ⊢
  omega

theorem after_lt {ds : List Defect} {x y : Int} {d : Defect} (hd : d ∈ ds) (h1 : x < d.posX + d.x)
    (h2 : d.posX + d.x ≤ y) : after ds y < after ds x := by
  obtain ⟨l, r, rfl⟩ := List.append_of_mem hd
  have h3 := after_mono l (x := x) (y := y) (by omega)
  have h4 := after_mono r (x := x) (y := y) (by omega)
  unfold after at h3 h4 ⊢
  rw [List.countP_append, List.countP_append, List.countP_cons, List.countP_cons,
    if_neg (by simp; omega), if_pos (by simpa using h1)]
  omega

theorem meetsDefect_iff (d : Defect) (xs xj ys ye : Int) :
    meetsDefect d xs xj ys ye = true ↔ d.posX < xs + xj ∧ xs < d.posX + d.x ∧ d.posY < ye
      ∧ ys < d.posY + d.y := by
  unfold meetsDefect
  simp [and_assoc]

/-- One pass: the position does not decrease; if nothing was met it is unchanged and clear of the
defects, otherwise it has passed the end of one of them. -/
theorem defectPass_spec (ds : List Defect) (xj ys ye : Int) : ∀ (x : Int) (f : Bool),
    x ≤ (defectPass ds xj ys ye (x, f)).1
    ∧ ((defectPass ds xj ys ye (x, f)).2 = true → f = true
      ∧ (defectPass ds xj ys ye (x, f)).1 = x ∧ ∀ d ∈ ds, meetsDefect d x xj ys ye = false)
    ∧ ((defectPass ds xj ys ye (x, f)).2 = false → f = false
      ∨ ∃ d ∈ ds, x < d.posX + d.x ∧ d.posX + d.x ≤ (defectPass ds xj ys ye (x, f)).1) := by
  induction ds with
  | nil => intro x f; unfold defectPass; exact ⟨le_refl _, fun h => ⟨h, rfl, by simp⟩, fun h => .inl h⟩
  | cons d ds ih =>
    intro x f
    by_cases hm : meetsDefect d x xj ys ye = true
    · have e : defectPass (d :: ds) xj ys ye (x, f) = defectPass ds xj ys ye (d.posX + d.x, false) := by
        unfold defectPass; rw [List.foldl_cons, if_pos hm]
      obtain ⟨h1, h2, h3⟩ := ih (d.posX + d.x) false
      have hx := (meetsDefect_iff _ _ _ _ _).mp hm
      rw [e]
      refine ⟨by omega, fun h => ?_, fun h => ?_⟩
      · exact absurd (h2 h).1 (by simp)
      · exact Or.inr ⟨d, List.mem_cons_self, hx.2.1, h1⟩
    · have e : defectPass (d :: ds) xj ys ye (x, f) = defectPass ds xj ys ye (x, f) := by
        unfold defectPass; rw [List.foldl_cons, if_neg hm]
      obtain ⟨h1, h2, h3⟩ := ih x f
      rw [e]
      refine ⟨h1, fun h => ?_, fun h => ?_⟩
      · obtain ⟨a1, a2, a3⟩ := h2 h
        refine ⟨a1, a2, ?_⟩
        intro d' hd'
        rcases List.mem_cons.mp hd' with rfl | hd'
        · simpa using hm
        · exact a3 d' hd'
      · rcases h3 h with h | ⟨d', hd', h'⟩
        · exact Or.inl h
        · exact Or.inr ⟨d', List.mem_cons_of_mem _ hd', h'⟩

theorem moveRight_spec (ds : List Defect) (xj ys ye : Int) : ∀ (n : Nat) (x x' : Int),
    moveRight ds xj ys ye n x = some x' →
    x ≤ x' ∧ (∀ d ∈ ds, meetsDefect d x' xj ys ye = false) ∧ (ds = [] → x' = x) := by
  intro n
  induction n with
  | zero => intro x x' h; simp [moveRight] at h
  | succ n ih =>
    intro x x' h
    unfold moveRight at h
    dsimp only at h
    obtain ⟨h1, h2, h3⟩ := defectPass_spec ds xj ys ye x true
    by_cases hs : (defectPass ds xj ys ye (x, true)).2 = true
    · rw [if_pos hs] at h
      obtain ⟨-, a2, a3⟩ := h2 hs
      have e : x' = x := by rw [a2] at h; simpa using h.symm
      rw [e]
      exact ⟨le_refl _, a3, fun _ => rfl⟩
    · rw [if_neg hs] at h
      obtain ⟨a1, a2, a3⟩ := ih _ _ h
      refine ⟨by omega, a2, ?_⟩
      intro hd
      subst hd
      exact absurd rfl hs

theorem moveRight_some (ds : List Defect) (xj ys ye : Int) : ∀ (n : Nat) (x : Int),
    after ds x < n → ∃ x', moveRight ds xj ys ye n x = some x' := by
  intro n
  induction n with
  | zero => intro x h; omega
  | succ n ih =>
    intro x h
    unfold moveRight
    dsimp only
    obtain ⟨h1, h2, h3⟩ := defectPass_spec ds xj ys ye x true
    by_cases hs : (defectPass ds xj ys ye (x, true)).2 = true
    · rw [if_pos hs]; exact ⟨_, rfl⟩
    · rw [if_neg hs]
      rcases h3 (by simpa using hs) with h | ⟨d, hd, h4, h5⟩
      · simp at h
      · have := after_lt hd h4 h5
        exact ih _ (by omega)

theorem moveRight_total (ds : List Defect) (xj ys ye x : Int) :
    ∃ x', moveRight ds xj ys ye (ds.length + 1) x = some x' := by
  apply moveRight_some
  have : after ds x ≤ ds.length := List.countP_le_length
  omega

theorem firstX_spec (us : List UncoveredItem) (ys ye : Int) :
    0 ≤ firstX us ys ye ∧ ∀ u ∈ us, u.Meets ys ye → u.xe ≤ firstX us ys ye := by
  have key : ∀ (us : List UncoveredItem) (x : Int),
      x ≤ us.foldl (fun xs u => if u.ye ≤ ys ∨ u.ys ≥ ye then xs
        else if xs < u.xe then u.xe else xs) x
      ∧ ∀ u ∈ us, u.Meets ys ye → u.xe ≤ us.foldl (fun xs u => if u.ye ≤ ys ∨ u.ys ≥ ye then xs
        else if xs < u.xe then u.xe else xs) x := by
    intro us
    induction us with
    | nil => intro x; exact ⟨le_refl _, by simp⟩
    | cons v us ih =>
      intro x
      rw [List.foldl_cons]
      obtain ⟨h1, h2⟩ := ih (if v.ye ≤ ys ∨ v.ys ≥ ye then x else if x < v.xe then v.xe else x)
      have h3 : x ≤ if v.ye ≤ ys ∨ v.ys ≥ ye then x else if x < v.xe then v.xe else x := by
        split_ifs <;> omega
      refine ⟨by omega, ?_⟩
      intro u hu hm
      rcases List.mem_cons.mp hu with rfl | hu
      · have : u.xe ≤ if u.ye ≤ ys ∨ u.ys ≥ ye then x else if x < u.xe then u.xe else x := by
          rw [if_neg hm]; split_ifs <;> omega
        omega
      · exact h2 u hu hm
  exact key us 0

/-! ### One insertion -/

/-- The bottom of a tried item. -/
def startY (n : Node) (bt : BinType) (uncoveredPos defectId : Option Nat) : Int :=
  match uncoveredPos, defectId with
  | some (p + 1), _ => (n.uncoveredItems.getD (p + 1) default).ys
  | _, some k => (bt.defects.getD k ⟨0, 0, 0, 0⟩).posY + (bt.defects.getD k ⟨0, 0, 0, 0⟩).y
  | _, none => 0

/-- The direction of the bin of a tried item. -/
def tryDir (n : Node) (newBin : Nat) : Direction :=
  if newBin = 0 then n.lastBinDirection else Scheme.newBinDirection newBin

/-- The bin type of a tried item. -/
def tryBin (s : Scheme) (n : Node) (newBin : Nat) (newBinPos : Option Nat) : Nat :=
  if newBin = 0 then s.binTypeIds.getD (n.numberOfBins - 1) 0
  else s.binTypeIds.getD (newBinPos.getD 0) 0

/-- What `insertion_item` checked. -/
structure Tried (s : Scheme) (n : Node) (item : Nat) (rotate : Bool) (newBin : Nat)
    (newBinPos : Option Nat) (y : Int) (ins : Insertion) (J : Instance) (b : Nat) : Prop where
  eq : ins = ⟨item, rotate, newBin, ins.x, y, newBinPos⟩
  top : y + (J.itemType item).height rotate ≤ (J.binType b).y
  weight : ExtQ.exceeded (if newBin = 0 then n.frontGroup.lastBinWeight + (J.itemType item).weight
    else (J.itemType item).weight) (J.binType b).maximumWeight = false
  resources : resourcesOk J (J.binType b) b item (decide (newBin ≠ 0)) n = true
  right : ins.x + (J.itemType item).width rotate ≤ (J.binType b).x
  x : 0 ≤ ins.x
  over : newBin = 0 → ∀ u ∈ n.uncoveredItems, u.Meets y (y + (J.itemType item).height rotate) →
    u.xe ≤ ins.x
  defects : ∀ d ∈ (J.binType b).defects, meetsDefect d ins.x ((J.itemType item).width rotate) y
    (y + (J.itemType item).height rotate) = false
  unloading : ∃ x0, ((J.binType b).defects = [] → x0 = ins.x)
    ∧ unloadingOk J n (J.itemType item) x0 y (y + (J.itemType item).height rotate) = .ok true

/-- `insertion_item` once the bin and the bottom of the item are known. -/
def tryAt (n : Node) (item : Nat) (rotate : Bool) (newBin : Nat) (y : Int) (J : Instance) (b : Nat)
    (tail : Int → Except Err (Option Insertion)) : Except Err (Option Insertion) :=
  if y + (J.itemType item).height rotate > (J.binType b).y then .ok none
  else if ExtQ.exceeded (if newBin = 0 then n.frontGroup.lastBinWeight + (J.itemType item).weight
    else (J.itemType item).weight) (J.binType b).maximumWeight then .ok none
  else if !resourcesOk J (J.binType b) b item (decide (newBin ≠ 0)) n then .ok none
  else match unloadingOk J n (J.itemType item)
      (if newBin = 0 then firstX n.uncoveredItems y (y + (J.itemType item).height rotate) else 0)
      y (y + (J.itemType item).height rotate) with
  | .error e => .error e
  | .ok false => .ok none
  | .ok true =>
    match moveRight (J.binType b).defects ((J.itemType item).width rotate) y
        (y + (J.itemType item).height rotate) ((J.binType b).defects.length + 1)
        (if newBin = 0 then firstX n.uncoveredItems y (y + (J.itemType item).height rotate)
          else 0) with
    | none => .error .ub
    | some xs => tail xs

/-- The last checks of `insertion_item`. -/
def tryTail (s : Scheme) (n : Node) (item : Nat) (rotate : Bool) (newBin : Nat)
    (newBinPos uncoveredPos defectId : Option Nat) (y : Int) (J : Instance) (b : Nat) (xs : Int) :
    Except Err (Option Insertion) :=
  if xs + (J.itemType item).width rotate > (J.binType b).x then .ok none
  else if s.parameters.staircase && decide (newBin = 0) && uncoveredPos.isSome
      && n.uncoveredItems.any (fun u => decide (u.ys > y + (J.itemType item).height rotate
        ∧ u.xe > xs)) then .ok none
  else if (match uncoveredPos, defectId with
      | some (p + 1), _ => decide (xs + (J.itemType item).width rotate
          ≤ (n.uncoveredItems.getD p default).xs)
      | _, some k => decide (xs + (J.itemType item).width rotate
            ≤ ((J.binType b).defects.getD k ⟨0, 0, 0, 0⟩).posX)
          || decide (xs ≥ ((J.binType b).defects.getD k ⟨0, 0, 0, 0⟩).posX
            + ((J.binType b).defects.getD k ⟨0, 0, 0, 0⟩).x)
      | _, none => false) then .ok none
  else if (match s.parameters.fixedItems with
      | some f => decide (xs < f.xMax)
      | none => false) then .ok none
  else .ok (some { itemTypeId := item, rotate := rotate, x := xs, y := y, newBin := newBin,
                   newBinPos := newBinPos })

theorem insertionItem_eq (s : Scheme) (n : Node) (item : Nat) (rotate : Bool) (newBin : Nat)
    (newBinPos uncoveredPos defectId : Option Nat) :
    insertionItem s n item rotate newBin newBinPos uncoveredPos defectId
      = tryAt n item rotate newBin
        (startY n ((s.instanceOf (tryDir n newBin)).binType (tryBin s n newBin newBinPos))
          uncoveredPos defectId)
        (s.instanceOf (tryDir n newBin)) (tryBin s n newBin newBinPos)
        (tryTail s n item rotate newBin newBinPos uncoveredPos defectId
          (startY n ((s.instanceOf (tryDir n newBin)).binType (tryBin s n newBin newBinPos))
            uncoveredPos defectId)
          (s.instanceOf (tryDir n newBin)) (tryBin s n newBin newBinPos)) := rfl

theorem ite_none {c : Prop} [Decidable c] {e : Except Err (Option Insertion)} {i : Insertion}
    (h : (if c then .ok none else e) = .ok (some i)) : ¬ c ∧ e = .ok (some i) := by
  by_cases hc : c
  · rw [if_pos hc] at h; simp at h
  · rw [if_neg hc] at h; exact ⟨hc, h⟩

theorem ite_total {c : Prop} [Decidable c] {e : Except Err (Option Insertion)}
    (h : ∃ o, e = .ok o) : ∃ o, (if c then .ok none else e) = .ok o := by
  by_cases hc : c
  · rw [if_pos hc]; exact ⟨_, rfl⟩
  · rw [if_neg hc]; exact h

theorem tryTail_some {s : Scheme} {n : Node} {item : Nat} {rotate : Bool} {newBin : Nat}
    {newBinPos uncoveredPos defectId : Option Nat} {y : Int} {J : Instance} {b : Nat} {xs : Int}
    {ins : Insertion} (h : tryTail s n item rotate newBin newBinPos uncoveredPos defectId y J b xs
      = .ok (some ins)) :
    ins = ⟨item, rotate, newBin, xs, y, newBinPos⟩
    ∧ xs + (J.itemType item).width rotate ≤ (J.binType b).x := by
  unfold tryTail at h
  obtain ⟨h1, h⟩ := ite_none h
  obtain ⟨-, h⟩ := ite_none h
  obtain ⟨-, h⟩ := ite_none h
  obtain ⟨-, h⟩ := ite_none h
  simp only [Except.ok.injEq, Option.some.injEq] at h
  exact ⟨h.symm, not_lt.mp h1⟩

theorem tryTail_total (s : Scheme) (n : Node) (item : Nat) (rotate : Bool) (newBin : Nat)
    (newBinPos uncoveredPos defectId : Option Nat) (y : Int) (J : Instance) (b : Nat) (xs : Int) :
    ∃ o, tryTail s n item rotate newBin newBinPos uncoveredPos defectId y J b xs = .ok o := by
  unfold tryTail
  exact ite_total (ite_total (ite_total (ite_total ⟨_, rfl⟩)))

theorem insertionItem_some {s : Scheme} {n : Node} {item : Nat} {rotate : Bool} {newBin : Nat}
    {newBinPos uncoveredPos defectId : Option Nat} {ins : Insertion}
    (h : insertionItem s n item rotate newBin newBinPos uncoveredPos defectId = .ok (some ins)) :
    Tried s n item rotate newBin newBinPos
      (startY n ((s.instanceOf (tryDir n newBin)).binType (tryBin s n newBin newBinPos))
        uncoveredPos defectId)
      ins (s.instanceOf (tryDir n newBin)) (tryBin s n newBin newBinPos) := by
  rw [insertionItem_eq] at h
  generalize s.instanceOf (tryDir n newBin) = J at h ⊢
  generalize tryBin s n newBin newBinPos = b at h ⊢
  generalize startY n (J.binType b) uncoveredPos defectId = y at h ⊢
  unfold tryAt at h
  by_cases h1 : y + (J.itemType item).height rotate > (J.binType b).y
  · rw [if_pos h1] at h; simp at h
  rw [if_neg h1] at h
  generalize hw : ExtQ.exceeded (if newBin = 0 then n.frontGroup.lastBinWeight
    + (J.itemType item).weight else (J.itemType item).weight) (J.binType b).maximumWeight = w at h
  cases w with
  | true => simp at h
  | false =>
    rw [if_neg (by simp)] at h
    generalize hr : resourcesOk J (J.binType b) b item (decide (newBin ≠ 0)) n = r at h
    cases r with
    | false => simp at h
    | true =>
      rw [if_neg (by simp)] at h
      generalize hx : (if newBin = 0 then firstX n.uncoveredItems y
        (y + (J.itemType item).height rotate) else 0) = x0 at h
      split at h
      · simp at h
      · simp at h
      · next hu =>
        split at h
        · simp at h
        · next xs hm =>
          obtain ⟨e, he⟩ := tryTail_some h
          obtain ⟨m1, m2, m3⟩ := moveRight_spec _ _ _ _ _ _ _ hm
          have hx0 : 0 ≤ x0 := by
            rw [← hx]; split_ifs
            · exact (firstX_spec _ _ _).1
            · exact le_refl _
          subst e
          refine ⟨rfl, not_lt.mp h1, hw, hr, he, le_trans hx0 m1, ?_, m2, x0, ?_, hu⟩
          · intro h0 u hu hm
            rw [if_pos h0] at hx
            have := (firstX_spec n.uncoveredItems y (y + (J.itemType item).height rotate)).2 u hu hm
            rw [hx] at this
            exact le_trans this m1
          · intro hd; exact (m3 hd).symm

/-- An unloading constraint the scheme can handle. -/
def Supported (c : UnloadingConstraint) : Prop := c = .none ∨ c = .onlyXMovements ∨ c = .increasingX

theorem unloadingOk_total {J : Instance} (h : Supported J.parameters.unloadingConstraint) (n : Node)
    (it : ItemType) (x y ye : Int) : ∃ o, unloadingOk J n it x y ye = .ok o := by
  unfold unloadingOk
  rcases h with h | h | h <;> rw [h] <;> exact ⟨_, rfl⟩

theorem insertionItem_total {s : Scheme} {n : Node} {item : Nat} {rotate : Bool} {newBin : Nat}
    {newBinPos uncoveredPos defectId : Option Nat}
    (h : Supported (s.instanceOf (tryDir n newBin)).parameters.unloadingConstraint) :
    ∃ o, insertionItem s n item rotate newBin newBinPos uncoveredPos defectId = .ok o := by
  rw [insertionItem_eq]
  generalize s.instanceOf (tryDir n newBin) = J at h ⊢
  generalize tryBin s n newBin newBinPos = b
  generalize startY n (J.binType b) uncoveredPos defectId = y
  unfold tryAt
  refine ite_total (ite_total (ite_total ?_))
  obtain ⟨o, ho⟩ := unloadingOk_total h n (J.itemType item)
    (if newBin = 0 then firstX n.uncoveredItems y (y + (J.itemType item).height rotate) else 0)
    y (y + (J.itemType item).height rotate)
  rw [ho]
  cases o with
  | false => exact ⟨_, rfl⟩
  | true =>
    obtain ⟨x, hx⟩ := moveRight_total (J.binType b).defects ((J.itemType item).width rotate) y
      (y + (J.itemType item).height rotate)
      (if newBin = 0 then firstX n.uncoveredItems y (y + (J.itemType item).height rotate) else 0)
    dsimp only
    rw [hx]
    exact tryTail_total _ _ _ _ _ _ _ _ _ _ _ _

/-! ### All insertions -/

theorem runAttempts_mem {s : Scheme} {n : Node} {l : List Attempt} {found : List Insertion}
    (h : runAttempts s n l = .ok found) {i : Insertion} (hi : i ∈ found) :
    ∃ a ∈ l, attempt s n a = .ok (some i) := by
  unfold runAttempts at h
  have key := foldlM_inv (P := fun f => ∀ i ∈ f, ∃ a ∈ l, attempt s n a = .ok (some i))
    (by simp) (by
      intro a f f' ha hf hs
      split at hs
      · simp at hs
      · cases hs; exact hf
      · next j hj =>
        cases hs
        intro i hi
        rcases List.mem_append.mp hi with hi | hi
        · exact hf i hi
        · rw [List.mem_singleton.mp hi]; exact ⟨a, ha, hj⟩) h
  exact key i hi

theorem runAttempts_total {s : Scheme} {n : Node} {l : List Attempt}
    (h : ∀ a ∈ l, ∃ o, attempt s n a = .ok o) : ∃ found, runAttempts s n l = .ok found := by
  unfold runAttempts
  have : ∀ init : List Insertion, ∃ found, l.foldlM (fun found a => match attempt s n a with
      | .error e => .error e
      | .ok none => .ok found
      | .ok (some i) => .ok (found ++ [i])) init = (.ok found : Except Err _) := by
    induction l with
    | nil => intro init; exact ⟨init, rfl⟩
    | cons a l ih =>
      intro init
      obtain ⟨o, ho⟩ := h a List.mem_cons_self
      rw [List.foldlM_cons, ho]
      cases o with
      | none => exact ih (fun a ha => h a (List.mem_cons_of_mem _ ha)) init
      | some i => exact ih (fun a ha => h a (List.mem_cons_of_mem _ ha)) _
  exact this []

theorem newBinInsertions_mem {s : Scheme} {n : Node} (ps : List Nat) {found : List Insertion}
    (h : newBinInsertions s n ps = .ok found) {i : Insertion} (hi : i ∈ found) :
    ∃ pos ∈ ps, ∃ a ∈ newBinAttempts s n pos, attempt s n a = .ok (some i) := by
  induction ps with
  | nil => simp [newBinInsertions] at h; subst h; simp at hi
  | cons p ps ih =>
    unfold newBinInsertions at h
    obtain ⟨f, h1, h2⟩ := bind_ok.mp h
    split at h2
    · obtain ⟨q, hq, hr⟩ := ih h2
      exact ⟨q, List.mem_cons_of_mem _ hq, hr⟩
    · cases h2
      exact ⟨p, List.mem_cons_self, runAttempts_mem h1 hi⟩

theorem insertions_mem {s : Scheme} {n : Node} {found : List Insertion}
    (h : insertions s n = .ok found) {i : Insertion} (hi : i ∈ found) :
    (∃ a ∈ currentBinAttempts s n, attempt s n a = .ok (some i))
    ∨ ∃ pos, n.numberOfBins ≤ pos ∧ pos < s.inst.numberOfBins
      ∧ ∃ a ∈ newBinAttempts s n pos, attempt s n a = .ok (some i) := by
  unfold insertions at h
  obtain ⟨f, h1, h2⟩ := bind_ok.mp h
  split at h2
  · obtain ⟨q, hq, hr⟩ := newBinInsertions_mem _ h2 hi
    rw [List.mem_range'_1] at hq
    exact Or.inr ⟨q, hq.1, by omega, hr⟩
  · cases h2
    exact Or.inl (runAttempts_mem h1 hi)

theorem mem_rotations {s : Scheme} {n : Node} {it : ItemType} {item : Nat} {r : Bool}
    (h : r ∈ rotations s n it item) : r = true → it.oriented = false := by
  intro hr
  subst hr
  unfold rotations at h
  rcases List.mem_append.mp h with h | h
  · split_ifs at h <;> simp at h
  · split_ifs at h with h1
    · rw [Bool.and_eq_true] at h1; simpa using h1.1
    · simp at h

theorem considered_iff {s : Scheme} {J : Instance} {n : Node} {item : Nat}
    (h : considered s J n item = true) : n.itemNumberOfCopies.getD item 0 ≠ (J.itemType item).copies := by
  unfold considered at h
  rw [Bool.and_eq_true] at h
  simpa using h.2

/-- The calls made without fixed items for the current bin. -/
theorem mem_currentBinAttempts {s : Scheme} {n : Node} (hf : s.parameters.fixedItems = none)
    {a : Attempt} (h : a ∈ currentBinAttempts s n) :
    0 < n.numberOfBins ∧ ∃ item rotate up d, a = .item item rotate 0 none up d
      ∧ item ∈ ((s.instanceOf n.lastBinDirection).binType
        (s.binTypeIds.getD (n.numberOfBins - 1) 0)).itemTypeIds
      ∧ n.itemNumberOfCopies.getD item 0 ≠ ((s.instanceOf n.lastBinDirection).itemType item).copies
      ∧ (rotate = true → ((s.instanceOf n.lastBinDirection).itemType item).oriented = false)
      ∧ (∀ p, up = some p → p < n.uncoveredItems.length)
      ∧ (∀ k, d = some k → k < ((s.instanceOf n.lastBinDirection).binType
        (s.binTypeIds.getD (n.numberOfBins - 1) 0)).defects.length) := by
  unfold currentBinAttempts at h
  split at h
  · next h0 =>
    refine ⟨h0, ?_⟩
    dsimp only at h
    obtain ⟨item, hi, h⟩ := List.mem_flatMap.mp h
    split at h
    · simp at h
    · next hc =>
      have hc' := considered_iff (by simpa using hc)
      rcases List.mem_append.mp h with h | h
      · obtain ⟨pos, hp, h⟩ := List.mem_flatMap.mp h
        obtain ⟨r, hr, h⟩ := List.mem_flatMap.mp h
        have e : fixedAttempts s n ((s.instanceOf n.lastBinDirection).itemType item) item r pos = [] := by
          unfold fixedAttempts; rw [hf]
        rw [e, List.mem_singleton] at h
        subst h
        exact ⟨item, r, _, _, rfl, hi, hc', mem_rotations hr,
          fun p e => by (cases e; exact List.mem_range.mp hp), fun k e => by cases e⟩
      · obtain ⟨k, hk, h⟩ := List.mem_flatMap.mp h
        obtain ⟨r, hr, rfl⟩ := List.mem_map.mp h
        exact ⟨item, r, _, _, rfl, hi, hc', mem_rotations hr, fun p e => (by cases e),
          fun k' e => by cases e; exact List.mem_range.mp hk⟩
  · simp at h

theorem newBinOf_cases (s : Scheme) (pos : Nat) : newBinOf s pos = 1 ∨ newBinOf s pos = 2 := by
  unfold newBinOf
  split
  · exact Or.inl rfl
  · exact Or.inr rfl
  · dsimp only; split_ifs <;> simp

theorem instanceOfNewBin_eq (s : Scheme) (pos : Nat) :
    s.instanceOfNewBin (newBinOf s pos) = s.instanceOf (Scheme.newBinDirection (newBinOf s pos)) := by
  rcases newBinOf_cases s pos with h | h <;> rw [h] <;> rfl

/-- The calls made for a new bin. -/
theorem mem_newBinAttempts {s : Scheme} {n : Node} {pos : Nat} {a : Attempt}
    (h : a ∈ newBinAttempts s n pos) :
    ∃ item rotate up d, a = .item item rotate (newBinOf s pos) (some pos) up d
      ∧ item ∈ ((s.instanceOf (Scheme.newBinDirection (newBinOf s pos))).binType
        (s.binTypeIds.getD pos 0)).itemTypeIds
      ∧ n.itemNumberOfCopies.getD item 0
        ≠ ((s.instanceOf (Scheme.newBinDirection (newBinOf s pos))).itemType item).copies
      ∧ (rotate = true →
        ((s.instanceOf (Scheme.newBinDirection (newBinOf s pos))).itemType item).oriented = false)
      ∧ (∀ p, up = some p → p = 0)
      ∧ (∀ k, d = some k → k < ((s.instanceOf (Scheme.newBinDirection (newBinOf s pos))).binType
        (s.binTypeIds.getD pos 0)).defects.length) := by
  unfold newBinAttempts at h
  dsimp only at h
  rw [instanceOfNewBin_eq] at h
  obtain ⟨item, hi, h⟩ := List.mem_flatMap.mp h
  split at h
  · simp at h
  · next hc =>
    have hc' := considered_iff (by simpa using hc)
    rcases List.mem_append.mp h with h | h
    · obtain ⟨r, hr, rfl⟩ := List.mem_map.mp h
      exact ⟨item, r, _, _, rfl, hi, hc', mem_rotations hr, fun p e => (by cases e; rfl),
        fun k e => by cases e⟩
    · obtain ⟨k, hk, h⟩ := List.mem_flatMap.mp h
      obtain ⟨r, hr, rfl⟩ := List.mem_map.mp h
      exact ⟨item, r, _, _, rfl, hi, hc', mem_rotations hr, fun p e => (by cases e),
        fun k' e => by cases e; exact List.mem_range.mp hk⟩

end PackingSolver.Rect.TreeSearch
