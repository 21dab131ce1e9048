import Verif.Lemmas.OneDim.TreeSearch
import Verif.Props.OneDim.Build

/-!
# Checking concrete instances

Boolean checks of hypotheses, used only by the concrete cases shown beside the theorems.
-/

namespace PackingSolver.OneDim.Checks

open PackingSolver.OneDim OneDim.Spec InstanceBuilder

/-- The result satisfies a check. -/
def okAnd {α : Type} (r : Except Err α) (f : α → Bool) : Bool :=
  match r with
  | .error _ => false
  | .ok a => f a

theorem okAnd_ok {α : Type} {r : Except Err α} {f : α → Bool} (h : okAnd r f = true) :
    ∃ a, r = .ok a ∧ f a = true := by
  cases r with
  | error e => cases h
  | ok a => exact ⟨a, rfl, h⟩

/-- Checks the data conditions of `Sound`. -/
def soundB (inst : Instance) : Bool :=
  (inst.binTypes.all fun b => decide (0 ≤ b.copies) && b.resources.all fun r =>
    decide (0 ≤ r.capacity) && r.itemConsumptions.all fun s => s.all fun q => decide (0 ≤ q))
  && inst.itemTypes.all fun i => decide (0 ≤ i.copies)

theorem sound_of {o : Objective} {ops : List Op} {inst : Instance} (h : runOps o ops = .ok inst)
    (hb : soundB inst = true) : Sound inst := by
  simp only [soundB, Bool.and_eq_true, List.all_eq_true, decide_eq_true_eq] at hb
  refine ⟨build_aggregates h, fun b hb' r hr => ((hb.1 b hb').2 r hr).1,
    fun b hb' r hr s hs q hq => ((hb.1 b hb').2 r hr).2 s hs q hq,
    fun b hb' => (hb.1 b hb').1, fun i hi => hb.2 _ ?_⟩
  unfold Instance.itemType
  rw [List.getD_eq_getElem _ _ hi]; exact List.getElem_mem _

def smallB : ExtQ → Bool
  | .inf => true
  | .fin q => decide (0 ≤ q.num) && decide (q.num < 1000000000) && decide (q.den = 1)

theorem rat_int {q : ℚ} (h : q.den = 1) : q = (q.num : ℚ) := by
  conv_lhs => rw [← Rat.num_div_den q, h]
  simp

theorem smallB_iff {e : ExtQ} (h : smallB e = true) : SmallLimit e := by
  cases e with
  | inf => exact .inl rfl
  | fin q =>
    simp only [smallB, Bool.and_eq_true, decide_eq_true_eq] at h
    exact .inr ⟨q.num, h.1.1, h.1.2, by rw [← rat_int h.2]⟩

/-- Checks `IntegralData`. -/
def integralB (inst : Instance) : Bool :=
  (inst.itemTypes.all fun i => decide (i.weight.den = 1) && decide (0 ≤ i.weight.num)
    && smallB i.maximumWeightAfter)
  && inst.binTypes.all fun b => smallB b.maximumWeight && b.resources.all fun r =>
    decide (r.capacity.den = 1) && decide (r.capacity.num < 1000000000)
    && r.itemConsumptions.all fun s => s.all fun q => decide (q.den = 1)

theorem integral_of {inst : Instance} (hb : integralB inst = true) : IntegralData inst := by
  simp only [integralB, Bool.and_eq_true, List.all_eq_true, decide_eq_true_eq] at hb
  have hit : ∀ i, i < inst.numberOfItemTypes → inst.itemType i ∈ inst.itemTypes := fun i hi => by
    unfold Instance.itemType
    rw [List.getD_eq_getElem _ _ hi]; exact List.getElem_mem _
  refine ⟨fun i hi => ?_, fun t ht => smallB_iff (hb.2 _ (binType_mem inst ht)).1,
    fun i hi => smallB_iff (hb.1 _ (hit i hi)).2, fun b hb' r hr _ => ?_,
    fun b hb' r hr _ s hs q hq => ?_⟩
  · have := (hb.1 _ (hit i hi)).1
    exact ⟨_, this.2, rat_int this.1⟩
  · have := ((hb.2 b hb').2 r hr).1
    exact ⟨_, this.2, rat_int this.1⟩
  · exact ⟨_, rat_int (((hb.2 b hb').2 r hr).2 s hs q hq)⟩

/-- The node reached by a list of insertions, if each is offered. -/
def walk (inst : Instance) (n : Node) : List Insertion → Option Node
  | [] => some n
  | i :: l => if i ∈ insertions inst n then walk inst (n.child inst i) l else none

theorem descends_trans {inst : Instance} {a b c : Node} (h1 : Descends inst a b)
    (h2 : Descends inst b c) : Descends inst a c := by
  induction h2 with
  | refl => exact h1
  | step m ins _ hi ih => exact .step m ins ih hi

theorem walk_descends {inst : Instance} {n m : Node} {l : List Insertion}
    (h : walk inst n l = some m) : Descends inst n m := by
  induction l generalizing n with
  | nil => cases h; exact .refl
  | cons i l ih =>
    simp only [walk] at h
    split_ifs at h with hi
    exact descends_trans (.step n i .refl hi) (ih h)

/-- A list of insertions leads to a node that satisfies a check. -/
def walkAnd (inst : Instance) (n : Node) (l : List Insertion) (f : Node → Bool) : Bool :=
  match walk inst n l with
  | none => false
  | some m => f m

theorem walkAnd_ok {inst : Instance} {n : Node} {l : List Insertion} {f : Node → Bool}
    (h : walkAnd inst n l f = true) : ∃ m, Descends inst n m ∧ f m = true := by
  unfold walkAnd at h
  cases hw : walk inst n l with
  | none => rw [hw] at h; cases h
  | some m => rw [hw] at h; exact ⟨m, walk_descends hw, h⟩

end PackingSolver.OneDim.Checks
