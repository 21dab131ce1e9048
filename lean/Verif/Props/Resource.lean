import Verif.Model.Basic
import Verif.Spec.Resource
import Mathlib.Data.List.GetD
import Mathlib.Data.List.Induction
import Mathlib.Algebra.Order.Field.Rat
import Mathlib.Tactic.Linarith

/-!
# C03: resource consumption schedules
-/

namespace PackingSolver

open Spec

/-- The resource after a sequence of `add_resource_consumption` calls. -/
def Resource.addConsumptions (r : Resource) (calls : List ConsumptionWrite) : Resource :=
  calls.foldl (fun r w => r.addConsumption w.itemTypeId w.itemCopy w.consumption) r

namespace ResourceLemmas

theorem getD_growTo {α : Type} (d : α) (n : Nat) (l : List α) (k : Nat) :
    (growTo d n l).getD k d = l.getD k d := by
  unfold growTo
  by_cases h : k < l.length
  · rw [List.getD_append _ _ _ _ h]
  · rw [List.getD_append_right _ _ _ _ (by omega)]
    rw [List.getD_eq_default (l := l) _ (by omega)]
    by_cases h2 : k - l.length < n - l.length
    · rw [List.getD_replicate _ h2]
    · rw [List.getD_eq_default _ _ (by simp; omega)]

theorem length_growTo {α : Type} (d : α) (n : Nat) (l : List α) :
    (growTo d n l).length = max n l.length := by
  unfold growTo
  simp
  omega

theorem growTo_self {α : Type} (d : α) (n : Nat) (l : List α) (h : n ≤ l.length) :
    growTo d n l = l := by
  unfold growTo
  simp [Nat.sub_eq_zero_of_le h]

theorem getD_set' {α : Type} (d : α) (l : List α) (i j : Nat) (a : α) (h : i < l.length) :
    (l.set i a).getD j d = if j = i then a else l.getD j d := by
  rw [List.getD_eq_getElem?_getD, List.getD_eq_getElem?_getD, List.getElem?_set]
  by_cases hij : i = j
  · subst hij; simp [h]
  · simp [hij, Ne.symm hij]

/-- The schedule of an item type. -/
def sched (r : Resource) (i : Nat) : List ℚ := r.itemConsumptions.getD i []

theorem itemConsumption_eq (r : Resource) (i k : Nat) :
    r.itemConsumption i k =
      if sched r i = [] then 0 else (sched r i).getD (min k ((sched r i).length - 1)) 0 := by
  unfold Resource.itemConsumption
  dsimp only
  change (if i ≥ r.itemConsumptions.length then 0
    else if (sched r i).isEmpty then 0
    else if k < (sched r i).length then (sched r i).getD k 0 else (sched r i).getLastD 0) = _
  by_cases h : i ≥ r.itemConsumptions.length
  · rw [if_pos h, if_pos]
    exact List.getD_eq_default _ _ h
  · rw [if_neg h]
    generalize sched r i = l
    cases l with
    | nil => rfl
    | cons a l =>
      rw [if_neg (c := (a :: l).isEmpty = true) (by simp), if_neg (c := a :: l = []) (by simp)]
      by_cases hk : k < (a :: l).length
      · rw [if_pos hk, Nat.min_eq_left (by omega)]
      · rw [if_neg hk, Nat.min_eq_right (by omega)]
        rw [List.getD_eq_getElem _ _ (by simp)]
        simp [List.getLastD_eq_getLast?, List.getLast?_eq_getElem?]

theorem sched_add (r : Resource) (i c : Nat) (v : ℚ) (j : Nat) :
    sched (r.addConsumption i c v) j =
      if j = i then (growTo 0 (c + 1) (sched r i)).set c v else sched r j := by
  have hic : (if i ≥ r.itemConsumptions.length then
      growTo [] (i + 1) r.itemConsumptions else r.itemConsumptions)
      = growTo [] (i + 1) r.itemConsumptions := by
    by_cases h : i ≥ r.itemConsumptions.length
    · rw [if_pos h]
    · rw [if_neg h, growTo_self _ _ _ (by omega)]
  have hs : ∀ s : List ℚ, (if c ≥ s.length then growTo 0 (c + 1) s else s)
      = growTo 0 (c + 1) s := by
    intro s
    by_cases h : c ≥ s.length
    · rw [if_pos h]
    · rw [if_neg h, growTo_self _ _ _ (by omega)]
  unfold Resource.addConsumption sched
  dsimp only
  rw [hic, hs, getD_set' _ _ _ _ _ (by rw [length_growTo]; omega), getD_growTo, getD_growTo]

theorem lastCopy_snoc (calls : List ConsumptionWrite) (w : ConsumptionWrite) (i : Nat) :
    lastCopy (calls ++ [w]) i =
      if w.itemTypeId = i then some (max w.itemCopy ((lastCopy calls i).getD 0))
      else lastCopy calls i := by
  unfold lastCopy
  rw [List.filter_append]
  by_cases h : w.itemTypeId = i
  · rw [if_pos h]
    simp only [h, decide_true, List.filter_cons_of_pos, List.filter_nil, List.map_append,
      List.map_cons, List.map_nil]
    generalize (calls.filter fun w => decide (w.itemTypeId = i)).map (·.itemCopy) = l
    cases l with
    | nil => simp
    | cons a l =>
      rw [List.cons_append, List.max?_cons', List.max?_cons', List.foldl_append]
      simp [Nat.max_comm]
  · simp [h]

theorem lastWrite_snoc (calls : List ConsumptionWrite) (w : ConsumptionWrite) (i k : Nat) :
    lastWrite (calls ++ [w]) i k =
      if w.itemTypeId = i ∧ w.itemCopy = k then some w.consumption else lastWrite calls i k := by
  unfold lastWrite
  rw [List.filter_append]
  by_cases h : w.itemTypeId = i ∧ w.itemCopy = k
  · simp [h]
  · rw [if_neg h, List.filter_cons_of_neg (by simpa using h)]
    simp

/-- The schedules after the calls. -/
theorem sched_calls (r : Resource) (hr : r.itemConsumptions = []) (calls : List ConsumptionWrite)
    (i : Nat) :
    (sched (r.addConsumptions calls) i).length
      = (match lastCopy calls i with | none => 0 | some m => m + 1)
    ∧ ∀ k, (sched (r.addConsumptions calls) i).getD k 0 = (lastWrite calls i k).getD 0 := by
  induction calls using List.reverseRecOn with
  | nil => simp [Resource.addConsumptions, sched, hr, lastCopy, lastWrite]
  | append_singleton calls w ih =>
    obtain ⟨ihl, ihk⟩ := ih
    have hadd : r.addConsumptions (calls ++ [w])
        = (r.addConsumptions calls).addConsumption w.itemTypeId w.itemCopy w.consumption := by
      unfold Resource.addConsumptions
      rw [List.foldl_append]
      rfl
    rw [hadd, sched_add, lastCopy_snoc]
    by_cases h : i = w.itemTypeId
    · subst h
      simp only [if_true]
      constructor
      · rw [List.length_set, length_growTo, ihl]
        cases lastCopy calls w.itemTypeId <;> simp
      · intro k
        rw [getD_set' _ _ _ _ _ (by rw [length_growTo]; omega), getD_growTo, ihk, lastWrite_snoc]
        by_cases hk : k = w.itemCopy
        · simp [hk]
        · rw [if_neg hk, if_neg (by rintro ⟨_, h2⟩; exact hk h2.symm)]
    · rw [if_neg h, if_neg (Ne.symm h)]
      refine ⟨ihl, fun k => ?_⟩
      rw [ihk, lastWrite_snoc, if_neg (by rintro ⟨h2, _⟩; exact h h2.symm)]

end ResourceLemmas

open ResourceLemmas

/-- **C03**: after any sequence of `add_resource_consumption` calls on a new
resource, `item_consumption` reads back what the calls describe. -/
theorem consumption_schedule_roundtrip (r : Resource) (hr : r.itemConsumptions = [])
    (calls : List ConsumptionWrite) (i k : Nat) :
    (r.addConsumptions calls).itemConsumption i k = scheduledConsumption calls i k := by
  obtain ⟨hl, hk⟩ := sched_calls r hr calls i
  rw [itemConsumption_eq]
  unfold scheduledConsumption
  cases hc : lastCopy calls i with
  | none =>
    rw [hc] at hl
    rw [if_pos (List.length_eq_zero_iff.mp hl)]
  | some m =>
    rw [hc] at hl
    have hne : sched (r.addConsumptions calls) i ≠ [] := by
      intro he; rw [he] at hl; simp at hl
    rw [if_neg hne, hl, hk]
    simp

/-- Consequences spelled out, as in the English statement: the value just written
is read back, … -/
theorem consumption_read_after_write (r : Resource) (hr : r.itemConsumptions = [])
    (calls : List ConsumptionWrite) (w : ConsumptionWrite) :
    (r.addConsumptions (calls ++ [w])).itemConsumption w.itemTypeId w.itemCopy
      = w.consumption := by
  rw [consumption_schedule_roundtrip r hr]
  unfold scheduledConsumption
  rw [lastCopy_snoc, if_pos rfl]
  simp [lastWrite_snoc]

/-- … and a write leaves every other item type alone. -/
theorem consumption_write_other (r : Resource) (hr : r.itemConsumptions = [])
    (calls : List ConsumptionWrite) (w : ConsumptionWrite) (i k : Nat) (h : i ≠ w.itemTypeId) :
    (r.addConsumptions (calls ++ [w])).itemConsumption i k
      = (r.addConsumptions calls).itemConsumption i k := by
  rw [consumption_schedule_roundtrip r hr, consumption_schedule_roundtrip r hr]
  unfold scheduledConsumption
  rw [lastCopy_snoc, if_neg (Ne.symm h)]
  cases lastCopy calls i with
  | none => rfl
  | some m => simp [lastWrite_snoc, Ne.symm h]

example :
    let r : Resource := { capacity := 5 }
    let r' := r.addConsumptions [⟨2, 1, 7⟩, ⟨0, 0, 3⟩, ⟨2, 3, 9⟩, ⟨2, 1, 8⟩]
    r.itemConsumptions = [] ∧ r'.itemConsumption 2 1 = 8 ∧ r'.itemConsumption 2 0 = 0
      ∧ r'.itemConsumption 2 2 = 0 ∧ r'.itemConsumption 2 10 = 9
      ∧ r'.itemConsumption 1 0 = 0 := by decide +kernel

end PackingSolver
