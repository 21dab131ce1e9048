import Verif.Lemmas.Guil.SpacesFill
import Verif.Spec.GuillotinePlaces

/-!
# Lemmas: calls of the builder and the places of the items
-/

namespace PackingSolver.Guil

open Spec
open Guil.Spec
open Spaces (OpenLeaf)

section
variable {nodes : List Node}

theorem places_append (l m : List Node) : places (l ++ m) = places l ++ places m := by
  unfold places
  rw [List.filter_append, List.map_append]

theorem places_cons (n : Node) (l : List Node) :
    places (n :: l) = places [n] ++ places l := places_append [n] l

theorem places_single_neg {n : Node} (h : n.itemTypeId < 0) : places [n] = [] := by
  unfold places
  have : ¬ 0 ≤ n.itemTypeId := by omega
  simp [this]

theorem places_single_congr {n m : Node} (hf : n.f = m.f) (h : n.itemTypeId = m.itemTypeId)
    (hr : region n = region m) : places [n] = places [m] := by
  unfold places
  rw [List.filter_cons, List.filter_cons, hf, h]
  split_ifs
  · simp [h, hr]
  · simp

theorem places_modify {f : Node → Node} : ∀ {l : List Node} {i : Nat},
    (∀ n, l[i]? = some n → places [f n] = places [n]) → places (l.modify i f) = places l := by
  intro l
  induction l with
  | nil => intro i _; cases i <;> rfl
  | cons a l ih =>
    intro i h
    cases i with
    | zero =>
      rw [List.modify_zero_cons, places_cons (f a) l, places_cons a l, h a rfl]
    | succ i =>
      rw [List.modify_succ_cons, places_cons a (l.modify i f), places_cons a l, ih]
      intro n hn
      exact h n (by simpa using hn)

theorem places_push {id : Nat} {w : Node} (hw : w.itemTypeId < 0) :
    places (pushChild nodes id w) = places nodes := by
  unfold pushChild
  rw [places_append, places_single_neg hw, List.append_nil]
  exact places_modify fun n _ => places_single_congr rfl rfl rfl

theorem places_close (ct : Int) (nodes : List Node) (id : Nat) :
    places (closeNode ct nodes id) = places nodes := by
  rcases closeNode_cases (ct := ct) nodes id with h | ⟨w, h, _, _, _, hw, _⟩
  · rw [h]
  · rw [h, places_push (by omega)]

theorem places_climb (ct depth : Int) : ∀ (fuel : Nat) (nodes : List Node) (id : Option Nat),
    places (climb ct depth fuel nodes id).1 = places nodes := by
  intro fuel
  induction fuel with
  | zero => intro nodes id; cases id <;> rfl
  | succ fuel ih =>
    intro nodes id
    cases id with
    | none => rfl
    | some id =>
      unfold climb
      by_cases h : (nodes.getD id default).d = depth - 1
      · rw [if_pos h]
      · rw [if_neg h]
        dsimp only
        rw [ih, places_close]

theorem places_closeUp (ct : Int) : ∀ (fuel : Nat) (nodes : List Node) (id : Option Nat),
    places (closeUp ct fuel nodes id) = places nodes := by
  intro fuel
  induction fuel with
  | zero => intro nodes id; cases id <;> rfl
  | succ fuel ih =>
    intro nodes id
    cases id with
    | none => rfl
    | some id =>
      unfold closeUp
      dsimp only
      rw [ih, places_close]

theorem places_finish (ct : Int) (nodes : List Node) :
    places (finishNodes ct nodes) = places nodes := places_closeUp _ _ _ _

theorem places_residual (nodes : List Node) : places (setResidual nodes) = places nodes := by
  unfold setResidual
  by_cases h : nodes = []
  · subst h; rfl
  · rw [getLast_nd h]
    dsimp only
    by_cases hc : (nd nodes (nodes.length - 1)).itemTypeId = -1
        ∧ (nd nodes (nodes.length - 1)).d = 1
    · rw [if_pos hc, set_last_eq_modify]
      refine places_modify fun n hn => ?_
      have : nd nodes (nodes.length - 1) = n := by
        unfold nd; rw [List.getD_eq_getElem?_getD, hn]; rfl
      rw [this] at hc
      rw [places_single_neg (n := n) (by omega), places_single_neg (by simp)]
    · rw [if_neg hc]

/-- An item is put on the last node. -/
theorem places_setLast {i : Nat} (hne : nodes ≠ [])
    (hf : (nd nodes (nodes.length - 1)).f.isSome = true)
    (hi : (nd nodes (nodes.length - 1)).itemTypeId < 0) :
    places (nodes.modify (nodes.length - 1) fun n => { n with itemTypeId := (i : Int) })
      = places nodes ++ [(i, region (nd nodes (nodes.length - 1)))] := by
  obtain ⟨l, a, rfl⟩ : ∃ l a, nodes = l ++ [a] :=
    ⟨nodes.dropLast, nodes.getLast hne, (List.dropLast_append_getLast hne).symm⟩
  have hlen : (l ++ [a]).length - 1 = l.length := by simp
  have hnd : nd (l ++ [a]) l.length = a := by unfold nd; simp
  rw [hlen, hnd] at hf hi
  rw [hlen, hnd]
  have : (l ++ [a]).modify l.length (fun n => { n with itemTypeId := (i : Int) })
      = l ++ [{ a with itemTypeId := (i : Int) }] := modify_snoc _ l a
  rw [this, places_append, places_append, places_single_neg hi, List.append_nil]
  congr 1
  unfold places
  simp [hf, region]

theorem places_addNode {ct depth pos : Int} {o : CutOrientation} {nodes' : List Node}
    (h : addNodeTo ct o nodes depth pos = (nodes', none)) : places nodes' = places nodes := by
  unfold addNodeTo at h
  cases hl : nodes.getLast? with
  | none => rw [hl] at h; cases h
  | some last =>
    rw [hl] at h
    dsimp only at h
    by_cases hd : depth > last.d + 1
    · rw [if_pos hd] at h; cases h
    · rw [if_neg hd] at h
      have hc := places_climb ct depth nodes.length nodes (some (nodes.length - 1))
      generalize climb ct depth nodes.length nodes (some (nodes.length - 1)) = res at h hc
      obtain ⟨n1, id⟩ := res
      cases id with
      | none => cases h
      | some id =>
        dsimp only at h hc
        by_cases hi : ((n1.getD id default).f.isSome
            && decide ((n1.getD id default).itemTypeId ≥ 0)) = true
        · rw [if_pos hi] at h; cases h
        · rw [if_neg hi] at h
          have h2 : places (if (n1.getD id default).f.isSome
              then n1.modify id (fun p => { p with itemTypeId := -2 }) else n1) = places n1 := by
            by_cases hf : (n1.getD id default).f.isSome = true
            · rw [if_pos hf]
              refine places_modify fun n hn => ?_
              have e : n1.getD id default = n := by rw [List.getD_eq_getElem?_getD, hn]; rfl
              rw [e] at hi hf
              have hneg : n.itemTypeId < 0 := by
                by_contra hge
                exact hi (by rw [hf]; simp; omega)
              rw [places_single_neg hneg, places_single_neg (by simp)]
            · rw [if_neg hf]
          generalize (if (n1.getD id default).f.isSome
              then n1.modify id (fun p => { p with itemTypeId := -2 }) else n1) = n2 at h h2
          cases hn : newChild ct depth pos o n2 id with
          | error e => rw [hn] at h; cases h
          | ok child =>
            rw [hn] at h
            cases h
            have hneg : child.itemTypeId < 0 := by
              unfold newChild at hn
              dsimp only at hn
              split_ifs at hn <;> (cases hn; simp [childNode])
            rw [places_push hneg, h2, hc]

end

end PackingSolver.Guil
