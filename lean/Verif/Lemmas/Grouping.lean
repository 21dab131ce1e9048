import Verif.Model.Grouping
import Verif.Spec.Grouping
import Mathlib.Data.List.Induction
import Mathlib.Data.List.GetD
import Mathlib.Tactic.Abel

/-! Helper lemmas: the loop that groups identical bins. -/

namespace PackingSolver.Grouping

open Spec

variable {β γ : Type} [DecidableEq γ]

/-- Adding copies of a content to a list of contents. -/
def ins (c : γ) (k : Int) : List (γ × Int) → List (γ × Int)
  | [] => [(c, k)]
  | g :: gs => if g.1 = c then (g.1, g.2 + k) :: gs else g :: ins c k gs

theorem ins_keys (c : γ) (k : Int) (l : List (γ × Int)) :
    (ins c k l).map Prod.fst
      = if c ∈ l.map Prod.fst then l.map Prod.fst else l.map Prod.fst ++ [c] := by
  induction l with
  | nil => simp [ins]
  | cons g gs ih =>
    rw [show ins c k (g :: gs)
      = if g.1 = c then (g.1, g.2 + k) :: gs else g :: ins c k gs from rfl]
    by_cases h : g.1 = c
    · rw [if_pos h, if_pos (by simp [h])]
      simp
    · rw [if_neg h, List.map_cons, ih]
      by_cases h2 : c ∈ gs.map Prod.fst
      · rw [if_pos h2, if_pos (by rw [List.map_cons]; exact List.mem_cons_of_mem _ h2)]
        rfl
      · rw [if_neg h2, if_neg]
        · rfl
        · rw [List.map_cons, List.mem_cons]
          rintro (e | e)
          · exact h e.symm
          · exact h2 e

theorem ins_sum {M : Type} [AddCommMonoid M] (w : Int → γ → M)
    (hw : ∀ a b c, w (a + b) c = w a c + w b c) (c : γ) (k : Int) (l : List (γ × Int)) :
    ((ins c k l).map fun g => w g.2 g.1).sum = (l.map fun g => w g.2 g.1).sum + w k c := by
  induction l with
  | nil => simp [ins]
  | cons g gs ih =>
    rw [show ins c k (g :: gs)
      = if g.1 = c then (g.1, g.2 + k) :: gs else g :: ins c k gs from rfl]
    by_cases h : g.1 = c
    · rw [if_pos h]
      simp only [List.map_cons, List.sum_cons]
      rw [hw, h]; abel
    · rw [if_neg h]
      simp only [List.map_cons, List.sum_cons]
      rw [ih]; abel

/-- The contents with their copies, one after the other. -/
def insAll (l : List (γ × Int)) : List (γ × Int) := l.foldl (fun acc x => ins x.1 x.2 acc) []

theorem insAll_snoc (l : List (γ × Int)) (x : γ × Int) :
    insAll (l ++ [x]) = ins x.1 x.2 (insAll l) := by
  unfold insAll
  rw [List.foldl_append]
  rfl

theorem eraseDups_snoc (l : List γ) (c : γ) :
    (l ++ [c]).eraseDups = if c ∈ l then l.eraseDups else l.eraseDups ++ [c] := by
  rw [List.eraseDups_append]
  by_cases h : c ∈ l
  · rw [if_pos h]
    simp [List.removeAll, h]
  · rw [if_neg h]
    simp [List.removeAll, h]
    rfl

theorem mem_eraseDups' (l : List γ) (c : γ) : c ∈ l.eraseDups ↔ c ∈ l := by
  induction l using List.reverseRecOn with
  | nil => simp
  | append_singleton l x ih =>
    rw [eraseDups_snoc]
    split_ifs with h
    · rw [ih, List.mem_append, List.mem_singleton]
      exact ⟨Or.inl, fun e => e.elim id fun e => e ▸ h⟩
    · rw [List.mem_append, List.mem_append, ih]

theorem nodup_eraseDups' (l : List γ) : l.eraseDups.Nodup := by
  induction l using List.reverseRecOn with
  | nil => simp
  | append_singleton l x ih =>
    rw [eraseDups_snoc]
    split_ifs with h
    · exact ih
    · rw [List.nodup_append]
      refine ⟨ih, by simp, fun a ha b hb e => ?_⟩
      rw [List.mem_singleton.mp hb] at e
      exact h ((mem_eraseDups' l x).mp (e ▸ ha))

theorem insAll_keys (l : List (γ × Int)) :
    (insAll l).map Prod.fst = (l.map Prod.fst).eraseDups := by
  induction l using List.reverseRecOn with
  | nil => rfl
  | append_singleton l x ih =>
    rw [insAll_snoc, ins_keys, ih, List.map_append, List.map_singleton, eraseDups_snoc]
    simp only [mem_eraseDups']

theorem insAll_sum {M : Type} [AddCommMonoid M] (w : Int → γ → M)
    (hw : ∀ a b c, w (a + b) c = w a c + w b c) (l : List (γ × Int)) :
    ((insAll l).map fun g => w g.2 g.1).sum = (l.map fun g => w g.2 g.1).sum := by
  induction l using List.reverseRecOn with
  | nil => rfl
  | append_singleton l x ih =>
    rw [insAll_snoc, ins_sum w hw, ih, List.map_append, List.sum_append]
    simp

theorem ins_nonneg (c : γ) {k : Int} (hk : 0 ≤ k) {l : List (γ × Int)} (h : ∀ g ∈ l, 0 ≤ g.2) :
    ∀ g ∈ ins c k l, 0 ≤ g.2 := by
  induction l with
  | nil => intro g hg; rw [List.mem_singleton.mp hg]; exact hk
  | cons x xs ih =>
    rw [show ins c k (x :: xs)
      = if x.1 = c then (x.1, x.2 + k) :: xs else x :: ins c k xs from rfl]
    have hx := h x (by simp)
    have hxs : ∀ g ∈ xs, 0 ≤ g.2 := fun g hg => h g (List.mem_cons_of_mem _ hg)
    split_ifs <;> intro g hg <;> rcases List.mem_cons.mp hg with rfl | hg
    · show 0 ≤ x.2 + k
      omega
    · exact hxs g hg
    · exact hx
    · exact ih hxs g hg

theorem insAll_nonneg (l : List (γ × Int)) (h : ∀ g ∈ l, 0 ≤ g.2) : ∀ g ∈ insAll l, 0 ≤ g.2 := by
  induction l using List.reverseRecOn with
  | nil => intro g hg; cases hg
  | append_singleton l x ih =>
    rw [insAll_snoc]
    exact ins_nonneg _ (h x (by simp)) (ih fun g hg => h g (List.mem_append_left _ hg))

theorem ins_map {δ : Type} [DecidableEq δ] (f : γ → δ) (c : γ) (k : Int) (l : List (γ × Int))
    (hinj : ∀ x ∈ l, f x.1 = f c → x.1 = c) :
    ins (f c) k (l.map fun x => (f x.1, x.2)) = (ins c k l).map fun x => (f x.1, x.2) := by
  induction l with
  | nil => rfl
  | cons g gs ih =>
    rw [List.map_cons, show ∀ (d : δ) (x : δ × Int) m, ins d k (x :: m)
      = if x.1 = d then (x.1, x.2 + k) :: m else x :: ins d k m from fun _ _ _ => rfl,
      show ins c k (g :: gs)
      = if g.1 = c then (g.1, g.2 + k) :: gs else g :: ins c k gs from rfl]
    by_cases h : g.1 = c
    · rw [if_pos h, if_pos (by rw [h])]; rfl
    · rw [if_neg h, if_neg (fun e => h (hinj g (by simp) e)),
        ih (fun x hx => hinj x (by simp [hx]))]
      rfl

/-- Contents may be compared through any map that tells them apart. -/
theorem insAll_map {δ : Type} [DecidableEq δ] (f : γ → δ) (l : List (γ × Int))
    (hinj : ∀ x ∈ l, ∀ y ∈ l, f x.1 = f y.1 → x.1 = y.1) :
    insAll (l.map fun x => (f x.1, x.2)) = (insAll l).map fun x => (f x.1, x.2) := by
  induction l using List.reverseRecOn with
  | nil => rfl
  | append_singleton l x ih =>
    rw [List.map_append, List.map_singleton, insAll_snoc, insAll_snoc,
      ih (fun a ha b hb => hinj a (by simp [ha]) b (by simp [hb]))]
    refine ins_map f x.1 x.2 _ ?_
    intro y hy e
    have hm : y.1 ∈ (insAll l).map Prod.fst := List.mem_map_of_mem hy
    rw [insAll_keys, mem_eraseDups'] at hm
    obtain ⟨z, hz, hz2⟩ := List.mem_map.mp hm
    rw [← hz2]
    exact hinj z (by simp [hz]) x (by simp) (by rw [hz2]; exact e)

variable [Inhabited β] (content : β → γ) (copies : β → Int) (bins : List β)

/-- The groups as contents with copies. -/
def groupView (gs : List (Nat × Int)) : List (γ × Int) :=
  gs.map fun g => (content (bins.getD g.1 default), g.2)

theorem addToGroup_view (bin : β) (gs gs' : List (Nat × Int))
    (h : addToGroup content copies bins bin gs = some gs') :
    groupView content bins gs' = ins (content bin) (copies bin) (groupView content bins gs)
      ∧ gs'.map Prod.fst = gs.map Prod.fst := by
  induction gs generalizing gs' with
  | nil => simp [addToGroup] at h
  | cons g gs ih =>
    rw [show addToGroup content copies bins bin (g :: gs)
      = if content (bins.getD g.1 default) = content bin then some ((g.1, g.2 + copies bin) :: gs)
        else (addToGroup content copies bins bin gs).map (g :: ·) from rfl] at h
    rw [show groupView content bins (g :: gs)
      = (content (bins.getD g.1 default), g.2) :: groupView content bins gs from rfl]
    rw [show ∀ (x : γ × Int) l, ins (content bin) (copies bin) (x :: l)
      = if x.1 = content bin then (x.1, x.2 + copies bin) :: l
        else x :: ins (content bin) (copies bin) l from fun _ _ => rfl]
    by_cases he : content (bins.getD g.1 default) = content bin
    · rw [if_pos he] at h
      cases h
      rw [if_pos he]
      exact ⟨rfl, rfl⟩
    · rw [if_neg he] at h
      obtain ⟨gs1, h1, rfl⟩ := Option.map_eq_some_iff.mp h
      rw [if_neg he, ← (ih gs1 h1).1]
      refine ⟨rfl, ?_⟩
      rw [List.map_cons, List.map_cons, (ih gs1 h1).2]

theorem addToGroup_none_view (bin : β) (gs : List (Nat × Int))
    (h : addToGroup content copies bins bin gs = none) :
    ins (content bin) (copies bin) (groupView content bins gs)
      = groupView content bins gs ++ [(content bin, copies bin)] := by
  induction gs with
  | nil => rfl
  | cons g gs ih =>
    rw [show addToGroup content copies bins bin (g :: gs)
      = if content (bins.getD g.1 default) = content bin then some ((g.1, g.2 + copies bin) :: gs)
        else (addToGroup content copies bins bin gs).map (g :: ·) from rfl] at h
    rw [show groupView content bins (g :: gs)
      = (content (bins.getD g.1 default), g.2) :: groupView content bins gs from rfl]
    rw [show ∀ (x : γ × Int) l, ins (content bin) (copies bin) (x :: l)
      = if x.1 = content bin then (x.1, x.2 + copies bin) :: l
        else x :: ins (content bin) (copies bin) l from fun _ _ => rfl]
    by_cases he : content (bins.getD g.1 default) = content bin
    · rw [if_pos he] at h; simp at h
    · rw [if_neg he] at h
      rw [if_neg he, ih (Option.map_eq_none_iff.mp h)]
      rfl

theorem groups_view (n : Nat) (hn : n ≤ bins.length) :
    groupView content bins ((List.range n).foldl (groupStep content copies bins) [])
        = insAll ((bins.take n).map fun b => (content b, copies b))
      ∧ ∀ g ∈ (List.range n).foldl (groupStep content copies bins) [], g.1 < n := by
  induction n with
  | zero => exact ⟨rfl, by simp⟩
  | succ n ih =>
    obtain ⟨ih1, ih2⟩ := ih (by omega)
    rw [List.range_succ, List.foldl_append, List.foldl_cons, List.foldl_nil]
    generalize (List.range n).foldl (groupStep content copies bins) [] = gs at ih1 ih2 ⊢
    have hlt : n < bins.length := by omega
    have hget : bins.getD n default = bins[n] := List.getD_eq_getElem _ _ hlt
    rw [List.take_succ_eq_append_getElem hlt, List.map_append, List.map_singleton, insAll_snoc,
      ← ih1, ← hget]
    unfold groupStep
    dsimp only
    cases h : addToGroup content copies bins (bins.getD n default) gs with
    | none =>
      rw [Option.getD_none, addToGroup_none_view _ _ _ _ _ h]
      refine ⟨by unfold groupView; rw [List.map_append]; rfl, fun g hg => ?_⟩
      rcases List.mem_append.mp hg with hg | hg
      · exact Nat.lt_succ_of_lt (ih2 g hg)
      · rw [List.mem_singleton.mp hg]; exact Nat.lt_succ_self n
    | some gs' =>
      obtain ⟨h1, h2⟩ := addToGroup_view _ _ _ _ _ _ h
      rw [Option.getD_some, h1]
      refine ⟨rfl, fun g hg => ?_⟩
      have : g.1 ∈ gs.map Prod.fst := h2 ▸ List.mem_map_of_mem hg
      obtain ⟨g0, hg0, e⟩ := List.mem_map.mp this
      rw [← e]
      exact Nat.lt_succ_of_lt (ih2 g0 hg0)

theorem binGroups_view :
    groupView content bins (binGroups content copies bins)
        = insAll (bins.map fun b => (content b, copies b))
      ∧ ∀ g ∈ binGroups content copies bins, g.1 < bins.length := by
  have := groups_view content copies bins bins.length (le_refl _)
  rwa [List.take_length] at this

/-- A list whose contents with copies are those of `insAll` is a grouping. -/
theorem grouped_of_insAll {π : Type} (ct : π → γ) (cp : π → Int) (old new : List π)
    (h : (new.map fun b => (ct b, cp b)) = insAll (old.map fun b => (ct b, cp b))) :
    Grouped ct cp old new
      ∧ ∀ {M : Type} [AddCommMonoid M] (w : Int → γ → M),
        (∀ a b c, w (a + b) c = w a c + w b c) →
        (new.map fun b => w (cp b) (ct b)).sum = (old.map fun b => w (cp b) (ct b)).sum := by
  have hkeys : new.map ct = (old.map ct).eraseDups := by
    have := congrArg (List.map Prod.fst) h
    rw [insAll_keys, List.map_map, List.map_map] at this
    exact this
  have hsum : ∀ {M : Type} [AddCommMonoid M] (w : Int → γ → M),
      (∀ a b c, w (a + b) c = w a c + w b c) →
      (new.map fun b => w (cp b) (ct b)).sum = (old.map fun b => w (cp b) (ct b)).sum := by
    intro M _ w hw
    have := insAll_sum w hw (old.map fun b => (ct b, cp b))
    rw [← h, List.map_map, List.map_map] at this
    exact this
  refine ⟨⟨?_, ?_, hkeys, ?_⟩, hsum⟩
  · rw [hkeys]; exact nodup_eraseDups' _
  · intro c; rw [hkeys]; exact mem_eraseDups' _ c
  · intro c
    exact hsum (fun k c' => if c' = c then k else 0) (by intro a b c'; split_ifs <;> simp)

/-- Properties of the contents are those of the grouped list. -/
theorem _root_.PackingSolver.Grouping.Spec.Grouped.forall_iff {π : Type} {ct : π → γ}
    {cp : π → Int} {old new : List π} (h : Grouped ct cp old new) (P : γ → Prop) :
    (∀ b ∈ new, P (ct b)) ↔ ∀ b ∈ old, P (ct b) := by
  constructor
  · intro hn b hb
    obtain ⟨b', hb', e⟩ := List.mem_map.mp ((h.same _).mpr (List.mem_map_of_mem hb))
    exact e ▸ hn b' hb'
  · intro hn b hb
    obtain ⟨b', hb', e⟩ := List.mem_map.mp ((h.same _).mp (List.mem_map_of_mem hb))
    exact e ▸ hn b' hb'

theorem _root_.PackingSolver.Grouping.Spec.Grouped.nil_iff {π : Type} {ct : π → γ}
    {cp : π → Int} {old new : List π} (h : Grouped ct cp old new) : new = [] ↔ old = [] := by
  constructor
  · intro e
    rw [List.eq_nil_iff_forall_not_mem]
    intro b hb
    have := (h.same _).mpr (List.mem_map_of_mem hb)
    rw [e] at this; simp at this
  · intro e
    rw [List.eq_nil_iff_forall_not_mem]
    intro b hb
    have := (h.same _).mp (List.mem_map_of_mem hb)
    rw [e] at this; simp at this

end PackingSolver.Grouping
