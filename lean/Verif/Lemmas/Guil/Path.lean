import Verif.Lemmas.Guil.Cuts
import Verif.Model.Guil.SolutionBuilder

/-!
# Lemmas: the open nodes of a bin under construction

The nodes from the bin's own node down to the last one are open; everything else is closed.
-/

namespace PackingSolver.Guil

open Spec

/-- Node number `i`. -/
def nd (nodes : List Node) (i : Nat) : Node := nodes.getD i default

/-- Orientation of the cuts of a node of depth `d`. -/
def vert (o : CutOrientation) (d : Int) : Bool := isVerticalAt o (d + 1)

theorem vert_succ {o : CutOrientation} (ho : o ≠ .any) {d : Int} (hd : 0 ≤ d) :
    vert o (d + 1) = !vert o d := by
  unfold vert isVerticalAt
  rw [Int.tmod_eq_emod_of_nonneg (by omega : 0 ≤ d + 1 + 1),
    Int.tmod_eq_emod_of_nonneg (by omega : 0 ≤ d + 1)]
  rcases Int.emod_two_eq (d + 1) with h | h
  · have h' : (d + 1 + 1) % 2 = 1 := by omega
    cases o <;> simp_all
  · have h' : (d + 1 + 1) % 2 = 0 := by omega
    cases o <;> simp_all

/-- `S` is a strip of `R`. -/
def Strip (v : Bool) (R S : Region) : Prop :=
  S = (R.after v (S.low v)).before v (S.high v) ∧ S.low v < S.high v ∧ S.high v ≤ R.high v
    ∧ R.low v ≤ S.low v

theorem Strip.nonempty {v : Bool} {R S : Region} (h : Strip v R S) (hR : R.Nonempty) :
    S.Nonempty := by
  obtain ⟨h1, h2, h3, h4⟩ := h
  obtain ⟨a, b⟩ := hR
  rw [h1]
  cases v <;>
    simp only [Region.after, Region.before, Region.low, Region.high, Region.Nonempty,
      if_true, if_false, Bool.false_eq_true] at * <;> constructor <;> omega

theorem after_low (v : Bool) (R : Region) : R.after v (R.low v) = R := by
  cases v <;> simp [Region.after, Region.low]

theorem after_after (v : Bool) (R : Region) (x y : Int) :
    (R.after v x).after v y = R.after v y := by
  cases v <;> simp [Region.after]

theorem low_after (v : Bool) (R : Region) (x : Int) : (R.after v x).low v = x := by
  cases v <;> simp [Region.after, Region.low]

theorem high_after (v : Bool) (R : Region) (x : Int) : (R.after v x).high v = R.high v := by
  cases v <;> simp [Region.after, Region.high]

theorem high_before (v : Bool) (R : Region) (x : Int) : (R.before v x).high v = x := by
  cases v <;> simp [Region.before, Region.high]

theorem low_before (v : Bool) (R : Region) (x : Int) : (R.before v x).low v = R.low v := by
  cases v <;> simp [Region.before, Region.low]

theorem before_high (v : Bool) (R : Region) : R.before v (R.high v) = R := by
  cases v <;> simp [Region.before, Region.high]

/-- The leaf of a node, if it is one. -/
def leafOf (n : Node) : List Region := if n.children = [] then [region n] else []

/-- The regions of the nodes without children, from node number `base` on. -/
def leaves (base : Nat) (nodes : List Node) : List Region := (nodes.drop base).flatMap leafOf

/-- Number of stages left at a node. -/
def left (K : Nat) (n : Node) : Nat := ((K : Int) - n.d).toNat

/-- Every node is at depth at most `K`, or has the region of its father. -/
def StagesOk (K : Nat) (nodes : List Node) : Prop :=
  ∀ i < nodes.length, (nd nodes i).d ≤ K
    ∨ ∃ f, (nd nodes i).f = some f ∧ region (nd nodes i) = region (nd nodes f)

/-- `Path … id pre`: `id` is an open node; `pre` are the leaves closed before it. -/
inductive Path (ct : Int) (o : CutOrientation) (K base : Nat) (nodes : List Node) :
    Nat → List Region → Prop
  | root : base < nodes.length → (nd nodes base).d = 0 → Path ct o K base nodes base []
  | step {a c : Nat} {pre P : List Region} : Path ct o K base nodes a pre → a < c →
      c < nodes.length → (nd nodes c).f = some a → (nd nodes c).d = (nd nodes a).d + 1 →
      (nd nodes a).children.getLast? = some c →
      Strip (vert o (nd nodes a).d) (region (nd nodes a)) (region (nd nodes c)) →
      (∀ L, Cuts ct (left K (nd nodes a)) (vert o (nd nodes a).d)
          ((region (nd nodes a)).after (vert o (nd nodes a).d)
            ((region (nd nodes c)).low (vert o (nd nodes a).d))) L →
        Cuts ct (left K (nd nodes a)) (vert o (nd nodes a).d) (region (nd nodes a)) (P ++ L)) →
      Path ct o K base nodes c (pre ++ P)

section
variable {ct : Int} {o : CutOrientation} {K base : Nat} {nodes nodes' : List Node}

theorem Path.bounds {c : Nat} {pre : List Region} (h : Path ct o K base nodes c pre) :
    base ≤ c ∧ c < nodes.length ∧ 0 ≤ (nd nodes c).d ∧ (c ≠ base → 0 < (nd nodes c).d) := by
  induction h with
  | root h hd => exact ⟨le_refl _, h, by omega, fun hn => absurd rfl hn⟩
  | step _ h1 h2 h3 h4 h5 h6 h7 ih =>
    obtain ⟨a1, a2, a3, a4⟩ := ih
    exact ⟨by omega, h2, by omega, fun _ => by omega⟩

theorem Path.base_nil {pre : List Region} (h : Path ct o K base nodes base pre) : pre = [] := by
  cases h with
  | root => rfl
  | step h1 h2 => have := h1.bounds; omega

theorem Path.nonempty {c : Nat} {pre : List Region} (h : Path ct o K base nodes c pre)
    (hb : (region (nd nodes base)).Nonempty) : (region (nd nodes c)).Nonempty := by
  induction h with
  | root => exact hb
  | step _ _ _ _ _ _ hs _ ih => exact hs.nonempty ih

/-- Two nodes agree on everything but the item and the children. -/
def Same (n m : Node) : Prop := n.f = m.f ∧ n.d = m.d ∧ region n = region m

theorem Same.refl (n : Node) : Same n n := ⟨rfl, rfl, rfl⟩

theorem Path.mono {c : Nat} {pre : List Region} (h : Path ct o K base nodes c pre)
    (hl : c < nodes'.length)
    (hc : ∀ i < c, (nd nodes' i).children = (nd nodes i).children)
    (hs : ∀ i ≤ c, Same (nd nodes' i) (nd nodes i)) : Path ct o K base nodes' c pre := by
  induction h with
  | root h1 h2 =>
    refine .root hl ?_
    rw [(hs base (le_refl _)).2.1]; exact h2
  | @step a c pre P h1 h2 h3 h4 h5 h6 h7 h8 ih =>
    obtain ⟨s1, s2, s3⟩ := hs a (by omega)
    obtain ⟨t1, t2, t3⟩ := hs c (le_refl _)
    have hleft : left K (nd nodes' a) = left K (nd nodes a) := by unfold left; rw [s2]
    refine .step (ih (by omega) (fun i hi => hc i (by omega)) (fun i hi => hs i (by omega)))
      h2 hl ?_ ?_ ?_ ?_ ?_
    · rw [t1]; exact h4
    · rw [t2, s2]; exact h5
    · rw [hc a h2]; exact h6
    · rw [s2, s3, t3]; exact h7
    · rw [hleft, s2, s3, t3]; exact h8

end

/-- Where the next child of a node starts, `solution_builder.cpp:291,314`. -/
def start (ct : Int) (o : CutOrientation) (nodes : List Node) (id : Nat) : Int :=
  match (nd nodes id).children.getLast? with
  | none => (region (nd nodes id)).low (vert o (nd nodes id).d)
  | some c => (region (nd nodes c)).high (vert o (nd nodes id).d) + ct

/-- The node `id` is open and all its children are closed; `P` are the leaves below it. -/
structure Ready (ct : Int) (o : CutOrientation) (K base : Nat) (nodes : List Node) (id : Nat)
    (pre P : List Region) : Prop where
  path : Path ct o K base nodes id pre
  low_lt : (nd nodes id).children ≠ [] →
    (region (nd nodes id)).low (vert o (nd nodes id).d) < start ct o nodes id
  brother : ∀ c, (nd nodes id).children.getLast? = some c → c < nodes.length ∧
    Strip (vert o (nd nodes id).d) (region (nd nodes id)) (region (nd nodes c))
  ext : ((nd nodes id).d < K ∨ (nd nodes id).children = []) →
    start ct o nodes id < (region (nd nodes id)).high (vert o (nd nodes id).d) →
    ∀ L, Cuts ct (left K (nd nodes id)) (vert o (nd nodes id).d)
        ((region (nd nodes id)).after (vert o (nd nodes id).d) (start ct o nodes id)) L →
      Cuts ct (left K (nd nodes id)) (vert o (nd nodes id).d) (region (nd nodes id)) (P ++ L)
  done : (nd nodes id).children ≠ [] →
    (region (nd nodes id)).high (vert o (nd nodes id).d) ≤ start ct o nodes id →
    Cuts ct (left K (nd nodes id)) (vert o (nd nodes id).d) (region (nd nodes id)) P
  nil : (nd nodes id).children = [] →
    id = nodes.length - 1 ∧ P = [] ∧ leaves base nodes = pre ++ [region (nd nodes id)]
  cons : (nd nodes id).children ≠ [] → leaves base nodes = pre ++ P

/-- The node `id` is open and cut into the leaves `L`. -/
def Closed (ct : Int) (o : CutOrientation) (K base : Nat) (nodes : List Node) (id : Nat)
    (pre L : List Region) : Prop :=
  Path ct o K base nodes id pre ∧ leaves base nodes = pre ++ L
    ∧ Cuts ct (left K (nd nodes id)) (vert o (nd nodes id).d) (region (nd nodes id)) L

/-- The last node is open and has no child. -/
def Tip (ct : Int) (o : CutOrientation) (K base : Nat) (nodes : List Node) : Prop :=
  ∃ pre, Path ct o K base nodes (nodes.length - 1) pre
    ∧ (nd nodes (nodes.length - 1)).children = []
    ∧ leaves base nodes = pre ++ [region (nd nodes (nodes.length - 1))]

section
variable {ct : Int} {o : CutOrientation} {K base : Nat} {nodes : List Node}

theorem ready_of_leaf {id : Nat} {pre : List Region} (hp : Path ct o K base nodes id pre)
    (hid : id = nodes.length - 1) (hc : (nd nodes id).children = [])
    (hl : leaves base nodes = pre ++ [region (nd nodes id)]) :
    Ready ct o K base nodes id pre [] where
  path := hp
  low_lt h := absurd hc h
  brother c h := by rw [hc] at h; cases h
  ext _ _ L h := by
    have : start ct o nodes id = (region (nd nodes id)).low (vert o (nd nodes id).d) := by
      unfold start; rw [hc]; rfl
    rw [this, after_low] at h
    exact h
  done h := absurd hc h
  nil _ := ⟨hid, rfl, hl⟩
  cons h := absurd hc h

/-- A closed node lets its father go on. -/
theorem closed_ready {c : Nat} {pre L : List Region} (ho : o ≠ .any) (hct : 0 ≤ ct)
    (hst : StagesOk K nodes) (h : Closed ct o K base nodes c pre L) (hc : c ≠ base) :
    ∃ a pre' P', (nd nodes c).f = some a ∧ a < c ∧ (nd nodes c).d = (nd nodes a).d + 1
      ∧ Ready ct o K base nodes a pre' P' := by
  obtain ⟨hp, hl, hcut⟩ := h
  cases hp with
  | root => exact absurd rfl hc
  | @step a _ pre P h1 h2 h3 h4 h5 h6 h7 h8 =>
    have hne : (nd nodes a).children ≠ [] := by intro hh; rw [hh] at h6; cases h6
    have hst' : start ct o nodes a
        = (region (nd nodes c)).high (vert o (nd nodes a).d) + ct := by
      unfold start; rw [h6]
    have hda := h1.bounds.2.2.1
    have hv : vert o (nd nodes c).d = !vert o (nd nodes a).d := by rw [h5]; exact vert_succ ho hda
    rw [hv] at hcut
    obtain ⟨s1, s2, s3, s4⟩ := h7
    refine ⟨a, pre, P ++ L, h4, h2, h5, ?_⟩
    refine ⟨h1, ?_, ?_, ?_, ?_, ?_, ?_⟩
    · intro _; rw [hst']; omega
    · intro c' hc'
      rw [h6] at hc'
      cases hc'
      exact ⟨h3, s1, s2, s3, s4⟩
    · rintro (hK | hK) hlt L' hL'
      · rw [hst'] at hlt hL'
        have hk : left K (nd nodes a) = left K (nd nodes c) + 1 := by
          unfold left; rw [h5]; omega
        rw [List.append_assoc]
        apply h8
        rw [hk] at hL' ⊢
        refine .cut (p := (region (nd nodes c)).high (vert o (nd nodes a).d)) ?_ ?_ ?_ ?_
        · rw [low_after]; exact s2
        · rw [high_after]; exact hlt
        · rw [← s1]; exact hcut
        · rw [after_after]; exact hL'
      · exact absurd hK hne
    · intro _ hle
      rw [hst'] at hle
      apply h8
      by_cases hK : (nd nodes a).d < K
      · have hk : left K (nd nodes a) = left K (nd nodes c) + 1 := by
          unfold left; rw [h5]; omega
        rw [hk]
        refine .last (p := (region (nd nodes c)).high (vert o (nd nodes a).d)) ?_ ?_ ?_ ?_
        · rw [low_after]; exact s2
        · rw [high_after]; exact s3
        · rw [high_after]; exact hle
        · rw [← s1]; exact hcut
      · rcases hst c h3 with hd | ⟨f, hf, hreg⟩
        · omega
        · rw [h4] at hf
          cases hf
          have hk : left K (nd nodes c) = 0 := by unfold left; omega
          obtain ⟨hL, hne'⟩ := cuts_zero hcut hk
          rw [hL, hreg, after_low]
          rw [hreg] at hne'
          exact .piece hne'
    · intro hh; exact absurd hh hne
    · intro _; rw [hl, List.append_assoc]

/-! ### Pushing a child -/

theorem nd_push_old {id : Nat} {w : Node} {i : Nat} (hi : i < nodes.length) :
    nd (pushChild nodes id w) i
      = if i = id then { nd nodes i with children := (nd nodes i).children ++ [nodes.length] }
        else nd nodes i := by
  unfold nd pushChild
  rw [List.getD_eq_getElem?_getD, List.getElem?_append_left (by rw [List.length_modify]; exact hi),
    List.getElem?_modify, List.getD_eq_getElem?_getD]
  rw [List.getElem?_eq_getElem hi]
  by_cases h : id = i
  · subst h; simp
  · have h' : ¬ i = id := fun hh => h hh.symm
    simp [h, h']

theorem nd_push_new {id : Nat} {w : Node} :
    nd (pushChild nodes id w) nodes.length = w := by
  unfold nd pushChild
  rw [List.getD_eq_getElem?_getD, List.getElem?_append_right (by rw [List.length_modify])]
  simp

theorem length_push {id : Nat} {w : Node} :
    (pushChild nodes id w).length = nodes.length + 1 := by
  unfold pushChild
  rw [List.length_append, List.length_modify]; rfl

theorem flatMap_modify {f : Node → Node} : ∀ {l : List Node} {i : Nat},
    (∀ n, l[i]? = some n → leafOf (f n) = leafOf n) →
    (l.modify i f).flatMap leafOf = l.flatMap leafOf := by
  intro l
  induction l with
  | nil => intro i _; simp
  | cons a l ih =>
    intro i h
    cases i with
    | zero =>
      rw [List.modify_zero_cons, List.flatMap_cons, List.flatMap_cons, h a (by simp)]
    | succ i =>
      rw [List.modify_succ_cons, List.flatMap_cons, List.flatMap_cons, ih (fun n hn => h n (by simpa using hn))]

theorem drop_modify {f : Node → Node} : ∀ {l : List Node} {b i : Nat}, b ≤ i →
    (l.modify i f).drop b = (l.drop b).modify (i - b) f := by
  intro l
  induction l with
  | nil => intro b i _; simp
  | cons a l ih =>
    intro b i h
    cases b with
    | zero => simp
    | succ b =>
      obtain ⟨j, rfl⟩ : ∃ j, i = j + 1 := ⟨i - 1, by omega⟩
      rw [List.modify_succ_cons, List.drop_succ_cons, List.drop_succ_cons, ih (by omega)]
      congr 1; omega

theorem leaves_append {base : Nat} {l m : List Node} (h : base ≤ l.length) :
    leaves base (l ++ m) = leaves base l ++ m.flatMap leafOf := by
  unfold leaves
  rw [List.drop_append_of_le_length h, List.flatMap_append]

theorem leaves_push_cons {id : Nat} {w : Node} (hb : base ≤ id) (hid : id < nodes.length)
    (hc : (nd nodes id).children ≠ []) (hw : w.children = []) :
    leaves base (pushChild nodes id w) = leaves base nodes ++ [region w] := by
  unfold pushChild
  rw [leaves_append (by rw [List.length_modify]; omega)]
  congr 1
  · unfold leaves
    rw [drop_modify hb]
    apply flatMap_modify
    intro n hn
    rw [List.getElem?_drop, Nat.add_sub_cancel' hb] at hn
    have : nd nodes id = n := by unfold nd; rw [List.getD_eq_getElem?_getD, hn]; rfl
    rw [this] at hc
    unfold leafOf
    rw [if_neg hc, if_neg (by simp)]
  · simp [leafOf, hw]

theorem modify_last (f : Node → Node) (l : List Node) (a : Node) :
    (l ++ [a]).modify l.length f = l ++ [f a] := by
  induction l with
  | nil => rfl
  | cons b l ih => rw [List.cons_append, List.length_cons, List.modify_succ_cons, ih]; rfl

theorem leaves_push_nil {w : Node} (hb : base < nodes.length)
    (hc : (nd nodes (nodes.length - 1)).children = []) {pre : List Region}
    (hl : leaves base nodes = pre ++ [region (nd nodes (nodes.length - 1))])
    (hw : w.children = []) :
    leaves base (pushChild nodes (nodes.length - 1) w) = pre ++ [region w] := by
  have hne : nodes ≠ [] := by intro h; subst h; simp at hb
  have hsplit : nodes = nodes.dropLast ++ [nd nodes (nodes.length - 1)] := by
    have := List.dropLast_append_getLast hne
    rw [List.getLast_eq_getElem] at this
    conv_lhs => rw [← this]
    unfold nd
    rw [List.getD_eq_getElem?_getD, List.getElem?_eq_getElem (by omega)]
    rfl
  have hlen : nodes.dropLast.length = nodes.length - 1 := List.length_dropLast
  have hpre : leaves base nodes.dropLast = pre := by
    have h1 := hl
    rw [hsplit, leaves_append (by rw [hlen]; omega)] at h1
    rw [← hsplit] at h1
    have h2 : [nd nodes (nodes.length - 1)].flatMap leafOf
        = [region (nd nodes (nodes.length - 1))] := by
      simp [leafOf, hc]
    rw [h2] at h1
    exact List.append_cancel_right h1
  unfold pushChild
  have hmod : ∀ f : Node → Node, nodes.modify (nodes.length - 1) f
      = nodes.dropLast ++ [f (nd nodes (nodes.length - 1))] := by
    intro f
    have h := modify_last f nodes.dropLast (nd nodes (nodes.length - 1))
    rw [hlen, ← hsplit] at h
    exact h
  rw [hmod, leaves_append (by simp; omega), leaves_append (by rw [hlen]; omega), hpre]
  simp [leafOf, hw]

end

end PackingSolver.Guil
