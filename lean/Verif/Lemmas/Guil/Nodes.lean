import Verif.Lemmas.Guil.Path

/-!
# Lemmas: adding nodes keeps the cutting pattern
-/

namespace PackingSolver.Guil

open Spec

/-! ### Lists of nodes that extend another -/

/-- `nodes'` has the nodes of `nodes`, up to items and children, and maybe more. -/
def Extends (nodes nodes' : List Node) : Prop :=
  nodes.length ≤ nodes'.length ∧ ∀ i < nodes.length, Same (nd nodes' i) (nd nodes i)

/-- Fathers come before their children. -/
def Fathers (nodes : List Node) : Prop :=
  ∀ i < nodes.length, ∀ f, (nd nodes i).f = some f → f < i

section
variable {ct : Int} {o : CutOrientation} {K base : Nat} {nodes nodes' nodes'' : List Node}

theorem Same.trans {a b c : Node} (h1 : Same a b) (h2 : Same b c) : Same a c :=
  ⟨h1.1.trans h2.1, h1.2.1.trans h2.2.1, h1.2.2.trans h2.2.2⟩

theorem Extends.refl : Extends nodes nodes := ⟨le_refl _, fun _ _ => .refl _⟩

theorem Extends.trans (h1 : Extends nodes nodes') (h2 : Extends nodes' nodes'') :
    Extends nodes nodes'' :=
  ⟨h1.1.trans h2.1, fun i hi => (h2.2 i (lt_of_lt_of_le hi h1.1)).trans (h1.2 i hi)⟩

theorem extends_push {id : Nat} {w : Node} : Extends nodes (pushChild nodes id w) := by
  refine ⟨by rw [length_push]; omega, fun i hi => ?_⟩
  rw [nd_push_old hi]
  by_cases h : i = id
  · rw [if_pos h]; exact .refl _
  · rw [if_neg h]; exact .refl _

theorem stagesOk_mono (hf : Fathers nodes) (h : Extends nodes nodes') (hs : StagesOk K nodes') :
    StagesOk K nodes := by
  intro i hi
  obtain ⟨s1, s2, s3⟩ := h.2 i hi
  rcases hs i (by have := h.1; omega) with hd | ⟨f, hf', hr⟩
  · left; rw [← s2]; exact hd
  · right
    rw [s1] at hf'
    refine ⟨f, hf', ?_⟩
    rw [← s3, hr]
    exact (h.2 f (by have := hf i hi f hf'; omega)).2.2

theorem fathers_push {id : Nat} {w : Node} (h : Fathers nodes) (hid : id < nodes.length)
    (hw : w.f = some id) : Fathers (pushChild nodes id w) := by
  intro i hi f hf
  rw [length_push] at hi
  by_cases hin : i < nodes.length
  · rw [(extends_push.2 i hin).1] at hf
    exact h i hin f hf
  · have : i = nodes.length := by omega
    subst this
    rw [nd_push_new, hw] at hf
    cases hf
    exact hid

/-- Some number of stages always fits. -/
theorem exists_stagesOk (nodes : List Node) : ∃ K, StagesOk K nodes := by
  have : ∃ K : Nat, ∀ n ∈ nodes, n.d ≤ K := by
    induction nodes with
    | nil => exact ⟨0, by simp⟩
    | cons a l ih =>
      obtain ⟨K, hK⟩ := ih
      refine ⟨max K a.d.toNat, ?_⟩
      intro n hn
      rcases List.mem_cons.mp hn with rfl | hn
      · omega
      · have := hK n hn; omega
  obtain ⟨K, hK⟩ := this
  refine ⟨K, fun i hi => .inl ?_⟩
  apply hK
  unfold nd
  rw [List.getD_eq_getElem?_getD, List.getElem?_eq_getElem hi]
  exact List.getElem_mem hi

/-! ### Pushing a strip -/

/-- The strip of a region between two positions. -/
def strip (v : Bool) (R : Region) (x y : Int) : Region := (R.after v x).before v y

theorem strip_low (v : Bool) (R : Region) (x y : Int) : (strip v R x y).low v = x := by
  unfold strip; rw [low_before, low_after]

theorem strip_high (v : Bool) (R : Region) (x y : Int) : (strip v R x y).high v = y := by
  unfold strip; rw [high_before]

/-- The state after a child has been pushed. -/
structure Pushed (ct : Int) (o : CutOrientation) (K base : Nat) (nodes : List Node) (id : Nat)
    (pre P : List Region) : Prop where
  father : (nd nodes (nodes.length - 1)).f = some id
  isOpen : Path ct o K base nodes id pre
  path : Path ct o K base nodes (nodes.length - 1) (pre ++ P)
  leaf : (nd nodes (nodes.length - 1)).children = []
  leaves : leaves base nodes = pre ++ P ++ [region (nd nodes (nodes.length - 1))]
  ext : ∀ L, Cuts ct (left K (nd nodes id)) (vert o (nd nodes id).d)
      ((region (nd nodes id)).after (vert o (nd nodes id).d)
        ((region (nd nodes (nodes.length - 1))).low (vert o (nd nodes id).d))) L →
    Cuts ct (left K (nd nodes id)) (vert o (nd nodes id).d) (region (nd nodes id)) (P ++ L)

theorem ready_push {id : Nat} {pre P : List Region} {w : Node} {e : Int}
    (hb : base < nodes.length) (h : Ready ct o K base nodes id pre P)
    (hst : StagesOk K (pushChild nodes id w))
    (hf : w.f = some id) (hd : w.d = (nd nodes id).d + 1) (hc : w.children = [])
    (hr : region w = strip (vert o (nd nodes id).d) (region (nd nodes id)) (start ct o nodes id) e)
    (h1 : start ct o nodes id < e) (h2 : e ≤ (region (nd nodes id)).high (vert o (nd nodes id).d)) :
    Pushed ct o K base (pushChild nodes id w) id pre P := by
  obtain ⟨b1, b2, b3, b4⟩ := h.path.bounds
  have hlen : (pushChild nodes id w).length - 1 = nodes.length := by rw [length_push]; omega
  have hnew : nd (pushChild nodes id w) nodes.length = w := nd_push_new
  obtain ⟨s1, s2, s3⟩ := (extends_push (id := id) (w := w)).2 id b2
  have hleft : left K (nd (pushChild nodes id w) id) = left K (nd nodes id) := by
    unfold left; rw [s2]
  have hopen : Path ct o K base (pushChild nodes id w) id pre := by
    refine h.path.mono (by rw [length_push]; omega) ?_ ?_
    · intro i hi
      rw [nd_push_old (by omega), if_neg (by omega)]
    · intro i hi
      exact extends_push.2 i (by omega)
  have hlow : (region w).low (vert o (nd nodes id).d) = start ct o nodes id := by
    rw [hr, strip_low]
  have hhigh : (region w).high (vert o (nd nodes id).d) = e := by rw [hr, strip_high]
  have hlowle : (region (nd nodes id)).low (vert o (nd nodes id).d) ≤ start ct o nodes id := by
    by_cases hcc : (nd nodes id).children = []
    · unfold start; rw [hcc]; exact le_refl _
    · exact le_of_lt (h.low_lt hcc)
  have hK : (nd nodes id).d < K ∨ (nd nodes id).children = [] := by
    by_cases hcc : (nd nodes id).children = []
    · exact .inr hcc
    · left
      have hs := hst nodes.length (by rw [length_push]; omega)
      rw [hnew] at hs
      rcases hs with hs | ⟨f, hf', hreg⟩
      · omega
      · rw [hf] at hf'
        cases hf'
        rw [s3] at hreg
        have := h.low_lt hcc
        rw [← hlow, hreg] at this
        omega
  have hext : ∀ L, Cuts ct (left K (nd nodes id)) (vert o (nd nodes id).d)
      ((region (nd nodes id)).after (vert o (nd nodes id).d)
        ((region w).low (vert o (nd nodes id).d))) L →
      Cuts ct (left K (nd nodes id)) (vert o (nd nodes id).d) (region (nd nodes id)) (P ++ L) := by
    intro L hL
    rw [hlow] at hL
    exact h.ext hK (by omega) L hL
  refine ⟨?_, hopen, ?_, ?_, ?_, ?_⟩
  · rw [hlen, hnew]; exact hf
  · rw [hlen]
    refine .step hopen b2 (by rw [length_push]; omega) ?_ ?_ ?_ ?_ ?_
    · rw [hnew]; exact hf
    · rw [hnew, s2]; exact hd
    · rw [nd_push_old b2, if_pos rfl]
      simp
    · rw [hnew, s2, s3]
      refine ⟨?_, by rw [hlow, hhigh]; exact h1, by rw [hhigh]; exact h2, by rw [hlow]; exact hlowle⟩
      rw [hlow, hhigh]; exact hr
    · rw [hleft, hnew, s2, s3]; exact hext
  · rw [hlen, hnew]; exact hc
  · rw [hlen, hnew]
    by_cases hcc : (nd nodes id).children = []
    · obtain ⟨hid, hP, hl⟩ := h.nil hcc
      rw [hP, List.append_nil]
      subst hid
      exact leaves_push_nil hb hcc hl hc
    · rw [leaves_push_cons b1 b2 hcc hc, h.cons hcc]
  · rw [hlen, hleft, hnew, s2, s3]; exact hext

theorem Pushed.tip {id : Nat} {pre P : List Region} (h : Pushed ct o K base nodes id pre P) :
    Tip ct o K base nodes := ⟨_, h.path, h.leaf, h.leaves⟩

/-! ### Closing a node -/

/-- `closeNode` adds the rest of a node whose last child does not reach its end. -/
theorem closeNode_eq {id : Nat} {pre P : List Region} (hct : 0 ≤ ct)
    (h : Ready ct o K base nodes id pre P) :
    (closeNode ct nodes id = nodes ∧ ((nd nodes id).children = []
        ∨ (region (nd nodes id)).high (vert o (nd nodes id).d) ≤ start ct o nodes id))
    ∨ ∃ w : Node, closeNode ct nodes id = pushChild nodes id w ∧ w.f = some id
        ∧ w.d = (nd nodes id).d + 1 ∧ w.children = [] ∧ w.itemTypeId = -1
        ∧ (nd nodes id).children ≠ []
        ∧ start ct o nodes id < (region (nd nodes id)).high (vert o (nd nodes id).d)
        ∧ region w = strip (vert o (nd nodes id).d) (region (nd nodes id)) (start ct o nodes id)
            ((region (nd nodes id)).high (vert o (nd nodes id).d)) := by
  cases hl : (nd nodes id).children.getLast? with
  | none =>
    left
    have hc : (nd nodes id).children = [] := List.getLast?_eq_none_iff.mp hl
    refine ⟨?_, .inl hc⟩
    unfold closeNode
    dsimp only
    unfold nd at hl
    rw [hl]
  | some c =>
    have hne : (nd nodes id).children ≠ [] := by intro hh; rw [hh] at hl; cases hl
    obtain ⟨hcl, hs1, hs2, hs3, hs4⟩ := h.brother c hl
    have hstart : start ct o nodes id
        = (region (nd nodes c)).high (vert o (nd nodes id).d) + ct := by unfold start; rw [hl]
    have hcn : closeNode ct nodes id
        = if (nd nodes id).r > (nd nodes c).r + ct then
            pushChild nodes id (childNode id ((nd nodes id).d + 1) ((nd nodes c).r + ct)
              (nd nodes id).r (nd nodes id).b (nd nodes id).t)
          else if (nd nodes id).t > (nd nodes c).t + ct then
            pushChild nodes id (childNode id ((nd nodes id).d + 1) (nd nodes id).l
              (nd nodes id).r ((nd nodes c).t + ct) (nd nodes id).t)
          else nodes := by
      unfold closeNode
      dsimp only
      unfold nd at hl ⊢
      rw [hl]
    rw [hcn, hstart]
    cases hv : vert o (nd nodes id).d with
    | true =>
      rw [hv] at hs1 hs2 hs3 hs4
      have hbt : (nd nodes c).t = (nd nodes id).t := by
        have := congrArg Region.t hs1
        simpa [region, Region.after, Region.before] using this
      have hhigh : (region (nd nodes id)).high true = (nd nodes id).r := rfl
      have hhighc : (region (nd nodes c)).high true = (nd nodes c).r := rfl
      rw [hhigh, hhighc]
      by_cases hr : (nd nodes id).r > (nd nodes c).r + ct
      · right
        rw [if_pos hr]
        exact ⟨_, rfl, rfl, rfl, rfl, rfl, hne, by omega, rfl⟩
      · left
        rw [if_neg hr, if_neg (by omega)]
        exact ⟨rfl, .inr (by omega)⟩
    | false =>
      rw [hv] at hs1 hs2 hs3 hs4
      have hbt : (nd nodes c).r = (nd nodes id).r := by
        have := congrArg Region.r hs1
        simpa [region, Region.after, Region.before] using this
      have hhigh : (region (nd nodes id)).high false = (nd nodes id).t := rfl
      have hhighc : (region (nd nodes c)).high false = (nd nodes c).t := rfl
      rw [hhigh, hhighc, if_neg (by omega)]
      by_cases hr : (nd nodes id).t > (nd nodes c).t + ct
      · right
        rw [if_pos hr]
        exact ⟨_, rfl, rfl, rfl, rfl, rfl, hne, by omega, rfl⟩
      · left
        rw [if_neg hr]
        exact ⟨rfl, .inr (by omega)⟩

theorem closeNode_cases (nodes : List Node) (id : Nat) :
    closeNode ct nodes id = nodes
    ∨ ∃ w : Node, closeNode ct nodes id = pushChild nodes id w ∧ w.f = some id
        ∧ w.d = (nd nodes id).d + 1 ∧ w.children = [] ∧ w.itemTypeId = -1
        ∧ (nd nodes id).children ≠ [] := by
  unfold closeNode
  dsimp only
  cases hl : (nodes.getD id default).children.getLast? with
  | none => exact .inl rfl
  | some c =>
    dsimp only
    have hne : (nd nodes id).children ≠ [] := by
      intro hh; unfold nd at hh; rw [hh] at hl; cases hl
    by_cases h1 : (nodes.getD id default).r > (nodes.getD c default).r + ct
    · rw [if_pos h1]; exact .inr ⟨_, rfl, rfl, rfl, rfl, rfl, hne⟩
    · rw [if_neg h1]
      by_cases h2 : (nodes.getD id default).t > (nodes.getD c default).t + ct
      · rw [if_pos h2]; exact .inr ⟨_, rfl, rfl, rfl, rfl, rfl, hne⟩
      · rw [if_neg h2]; exact .inl rfl

theorem closeNode_extends (nodes : List Node) (id : Nat) :
    Extends nodes (closeNode ct nodes id) := by
  rcases closeNode_cases (ct := ct) nodes id with h | ⟨w, h, _⟩
  · rw [h]; exact .refl
  · rw [h]; exact extends_push

theorem closeNode_fathers {id : Nat} (h : Fathers nodes) (hid : id < nodes.length) :
    Fathers (closeNode ct nodes id) := by
  rcases closeNode_cases (ct := ct) nodes id with h' | ⟨w, h', hw, _⟩
  · rw [h']; exact h
  · rw [h']; exact fathers_push h hid hw

theorem ready_close {id : Nat} {pre P : List Region} (hct : 0 ≤ ct)
    (hn : (region (nd nodes base)).Nonempty) (hb : base < nodes.length)
    (h : Ready ct o K base nodes id pre P) (ht : Tip ct o K base nodes)
    (hst : StagesOk K (closeNode ct nodes id)) :
    (∃ L, Closed ct o K base (closeNode ct nodes id) id pre L)
      ∧ Tip ct o K base (closeNode ct nodes id) := by
  rcases closeNode_eq hct h with ⟨he, hc⟩ | ⟨w, he, w1, w2, w3, w4, w5, w6, w7⟩
  · rw [he]
    refine ⟨?_, ht⟩
    by_cases hcc : (nd nodes id).children = []
    · obtain ⟨_, hP, hl⟩ := h.nil hcc
      exact ⟨_, h.path, hl, .piece (h.path.nonempty hn)⟩
    · rcases hc with hc | hc
      · exact absurd hc hcc
      · exact ⟨P, h.path, h.cons hcc, h.done hcc hc⟩
  · rw [he] at hst ⊢
    have hp := ready_push hb h hst w1 w2 w3 w7 w6 (le_refl _)
    refine ⟨⟨P ++ [region w], hp.isOpen, ?_, ?_⟩, hp.tip⟩
    · have hl := hp.leaves
      have hlen : (pushChild nodes id w).length - 1 = nodes.length := by rw [length_push]; omega
      rw [hlen, nd_push_new] at hl
      rw [hl, List.append_assoc]
    · have hlen : (pushChild nodes id w).length - 1 = nodes.length := by rw [length_push]; omega
      have hx := hp.ext
      rw [hlen, nd_push_new] at hx
      apply hx
      obtain ⟨b1, b2, _⟩ := h.path.bounds
      obtain ⟨s1, s2, s3⟩ := (extends_push (id := id) (w := w)).2 id b2
      have hlow : (region w).low (vert o (nd nodes id).d) = start ct o nodes id := by
        rw [w7, strip_low]
      rw [s2, s3, hlow]
      have hreg : region w = (region (nd nodes id)).after (vert o (nd nodes id).d)
          (start ct o nodes id) := by
        rw [w7]; unfold strip
        conv_lhs => rw [← high_after (vert o (nd nodes id).d) (region (nd nodes id))
          (start ct o nodes id)]
        rw [before_high]
      rw [← hreg]
      refine .piece ?_
      have hpn := hp.path.nonempty (base := base) (by
        rw [(extends_push.2 base hb).2.2]; exact hn)
      rw [hlen, nd_push_new] at hpn
      exact hpn

/-! ### The two loops -/

theorem tip_ready (h : Tip ct o K base nodes) :
    ∃ pre, Ready ct o K base nodes (nodes.length - 1) pre [] := by
  obtain ⟨pre, h1, h2, h3⟩ := h
  exact ⟨pre, ready_of_leaf h1 rfl h2 h3⟩

theorem climb_extends (depth : Int) : ∀ (fuel : Nat) (nodes : List Node) (id : Option Nat),
    Extends nodes (climb ct depth fuel nodes id).1 := by
  intro fuel
  induction fuel with
  | zero => intro nodes id; cases id <;> exact .refl
  | succ fuel ih =>
    intro nodes id
    cases id with
    | none => exact .refl
    | some id =>
      unfold climb
      by_cases h : (nodes.getD id default).d = depth - 1
      · rw [if_pos h]; exact .refl
      · rw [if_neg h]; exact (closeNode_extends nodes id).trans (ih _ _)

/-- The properties of the nodes of a bin under construction that do not depend on the number of
stages. -/
structure Shape (base : Nat) (nodes : List Node) : Prop where
  base_lt : base < nodes.length
  nonempty : (region (nd nodes base)).Nonempty
  fathers : Fathers nodes

theorem Shape.extends (h : Shape base nodes) (he : Extends nodes nodes') (hf : Fathers nodes') :
    Shape base nodes' :=
  ⟨lt_of_lt_of_le h.base_lt he.1, by rw [(he.2 base h.base_lt).2.2]; exact h.nonempty, hf⟩

theorem climb_spec (ho : o ≠ .any) (hct : 0 ≤ ct) {depth : Int} (hdep : 1 ≤ depth) :
    ∀ (fuel : Nat) (nodes : List Node) (id : Nat), Shape base nodes → id < fuel →
      ∀ K, StagesOk K (climb ct depth fuel nodes (some id)).1 →
      Tip ct o K base nodes → (∃ pre P, Ready ct o K base nodes id pre P) →
      depth - 1 ≤ (nd nodes id).d →
      Fathers (climb ct depth fuel nodes (some id)).1
      ∧ Tip ct o K base (climb ct depth fuel nodes (some id)).1
      ∧ ∃ id' pre P, (climb ct depth fuel nodes (some id)).2 = some id'
        ∧ Ready ct o K base (climb ct depth fuel nodes (some id)).1 id' pre P
        ∧ (nd (climb ct depth fuel nodes (some id)).1 id').d = depth - 1 := by
  intro fuel
  induction fuel with
  | zero => intro nodes id _ h; omega
  | succ fuel ih =>
    intro nodes id hs hid K hst ht ⟨pre, P, hr⟩ hd
    by_cases h : (nodes.getD id default).d = depth - 1
    · have he : climb ct depth (fuel + 1) nodes (some id) = (nodes, some id) := by
        unfold climb; rw [if_pos h]
      rw [he]
      exact ⟨hs.fathers, ht, id, pre, P, rfl, hr, h⟩
    · have he : climb ct depth (fuel + 1) nodes (some id)
          = climb ct depth fuel (closeNode ct nodes id) (nd (closeNode ct nodes id) id).f := by
        conv_lhs => unfold climb
        rw [if_neg h]; rfl
      rw [he] at hst ⊢
      have hidl := hr.path.bounds.2.1
      have hfa : Fathers (closeNode ct nodes id) := closeNode_fathers hs.fathers hidl
      have hst1 : StagesOk K (closeNode ct nodes id) :=
        stagesOk_mono hfa (climb_extends depth fuel _ _) hst
      obtain ⟨⟨L, hcl⟩, ht1⟩ := ready_close hct hs.nonempty hs.base_lt hr ht hst1
      have hsame := (closeNode_extends (ct := ct) nodes id).2 id hidl
      have hne : id ≠ base := by
        intro hh
        subst hh
        have hp := hr.path
        have h0 : (nd nodes id).d = 0 := by
          cases hp with
          | root _ h0 => exact h0
          | step h1 h2 => have := h1.bounds; omega
        have : (nd nodes id).d ≠ depth - 1 := h
        omega
      obtain ⟨a, pre', P', c1, c2, c3, c4⟩ := closed_ready ho hct hst1 hcl hne
      rw [c1] at hst ⊢
      refine ih _ a (hs.extends (closeNode_extends _ _) hfa) (by omega) K hst ht1 ⟨_, _, c4⟩ ?_
      have : (nd nodes id).d ≠ depth - 1 := h
      rw [hsame.2.1] at c3
      omega

theorem closeUp_extends : ∀ (fuel : Nat) (nodes : List Node) (id : Option Nat),
    Extends nodes (closeUp ct fuel nodes id) := by
  intro fuel
  induction fuel with
  | zero => intro nodes id; cases id <;> exact .refl
  | succ fuel ih =>
    intro nodes id
    cases id with
    | none => exact .refl
    | some id => exact (closeNode_extends nodes id).trans (ih _ _)

/-- What lies above the bin's own node: nothing, or a root without children. -/
def Top (base : Nat) (nodes : List Node) : Prop :=
  (nd nodes base).f = none
    ∨ ((nd nodes base).f = some 0 ∧ 0 < base ∧ (nd nodes 0).f = none
      ∧ (nd nodes 0).children = [])

theorem closeNode_leaf {id : Nat} (h : (nd nodes id).children = []) :
    closeNode ct nodes id = nodes := by
  rcases closeNode_cases (ct := ct) nodes id with h' | ⟨w, _, _, _, _, _, h'⟩
  · exact h'
  · exact absurd h h'

theorem closeUp_none (fuel : Nat) (nodes : List Node) : closeUp ct fuel nodes none = nodes := by
  cases fuel <;> rfl

theorem closeUp_top {fuel : Nat} (h : Top base nodes) :
    closeUp ct fuel nodes (nd nodes base).f = nodes := by
  rcases h with h | ⟨h1, _, h3, h4⟩
  · rw [h]; exact closeUp_none _ _
  · rw [h1]
    cases fuel with
    | zero => rfl
    | succ fuel =>
      unfold closeUp
      rw [closeNode_leaf h4]
      have : (nodes.getD 0 default).f = none := h3
      dsimp only
      rw [this]
      exact closeUp_none _ _

theorem Top.closeNode {id : Nat} (h : Top base nodes) (hb : base < nodes.length)
    (hid : base ≤ id) : Top base (closeNode ct nodes id) := by
  have hsame := closeNode_extends (ct := ct) nodes id
  rcases h with h | ⟨h1, h2, h3, h4⟩
  · left; rw [(hsame.2 base hb).1]; exact h
  · right
    refine ⟨by rw [(hsame.2 base hb).1]; exact h1, h2, by rw [(hsame.2 0 (by omega)).1]; exact h3, ?_⟩
    rcases closeNode_cases (ct := ct) nodes id with h' | ⟨w, h', _⟩
    · rw [h']; exact h4
    · rw [h', nd_push_old (by omega), if_neg (by omega)]; exact h4

theorem closeUp_spec (ho : o ≠ .any) (hct : 0 ≤ ct) :
    ∀ (fuel : Nat) (nodes : List Node) (id : Nat), Shape base nodes → Top base nodes →
      id < fuel → ∀ K, StagesOk K (closeUp ct fuel nodes (some id)) →
      Tip ct o K base nodes → (∃ pre P, Ready ct o K base nodes id pre P) →
      ∃ L, Closed ct o K base (closeUp ct fuel nodes (some id)) base [] L := by
  intro fuel
  induction fuel with
  | zero => intro nodes id _ _ h; omega
  | succ fuel ih =>
    intro nodes id hs htop hid K hst ht ⟨pre, P, hr⟩
    have he : closeUp ct (fuel + 1) nodes (some id)
        = closeUp ct fuel (closeNode ct nodes id) (nd (closeNode ct nodes id) id).f := rfl
    rw [he] at hst ⊢
    obtain ⟨hbid, hidl, _⟩ := hr.path.bounds
    have hfa : Fathers (closeNode ct nodes id) := closeNode_fathers hs.fathers hidl
    have hst1 : StagesOk K (closeNode ct nodes id) :=
      stagesOk_mono hfa (closeUp_extends fuel _ _) hst
    obtain ⟨⟨L, hcl⟩, ht1⟩ := ready_close hct hs.nonempty hs.base_lt hr ht hst1
    have htop1 := htop.closeNode (ct := ct) hs.base_lt hbid
    by_cases hb : id = base
    · subst hb
      rw [closeUp_top htop1]
      have := hcl.1.base_nil
      subst this
      exact ⟨L, hcl⟩
    · obtain ⟨a, pre', P', c1, c2, c3, c4⟩ := closed_ready ho hct hst1 hcl hb
      rw [c1] at hst ⊢
      exact ih _ a (hs.extends (closeNode_extends _ _) hfa) htop1 (by omega) K hst ht1 ⟨_, _, c4⟩

end

end PackingSolver.Guil
