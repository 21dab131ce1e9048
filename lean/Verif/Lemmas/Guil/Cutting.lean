import Verif.Lemmas.Guil.Rebuild

/-!
# Lemmas: how the nodes of a bin under construction are cut from one another
-/

namespace PackingSolver.Guil

open Spec

/-- The children of node `a` among the first `m` nodes. -/
def kidsUpTo (nodes : List Node) (a m : Nat) : List Nat :=
  (List.range m).filter fun j => (nd nodes j).f == some a

/-- Where node `i` starts in its father `a`: at the start of the father or after the previous child
and the cut. -/
def startAt (ct : Int) (v : Bool) (nodes : List Node) (a i : Nat) : Int :=
  match (kidsUpTo nodes a i).getLast? with
  | none => (region (nd nodes a)).low v
  | some c => (region (nd nodes c)).high v + ct

/-- The last child of the node reaches its end up to the thickness of a cut. -/
def Shut (ct : Int) (nodes : List Node) (i : Nat) : Prop :=
  ∀ c, (nd nodes i).children.getLast? = some c →
    (nd nodes i).r ≤ (nd nodes c).r + ct ∧ (nd nodes i).t ≤ (nd nodes c).t + ct

/-- Node `i` is a strip of its father `a`. -/
structure ChildOk (ct : Int) (v : Bool) (nodes : List Node) (i a : Nat) : Prop where
  low : (region (nd nodes i)).low v = startAt ct v nodes a i
  lt : (region (nd nodes i)).low v < (region (nd nodes i)).high v
  high : (region (nd nodes i)).high v ≤ (region (nd nodes a)).high v
  low' : (region (nd nodes i)).low (!v) = (region (nd nodes a)).low (!v)
  high' : (region (nd nodes i)).high (!v) = (region (nd nodes a)).high (!v)

/-- The nodes after the bin's own node are strips of their fathers, are marked as cut exactly if
they have children, and are finished, except for open nodes of depth at most `D`. -/
structure Cutting (ct : Int) (o : CutOrientation) (bs : Nat) (nodes : List Node) (D : Int) :
    Prop where
  child : ∀ i a, bs < i → i < nodes.length → (nd nodes i).f = some a →
    ChildOk ct (vert o (nd nodes a).d) nodes i a
  mark : ∀ i, bs < i → i < nodes.length →
    ((nd nodes i).children ≠ [] → (nd nodes i).itemTypeId = -2)
    ∧ ((nd nodes i).children = [] → (nd nodes i).itemTypeId = -1 ∨ 0 ≤ (nd nodes i).itemTypeId)
  shut : ∀ i, bs ≤ i → i < nodes.length → (¬ Open nodes i ∨ D < (nd nodes i).d) →
    Shut ct nodes i

section
variable {inst : Instance} {bt : BinType} {b : Nat} {nodes nodes' : List Node} {ct D : Int}
  {o : CutOrientation}

theorem Cutting.mono {bs : Nat} {D' : Int} (h : Cutting ct o bs nodes D) (hD : D ≤ D') :
    Cutting ct o bs nodes D' :=
  ⟨h.child, h.mark, fun i h1 h2 h3 => h.shut i h1 h2 (h3.imp id fun h => by omega)⟩

theorem kidsUpTo_congr {a m : Nat} (h : ∀ i < m, (nd nodes' i).f = (nd nodes i).f) :
    kidsUpTo nodes' a m = kidsUpTo nodes a m := by
  unfold kidsUpTo
  apply List.filter_congr
  intro j hj
  rw [h j (List.mem_range.mp hj)]

theorem kidsUpTo_mem {a m c : Nat} (h : c ∈ kidsUpTo nodes a m) :
    c < m ∧ (nd nodes c).f = some a := by
  unfold kidsUpTo at h
  rw [List.mem_filter, List.mem_range] at h
  exact ⟨h.1, eq_of_beq h.2⟩

theorem Tree.children_eq (h : Tree inst bt b nodes) {i : Nat} (hb : base bt b ≤ i)
    (hi : i < nodes.length) : (nd nodes i).children = kidsUpTo nodes i nodes.length :=
  h.kids i hb hi

theorem Tree.lastChild (h : Tree inst bt b nodes) {i c : Nat} (hb : base bt b ≤ i)
    (hi : i < nodes.length) (hc : (nd nodes i).children.getLast? = some c) :
    c < nodes.length ∧ (nd nodes c).f = some i ∧ i < c := by
  have hm := List.mem_of_getLast? hc
  rw [h.children_eq hb hi] at hm
  obtain ⟨h1, h2⟩ := kidsUpTo_mem hm
  exact ⟨h1, h2, h.fathers c h1 i h2⟩

theorem region_fields (n : Node) : (region n).l = n.l ∧ (region n).r = n.r ∧ (region n).b = n.b
    ∧ (region n).t = n.t := ⟨rfl, rfl, rfl, rfl⟩

theorem startAt_congr {v : Bool} {a i : Nat} (ha : a < i)
    (h : ∀ j < i, Same (nd nodes' j) (nd nodes j)) :
    startAt ct v nodes' a i = startAt ct v nodes a i := by
  unfold startAt
  rw [kidsUpTo_congr fun j hj => (h j hj).1]
  cases hc : (kidsUpTo nodes a i).getLast? with
  | none => dsimp only; rw [(h a ha).2.2]
  | some c =>
    dsimp only
    rw [(h c (kidsUpTo_mem (List.mem_of_getLast? hc)).1).2.2]

/-- The new child starts where `add_node` starts it. -/
theorem Tree.startAt_length (h : Tree inst bt b nodes) {a : Nat} (hb : base bt b ≤ a)
    (ha : a < nodes.length) :
    startAt ct (vert o (nd nodes a).d) nodes a nodes.length = start ct o nodes a := by
  unfold startAt start
  rw [h.children_eq hb ha]
  cases (kidsUpTo nodes a nodes.length).getLast? <;> rfl

theorem ChildOk.same {i a : Nat} {v : Bool} (hia : a < i)
    (h : ∀ j ≤ i, Same (nd nodes' j) (nd nodes j)) (hc : ChildOk ct v nodes i a) :
    ChildOk ct v nodes' i a := by
  have h1 := (h i (le_refl _)).2.2
  have h2 := (h a hia.le).2.2
  refine ⟨?_, ?_, ?_, ?_, ?_⟩
  · rw [h1, startAt_congr hia fun j hj => h j hj.le]; exact hc.low
  · rw [h1]; exact hc.lt
  · rw [h1, h2]; exact hc.high
  · rw [h1, h2]; exact hc.low'
  · rw [h1, h2]; exact hc.high'

theorem strip_child {v : Bool} {R : Region} {x y : Int} :
    (strip v R x y).low v = x ∧ (strip v R x y).high v = y
    ∧ (strip v R x y).low (!v) = R.low (!v) ∧ (strip v R x y).high (!v) = R.high (!v) := by
  cases v <;> exact ⟨rfl, rfl, rfl, rfl⟩

/-- Marking an open node and pushing a child below it. -/
theorem Cutting.push {nodes2 : List Node} {id : Nat} {w : Node} {e : Int}
    (ht : Tree inst bt b nodes) (h : Cutting ct o (base bt b) nodes D)
    (hid : base bt b ≤ id) (hl : id < nodes.length) (ho : Open nodes id)
    (hD : D ≤ (nd nodes id).d)
    (hal : Alike nodes nodes2) (hrest : ∀ i, i ≠ id → nd nodes2 i = nd nodes i)
    (hmark : base bt b < id → (nd nodes2 id).itemTypeId = -2)
    (w1 : w.f = some id) (w2 : w.d = (nd nodes id).d + 1) (w3 : w.children = [])
    (w4 : w.itemTypeId = -1)
    (w5 : region w = strip (vert o (nd nodes id).d) (region (nd nodes id)) (start ct o nodes id) e)
    (w6 : start ct o nodes id < e)
    (w7 : e ≤ (region (nd nodes id)).high (vert o (nd nodes id).d)) :
    Cutting ct o (base bt b) (pushChild nodes2 id w) (nd nodes id).d := by
  have hlen : nodes2.length = nodes.length := hal.1
  have hnew : nd (pushChild nodes2 id w) nodes.length = w := by rw [← hlen]; exact nd_push_new
  have hold : ∀ i, i < nodes.length → nd (pushChild nodes2 id w) i
      = if i = id then { nd nodes2 i with children := (nd nodes2 i).children ++ [nodes2.length] }
        else nd nodes2 i := fun i hi => nd_push_old (by omega)
  have hother : ∀ i, i < nodes.length → i ≠ id → nd (pushChild nodes2 id w) i = nd nodes i := by
    intro i hi hne
    rw [hold i hi, if_neg hne, hrest i hne]
  have hsame : ∀ i, i < nodes.length → Same (nd (pushChild nodes2 id w) i) (nd nodes i) := by
    intro i hi
    have := (hal.2 i).1
    rw [hold i hi]
    split
    · exact this
    · exact this
  refine ⟨?_, ?_, ?_⟩
  · intro i a hi hi2 hf
    rw [length_push, hlen] at hi2
    by_cases hin : i < nodes.length
    · rw [(hsame i hin).1] at hf
      have ha := ht.fathers i hin a hf
      rw [(hsame a (by omega)).2.1]
      exact ChildOk.same ha (fun j hj => hsame j (by omega)) (h.child i a hi hin hf)
    · have hii : i = nodes.length := by omega
      subst hii
      rw [hnew, w1] at hf
      cases hf
      rw [(hsame id hl).2.1]
      have hst : startAt ct (vert o (nd nodes id).d) (pushChild nodes2 id w) id nodes.length
          = start ct o nodes id := by
        rw [startAt_congr hl fun j hj => hsame j hj]
        exact ht.startAt_length hid hl
      obtain ⟨s1, s2, s3, s4⟩ := strip_child (v := vert o (nd nodes id).d)
        (R := region (nd nodes id)) (x := start ct o nodes id) (y := e)
      refine ⟨?_, ?_, ?_, ?_, ?_⟩
      · rw [hnew, w5, s1, hst]
      · rw [hnew, w5, s1, s2]; exact w6
      · rw [hnew, w5, s2, (hsame id hl).2.2]; exact w7
      · rw [hnew, w5, s3, (hsame id hl).2.2]
      · rw [hnew, w5, s4, (hsame id hl).2.2]
  · intro i hi hi2
    rw [length_push, hlen] at hi2
    by_cases hin : i < nodes.length
    · by_cases he : i = id
      · subst he
        rw [hold i hin, if_pos rfl]
        exact ⟨fun _ => hmark hi, fun hc => by simp at hc⟩
      · rw [hother i hin he]; exact h.mark i hi hin
    · have hii : i = nodes.length := by omega
      subst hii
      rw [hnew]
      exact ⟨fun hc => absurd w3 hc, fun _ => .inl w4⟩
  · intro i hi hi2 hc
    rw [length_push, hlen] at hi2
    by_cases hin : i < nodes.length
    · have hne : i ≠ id := by
        rintro rfl
        rw [(hsame i hin).2.1] at hc
        rcases hc with hc | hc
        · apply hc
          intro j j1 j2
          rw [length_push, hlen] at j2
          rw [(hsame i hin).2.1]
          by_cases hj : j < nodes.length
          · rw [(hsame j hj).2.1]; exact ho j j1 hj
          · have hjj : j = nodes.length := by omega
            subst hjj
            rw [hnew, w2]; omega
        · omega
      have hs : Shut ct nodes i := by
        apply h.shut i hi hin
        rw [(hsame i hin).2.1] at hc
        rcases hc with hc | hc
        · by_cases ho : Open nodes i
          · right
            by_contra hd
            apply hc
            intro j j1 j2
            rw [length_push, hlen] at j2
            rw [(hsame i hin).2.1]
            by_cases hj : j < nodes.length
            · rw [(hsame j hj).2.1]; exact ho j j1 hj
            · have hjj : j = nodes.length := by omega
              subst hjj
              rw [hnew, w2]; omega
          · exact .inl ho
        · right; omega
      intro c hcc
      rw [hother i hin hne] at hcc ⊢
      obtain ⟨c1, -, -⟩ := ht.lastChild hi hin hcc
      have e1 := (hsame c c1).2.2
      have e2 : (nd (pushChild nodes2 id w) c).r = (nd nodes c).r := congrArg Region.r e1
      have e3 : (nd (pushChild nodes2 id w) c).t = (nd nodes c).t := congrArg Region.t e1
      rw [e2, e3]
      exact hs c hcc
    · have hii : i = nodes.length := by omega
      subst hii
      intro c hcc
      rw [hnew, w3] at hcc
      cases hcc

/-- Two open nodes of the same depth are the same node. -/
theorem open_unique {i j : Nat} (hi : i < nodes.length) (hj : j < nodes.length)
    (oi : Open nodes i) (oj : Open nodes j) (hd : (nd nodes i).d = (nd nodes j).d) : i = j := by
  rcases Nat.lt_trichotomy i j with h | h | h
  · have := oi j h hj; omega
  · exact h
  · have := oj i h hi; omega

/-- Closing a node leaves the nodes as they are, if it is finished, or pushes a strip that reaches
its end. -/
theorem Cutting.closeNode_cases {id : Nat} (hct : 0 ≤ ct) (ht : Tree inst bt b nodes)
    (h : Cutting ct o (base bt b) nodes D) (hid : base bt b ≤ id) (hl : id < nodes.length) :
    (Guil.closeNode ct nodes id = nodes ∧ Shut ct nodes id)
    ∨ ∃ w : Node, Guil.closeNode ct nodes id = pushChild nodes id w ∧ w.f = some id
        ∧ w.d = (nd nodes id).d + 1 ∧ w.children = [] ∧ w.itemTypeId = -1
        ∧ (nd nodes id).children ≠ [] ∧ w.r = (nd nodes id).r ∧ w.t = (nd nodes id).t
        ∧ region w = strip (vert o (nd nodes id).d) (region (nd nodes id)) (start ct o nodes id)
            ((region (nd nodes id)).high (vert o (nd nodes id).d))
        ∧ start ct o nodes id < (region (nd nodes id)).high (vert o (nd nodes id).d) := by
  unfold Guil.closeNode
  dsimp only
  cases hlc : (nodes.getD id default).children.getLast? with
  | none =>
    refine .inl ⟨rfl, fun c hc => ?_⟩
    unfold nd at hc; rw [hlc] at hc; cases hc
  | some c =>
    dsimp only
    have hlc' : (nd nodes id).children.getLast? = some c := hlc
    have hne : (nd nodes id).children ≠ [] := by intro hh; rw [hh] at hlc'; cases hlc'
    obtain ⟨c1, c2, c3⟩ := ht.lastChild hid hl hlc'
    have hch := h.child c id (by omega) c1 c2
    have hst : start ct o nodes id
        = (region (nd nodes c)).high (vert o (nd nodes id).d) + ct := by
      unfold start; rw [hlc']
    by_cases h1 : (nodes.getD id default).r > (nodes.getD c default).r + ct
    · rw [if_pos h1]
      have h1' : (nd nodes id).r > (nd nodes c).r + ct := h1
      have hv : vert o (nd nodes id).d = true := by
        cases hv : vert o (nd nodes id).d with
        | true => rfl
        | false =>
          exfalso
          have e : (nd nodes c).r = (nd nodes id).r := by
            have := hch.high'; rw [hv] at this; exact this
          omega
      rw [hv] at hst
      refine .inr ⟨_, rfl, rfl, rfl, rfl, rfl, hne, rfl, rfl, ?_, ?_⟩
      · rw [hv, hst]; rfl
      · rw [hv, hst]; exact h1'
    · rw [if_neg h1]
      by_cases h2 : (nodes.getD id default).t > (nodes.getD c default).t + ct
      · rw [if_pos h2]
        have h2' : (nd nodes id).t > (nd nodes c).t + ct := h2
        have hv : vert o (nd nodes id).d = false := by
          cases hv : vert o (nd nodes id).d with
          | false => rfl
          | true =>
            exfalso
            have e : (nd nodes c).t = (nd nodes id).t := by
              have := hch.high'; rw [hv] at this; exact this
            omega
        rw [hv] at hst
        refine .inr ⟨_, rfl, rfl, rfl, rfl, rfl, hne, rfl, rfl, ?_, ?_⟩
        · rw [hv, hst]; rfl
        · rw [hv, hst]; exact h2'
      · rw [if_neg h2]
        refine .inl ⟨rfl, fun c' hc' => ?_⟩
        rw [hlc'] at hc'
        cases hc'
        exact ⟨not_lt.mp h1, not_lt.mp h2⟩

/-- Closing an open node finishes it. -/
theorem Cutting.closeNode {id : Nat} (hct : 0 ≤ ct) (ht : Tree inst bt b nodes)
    (h : Cutting ct o (base bt b) nodes D) (hid : base bt b ≤ id) (hl : id < nodes.length)
    (ho : Open nodes id) (hD : D ≤ (nd nodes id).d) :
    Cutting ct o (base bt b) (closeNode ct nodes id) ((nd nodes id).d - 1) := by
  have hfin : ∀ {N : List Node}, Cutting ct o (base bt b) N (nd nodes id).d → id < N.length →
      Open N id → (nd N id).d = (nd nodes id).d → Shut ct N id →
      Cutting ct o (base bt b) N ((nd nodes id).d - 1) := by
    intro N hN hlN hoN hdN hsN
    refine ⟨hN.child, hN.mark, fun i h1 h2 h3 => ?_⟩
    by_cases hoi : Open N i
    · rcases h3 with h3 | h3
      · exact absurd hoi h3
      · by_cases hdi : (nd nodes id).d < (nd N i).d
        · exact hN.shut i h1 h2 (.inr hdi)
        · have := open_unique h2 hlN hoi hoN (by omega)
          subst this; exact hsN
    · exact hN.shut i h1 h2 (.inl hoi)
  have hopen := (ht.closeNode (ct := ct) hid hl ho).2
  have hext := closeNode_extends (ct := ct) nodes id
  have hl1 : id < (Guil.closeNode ct nodes id).length := lt_of_lt_of_le hl hext.1
  have hd1 := (hext.2 id hl).2.1
  rcases h.closeNode_cases hct ht hid hl with
    ⟨he, hs⟩ | ⟨w, he, w1, w2, w3, w4, w5, w6, w7, w8, w9⟩
  · rw [he] at hopen hl1 hd1 ⊢
    exact hfin (h.mono hD) hl1 hopen hd1 hs
  · rw [he] at hopen hl1 hd1 ⊢
    refine hfin ?_ hl1 hopen hd1 ?_
    · exact h.push ht hid hl ho hD ⟨rfl, fun _ => ⟨Same.refl _, rfl⟩⟩ (fun _ _ => rfl)
        (fun hb => (h.mark id hb hl).1 w5) w1 w2 w3 w4 w8 w9 (le_refl _)
    · intro c hc
      rw [nd_push_old hl, if_pos rfl] at hc ⊢
      dsimp only at hc ⊢
      rw [List.getLast?_append, List.getLast?_singleton, Option.some_or] at hc
      cases hc
      rw [nd_push_new, w6, w7]
      constructor <;> omega

/-- Climbing to a depth finishes every open node below that depth. -/
theorem Cutting.climb {depth : Int} (hct : 0 ≤ ct) (hdep : 1 ≤ depth) :
    ∀ (fuel : Nat) (nodes : List Node) (id : Nat) (D : Int), Tree inst bt b nodes →
    Cutting ct o (base bt b) nodes D → D ≤ (nd nodes id).d →
    id < fuel → base bt b ≤ id → id < nodes.length →
    Open nodes id → depth - 1 ≤ (nd nodes id).d →
    Cutting ct o (base bt b) (climb ct depth fuel nodes (some id)).1 (depth - 1) := by
  intro fuel
  induction fuel with
  | zero => intro nodes id D _ _ _ h; omega
  | succ fuel ih =>
    intro nodes id D h hC hD hf hid hl ho hd
    by_cases hc : (nodes.getD id default).d = depth - 1
    · have he : Guil.climb ct depth (fuel + 1) nodes (some id) = (nodes, some id) := by
        unfold Guil.climb; rw [if_pos hc]
      rw [he]
      have hc' : (nd nodes id).d = depth - 1 := hc
      exact hC.mono (by omega)
    · have he : Guil.climb ct depth (fuel + 1) nodes (some id)
          = Guil.climb ct depth fuel (Guil.closeNode ct nodes id)
              (nd (Guil.closeNode ct nodes id) id).f := by
        conv_lhs => unfold Guil.climb
        rw [if_neg hc]; rfl
      have hc' : (nd nodes id).d ≠ depth - 1 := hc
      obtain ⟨h1, h2⟩ := h.closeNode (ct := ct) hid hl ho
      have hC1 := hC.closeNode hct h hid hl ho hD
      have hext := closeNode_extends (ct := ct) nodes id
      have hl1 : id < (Guil.closeNode ct nodes id).length := lt_of_lt_of_le hl hext.1
      have hdid := (hext.2 id hl).2.1
      have hb : id ≠ base bt b := by
        intro hb
        have h0 : (nd nodes id).d = 0 := by rw [hb, h.root.2.1]; exact base_depth bt b
        omega
      obtain ⟨a, a1, _⟩ := h1.later id (by omega) hl1
      obtain ⟨f1, f2, f3, f4⟩ := h1.open_father (by omega) hl1 h2 a1
      rw [he, a1]
      exact ih _ a _ h1 hC1 (by omega) (by omega) f1 (by omega) f3 (by omega)

/-- At the end of a bin every node is finished. -/
theorem Cutting.closeUp (hct : 0 ≤ ct) : ∀ (fuel : Nat) (nodes : List Node)
    (id : Nat) (D : Int), Tree inst bt b nodes → Cutting ct o (base bt b) nodes D →
    D ≤ (nd nodes id).d → id < fuel → base bt b ≤ id → id < nodes.length →
    Open nodes id → Cutting ct o (base bt b) (closeUp ct fuel nodes (some id)) (-1) := by
  intro fuel
  induction fuel with
  | zero => intro nodes id D _ _ _ h; omega
  | succ fuel ih =>
    intro nodes id D h hC hD hf hid hl ho
    have he : Guil.closeUp ct (fuel + 1) nodes (some id)
        = Guil.closeUp ct fuel (Guil.closeNode ct nodes id)
            (nd (Guil.closeNode ct nodes id) id).f := rfl
    rw [he]
    obtain ⟨h1, h2⟩ := h.closeNode (ct := ct) hid hl ho
    have hC1 := hC.closeNode hct h hid hl ho hD
    by_cases hb : id = base bt b
    · subst hb
      rw [closeUp_top h1.top]
      have h0 : (nd nodes (base bt b)).d = 0 := by rw [h.root.2.1]; exact base_depth bt b
      rw [h0] at hC1
      exact hC1
    · have hext := closeNode_extends (ct := ct) nodes id
      have hl1 : id < (Guil.closeNode ct nodes id).length := lt_of_lt_of_le hl hext.1
      have hdid := (hext.2 id hl).2.1
      obtain ⟨a, a1, _⟩ := h1.later id (by omega) hl1
      obtain ⟨f1, f2, f3, f4⟩ := h1.open_father (by omega) hl1 h2 a1
      rw [a1]
      exact ih _ a _ h1 hC1 (by omega) (by omega) f1 (by omega) f3

end

end PackingSolver.Guil
