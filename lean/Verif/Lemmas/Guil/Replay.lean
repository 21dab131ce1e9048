import Verif.Lemmas.Guil.CuttingRun
import Verif.Model.Guil.Flipper
import Verif.Spec.GuillotineFlip

/-!
# Lemmas: replaying the nodes of a bin with the axes exchanged
-/

namespace PackingSolver.Guil

open Spec
open Guil.Spec

/-! ### Regions -/

theorem low_mirror (v : Bool) (R : Region) : (mirror R).low v = R.low (!v) := by cases v <;> rfl

theorem high_mirror (v : Bool) (R : Region) : (mirror R).high v = R.high (!v) := by cases v <;> rfl

theorem vert_horizontal {d : Int} (hd : 0 ≤ d) : vert .horizontal d = !vert .vertical d := by
  unfold vert isVerticalAt
  have : (d + 1).tmod 2 = 0 ∨ (d + 1).tmod 2 = 1 := by
    rw [Int.tmod_eq_emod_of_nonneg (by omega)]; omega
  rcases this with h | h <;> simp [h]

theorem region_ext {R S : Region} (v : Bool) (h1 : R.low v = S.low v) (h2 : R.high v = S.high v)
    (h3 : R.low (!v) = S.low (!v)) (h4 : R.high (!v) = S.high (!v)) : R = S := by
  obtain ⟨l, r, b, t⟩ := R
  obtain ⟨l', r', b', t'⟩ := S
  cases v
  · have e1 : b = b' := h1
    have e2 : t = t' := h2
    have e3 : l = l' := h3
    have e4 : r = r' := h4
    subst e1 e2 e3 e4; rfl
  · have e1 : l = l' := h1
    have e2 : r = r' := h2
    have e3 : b = b' := h3
    have e4 : t = t' := h4
    subst e1 e2 e3 e4; rfl

/-! ### Finished nodes -/

section
variable {inst : Instance} {bt : BinType} {b : Nat} {nodes : List Node} {ct : Int}

theorem closeNode_shut {id : Nat} (h : Shut ct nodes id) : closeNode ct nodes id = nodes := by
  unfold closeNode
  dsimp only
  cases hc : (nodes.getD id default).children.getLast? with
  | none => rfl
  | some c =>
    obtain ⟨h1, h2⟩ := h c hc
    have h1' : ¬ (nodes.getD id default).r > (nodes.getD c default).r + ct := not_lt.mpr h1
    have h2' : ¬ (nodes.getD id default).t > (nodes.getD c default).t + ct := not_lt.mpr h2
    dsimp only
    rw [if_neg h1', if_neg h2']

theorem climb_shut {depth : Int} (hdep : 1 ≤ depth) (h : Tree inst bt b nodes)
    (hs : ∀ x, base bt b ≤ x → x < nodes.length → Open nodes x → depth - 1 < (nd nodes x).d →
      Shut ct nodes x) : ∀ (fuel : Nat) (id : Nat), id < fuel → base bt b ≤ id →
    id < nodes.length → Open nodes id → depth - 1 ≤ (nd nodes id).d →
    (climb ct depth fuel nodes (some id)).1 = nodes := by
  intro fuel
  induction fuel with
  | zero => intro id h; omega
  | succ fuel ih =>
    intro id hf hid hl ho hd
    unfold climb
    by_cases hc : (nodes.getD id default).d = depth - 1
    · rw [if_pos hc]
    · rw [if_neg hc]
      have hc' : (nd nodes id).d ≠ depth - 1 := hc
      dsimp only
      rw [closeNode_shut (hs id hid hl ho (by omega))]
      have hb : id ≠ base bt b := by
        intro hb
        have := h.depth_base
        rw [← hb] at this
        omega
      obtain ⟨a, a1, _⟩ := h.later id (by omega) hl
      obtain ⟨f1, f2, f3, f4⟩ := h.open_father (by omega) hl ho a1
      have a1' : (nodes.getD id default).f = some a := a1
      rw [a1']
      exact ih a (by omega) f1 (by omega) f3 (by omega)

theorem closeUp_shut (h : Tree inst bt b nodes)
    (hs : ∀ x, base bt b ≤ x → x < nodes.length → Open nodes x → Shut ct nodes x) :
    ∀ (fuel : Nat) (id : Nat), id < fuel → base bt b ≤ id →
    id < nodes.length → Open nodes id → closeUp ct fuel nodes (some id) = nodes := by
  intro fuel
  induction fuel with
  | zero => intro id h; omega
  | succ fuel ih =>
    intro id hf hid hl ho
    unfold closeUp
    dsimp only
    rw [closeNode_shut (hs id hid hl ho)]
    by_cases hb : id = base bt b
    · subst hb; exact closeUp_top h.top
    · obtain ⟨a, a1, _⟩ := h.later id (by omega) hl
      obtain ⟨f1, f2, f3, f4⟩ := h.open_father (by omega) hl ho a1
      have a1' : (nodes.getD id default).f = some a := a1
      rw [a1']
      exact ih a (by omega) f1 (by omega) f3

theorem finishNodes_shut (h : Tree inst bt b nodes)
    (hs : ∀ x, base bt b ≤ x → x < nodes.length → Open nodes x → Shut ct nodes x) :
    finishNodes ct nodes = nodes := by
  have := h.base_lt
  unfold finishNodes
  rw [if_neg (by omega)]
  exact closeUp_shut h hs _ _ (by omega) (by omega) (by omega) (open_last nodes)

theorem Tree.depth_pos (h : Tree inst bt b nodes) : ∀ i, base bt b ≤ i → i < nodes.length →
    0 ≤ (nd nodes i).d ∧ (base bt b < i → 1 ≤ (nd nodes i).d) := by
  intro i
  induction i using Nat.strong_induction_on with
  | _ i ih =>
    intro h1 h2
    by_cases hb : i = base bt b
    · rw [hb, h.depth_base]; exact ⟨le_refl _, fun h => by omega⟩
    · obtain ⟨a, a1, a2, a3, a4, -⟩ := h.later i (by omega) h2
      have := (ih a a3 a2 (by omega)).1
      exact ⟨by omega, fun _ => by omega⟩

end

/-! ### Children, counted from the bin's own node -/

/-- The children of node `bs + p` among the `q` nodes from `bs` on, counted from `bs`. -/
def kidsRel (nodes : List Node) (bs p q : Nat) : List Nat :=
  (List.range q).filter fun j => (nd nodes (bs + j)).f == some (bs + p)

theorem kidsUpTo_shift {nodes : List Node} (hF : Fathers nodes) {bs p q : Nat}
    (hl : bs + q ≤ nodes.length) :
    kidsUpTo nodes (bs + p) (bs + q) = (kidsRel nodes bs p q).map (bs + ·) := by
  unfold kidsUpTo kidsRel
  rw [List.range_add, List.filter_append, List.filter_map]
  have h0 : (List.range bs).filter (fun j => (nd nodes j).f == some (bs + p)) = [] := by
    rw [List.filter_eq_nil_iff]
    intro j hj hcon
    have hj := List.mem_range.mp hj
    have := hF j (by omega) _ (eq_of_beq hcon)
    omega
  rw [h0, List.nil_append]
  rfl

theorem kidsUpTo_stop {nodes : List Node} {x m n : Nat} (hmn : m ≤ n)
    (h : ∀ c, m ≤ c → c < n → (nd nodes c).f ≠ some x) :
    kidsUpTo nodes x n = kidsUpTo nodes x m := by
  obtain ⟨k, rfl⟩ := Nat.exists_eq_add_of_le hmn
  unfold kidsUpTo
  rw [List.range_add, List.filter_append]
  have h0 : ((List.range k).map (m + ·)).filter (fun j => (nd nodes j).f == some x) = [] := by
    rw [List.filter_eq_nil_iff]
    intro j hj hcon
    obtain ⟨i, hi, rfl⟩ := List.mem_map.mp hj
    have hi := List.mem_range.mp hi
    exact h (m + i) (by omega) (by omega) (eq_of_beq hcon)
  rw [h0, List.append_nil]

/-! ### The replay -/

section
variable {f a : Instance} {t t' : BinType} {b : Nat} {N M : List Node} {k : Nat} {ct : Int}
  {g : Nat → Int}

/-- The item type of a replayed node without children. -/
def replayedItem (n : Node) : Int := if 0 ≤ n.itemTypeId then n.itemTypeId else -1

/-- `M` is the bin after the replay of the first `k` nodes of `N`; nodes without children hold
`g`. -/
structure Rep (a : Instance) (t t' : BinType) (b : Nat) (N : List Node) (g : Nat → Int)
    (M : List Node) (k : Nat) : Prop where
  len : M.length = base t' b + 1 + k
  tree : Tree a t' b M
  same : ∀ j, j ≤ k → (nd M (base t' b + j)).d = (nd N (base t b + j)).d
    ∧ region (nd M (base t' b + j)) = mirror (region (nd N (base t b + j)))
  father : ∀ j p, 1 ≤ j → j ≤ k → (nd N (base t b + j)).f = some (base t b + p) →
    (nd M (base t' b + j)).f = some (base t' b + p)
  item : ∀ j, 1 ≤ j → j ≤ k →
    ((nd M (base t' b + j)).children ≠ [] → (nd M (base t' b + j)).itemTypeId = -2)
    ∧ ((nd M (base t' b + j)).children = [] →
      (nd M (base t' b + j)).itemTypeId = g j)
  root : (nd M (base t' b)).f.isSome = true → (nd M (base t' b)).itemTypeId < 0

theorem Rep.kids (h : Rep a t t' b N g M k) (hN : Tree f t b N) (hk : base t b + k < N.length)
    {p q : Nat} (hq : q ≤ k + 1) :
    kidsRel M (base t' b) p q = kidsRel N (base t b) p q := by
  unfold kidsRel
  apply List.filter_congr
  intro j hj
  have hj := List.mem_range.mp hj
  have hlen := h.len
  by_cases h0 : j = 0
  · subst h0
    have e1 : ¬ ((nd M (base t' b + 0)).f == some (base t' b + p)) = true := by
      intro hc
      have := h.tree.fathers _ (by omega) _ (eq_of_beq hc)
      omega
    have e2 : ¬ ((nd N (base t b + 0)).f == some (base t b + p)) = true := by
      intro hc
      have := hN.fathers _ (by omega) _ (eq_of_beq hc)
      omega
    rw [Bool.eq_false_iff.mpr e1, Bool.eq_false_iff.mpr e2]
  · obtain ⟨x, x1, x2, x3, -⟩ := hN.later (base t b + j) (by omega) (by omega)
    obtain ⟨y, rfl⟩ := Nat.exists_eq_add_of_le x2
    rw [x1, h.father j y (by omega) (by omega) x1]
    by_cases hy : y = p
    · subst hy; simp
    · have e1 : (some (base t' b + y) == some (base t' b + p)) = false := by
        rw [Bool.eq_false_iff]; intro hc
        have := Option.some.inj (eq_of_beq hc); omega
      have e2 : (some (base t b + y) == some (base t b + p)) = false := by
        rw [Bool.eq_false_iff]; intro hc
        have := Option.some.inj (eq_of_beq hc); omega
      rw [e1, e2]

/-- The last children correspond. -/
theorem Rep.last (h : Rep a t t' b N g M k) (hN : Tree f t b N) (hk : base t b + k < N.length)
    {p q : Nat} (hq : q ≤ k + 1) :
    (∀ j, (kidsUpTo N (base t b + p) (base t b + q)).getLast? = some (base t b + j) →
      (kidsUpTo M (base t' b + p) (base t' b + q)).getLast? = some (base t' b + j))
    ∧ ((kidsUpTo N (base t b + p) (base t b + q)).getLast? = none →
      (kidsUpTo M (base t' b + p) (base t' b + q)).getLast? = none)
    ∧ (∀ c, (kidsUpTo N (base t b + p) (base t b + q)).getLast? = some c →
      ∃ j < q, c = base t b + j) := by
  have hlen := h.len
  rw [kidsUpTo_shift hN.fathers (by omega), kidsUpTo_shift h.tree.fathers (by omega),
    h.kids hN hk hq, List.getLast?_map, List.getLast?_map]
  refine ⟨?_, ?_, ?_⟩
  · intro j hj
    cases hg : (kidsRel N (base t b) p q).getLast? with
    | none => rw [hg] at hj; cases hj
    | some c =>
      rw [hg] at hj
      have : base t b + c = base t b + j := Option.some.inj hj
      rw [show c = j by omega]; rfl
  · intro hn
    cases hg : (kidsRel N (base t b) p q).getLast? with
    | none => rfl
    | some c => rw [hg] at hn; cases hn
  · intro c hc
    cases hg : (kidsRel N (base t b) p q).getLast? with
    | none => rw [hg] at hc; cases hc
    | some j =>
      rw [hg] at hc
      have hm := List.mem_of_getLast? hg
      unfold kidsRel at hm
      exact ⟨j, List.mem_range.mp (List.mem_of_mem_filter hm), (Option.some.inj hc).symm⟩

theorem Rep.startAt (h : Rep a t t' b N g M k) (hN : Tree f t b N) (hk : base t b + k < N.length)
    {v : Bool} {p q : Nat} (hp : p ≤ k) (hq : q ≤ k + 1) :
    startAt ct (!v) M (base t' b + p) (base t' b + q)
      = startAt ct v N (base t b + p) (base t b + q) := by
  obtain ⟨l1, l2, l3⟩ := h.last hN hk (p := p) hq
  unfold Guil.startAt
  cases hg : (kidsUpTo N (base t b + p) (base t b + q)).getLast? with
  | none =>
    rw [l2 hg]
    dsimp only
    rw [(h.same p hp).2, low_mirror, Bool.not_not]
  | some c =>
    obtain ⟨j, hj, rfl⟩ := l3 c hg
    rw [l1 j hg]
    dsimp only
    rw [(h.same j (by omega)).2, high_mirror, Bool.not_not]

/-- A replayed node is finished if its origin is and has no further child. -/
theorem Rep.shut (h : Rep a t t' b N g M k) (hN : Tree f t b N) (hk : base t b + k < N.length)
    {p : Nat} (hp : p ≤ k)
    (hlater : ∀ c, base t b + (k + 1) ≤ c → c < N.length → (nd N c).f ≠ some (base t b + p))
    (hs : Shut ct N (base t b + p)) : Shut ct M (base t' b + p) := by
  have hlen := h.len
  intro c hc
  obtain ⟨l1, l2, l3⟩ := h.last hN hk (p := p) (le_refl (k + 1))
  rw [h.tree.children_eq (by omega) (by omega), hlen, Nat.add_assoc, Nat.add_comm 1 k] at hc
  have hchild := hN.children_eq (i := base t b + p) (by omega) (by omega)
  rw [kidsUpTo_stop (m := base t b + (k + 1)) (by omega) hlater] at hchild
  cases hg : (kidsUpTo N (base t b + p) (base t b + (k + 1))).getLast? with
  | none => rw [l2 hg] at hc; cases hc
  | some d =>
    obtain ⟨j, hj, rfl⟩ := l3 d hg
    rw [l1 j hg] at hc
    cases hc
    rw [← hchild] at hg
    obtain ⟨s1, s2⟩ := hs _ hg
    have e1 := (h.same p hp).2
    have e2 := (h.same j (by omega)).2
    rw [show (nd M (base t' b + p)).r = (nd N (base t b + p)).t from congrArg Region.r e1,
      show (nd M (base t' b + p)).t = (nd N (base t b + p)).r from congrArg Region.t e1,
      show (nd M (base t' b + j)).r = (nd N (base t b + j)).t from congrArg Region.r e2,
      show (nd M (base t' b + j)).t = (nd N (base t b + j)).r from congrArg Region.t e2]
    exact ⟨s2, s1⟩

/-- Replay of the cut of one node. -/
theorem Rep.addNode (h : Rep a t t' b N g M k) (hN : Tree f t b N)
    (hC : Cutting ct .vertical (base t b) N (-1)) (hk : base t b + (k + 1) < N.length)
    (hg : ∀ j, 1 ≤ j → j ≤ k → (nd N (base t b + j)).itemTypeId < 0 → g j < 0) :
    ∃ M', addNodeTo ct .horizontal M (nd N (base t b + (k + 1))).d
        ((region (nd N (base t b + (k + 1)))).high
          (vert .vertical ((nd N (base t b + (k + 1))).d - 1))) = (M', none)
      ∧ Rep a t t' b N (fun j => if j = k + 1 then -1 else g j) M' (k + 1) := by
  have hlen := h.len
  obtain ⟨x, x1, x2, x3, x4, x5⟩ := hN.later (base t b + (k + 1)) (by omega) hk
  obtain ⟨p, rfl⟩ := Nat.exists_eq_add_of_le x2
  have hpk : p ≤ k := by omega
  have hch := hC.child _ _ (by omega) hk x1
  have hdp := (hN.depth_pos (base t b + p) (by omega) (by omega)).1
  obtain ⟨sd, sr⟩ := h.same p hpk
  obtain ⟨v, hv⟩ : ∃ v, v = vert .vertical (nd N (base t b + p)).d := ⟨_, rfl⟩
  rw [← hv] at hch
  have hv2 : vert .vertical ((nd N (base t b + (k + 1))).d - 1) = v := by
    rw [hv, x4]; congr 1; omega
  have hvm : vert .horizontal (nd M (base t' b + p)).d = !v := by
    rw [sd, vert_horizontal hdp, hv]
  rw [hv2]
  obtain ⟨n, hn⟩ : ∃ n, n = nd N (base t b + (k + 1)) := ⟨_, rfl⟩
  obtain ⟨c1, c2, c3, c4, c5⟩ := hch
  rw [← hn] at x1 x4 c1 c2 c3 c4 c5 ⊢
  -- the father is open in `M`
  have hopen : Open M (base t' b + p) := by
    intro j j1 j2
    obtain ⟨q, rfl⟩ := Nat.exists_eq_add_of_le (show base t' b ≤ j by omega)
    rw [sd, (h.same q (by omega)).1]
    exact x5 _ (by omega) (by omega)
  have hst : start ct .horizontal M (base t' b + p) = (region n).low v := by
    rw [← h.tree.startAt_length (by omega) (by omega), hvm, hlen, Nat.add_assoc, Nat.add_comm 1 k,
      h.startAt hN (by omega) hpk (le_refl _), c1]
  -- nothing is left to close
  have hshut : ∀ x, base t' b ≤ x → x < M.length → Open M x → n.d - 1 < (nd M x).d →
      Shut ct M x := by
    intro x hx hx2 _ hxd
    obtain ⟨q, rfl⟩ := Nat.exists_eq_add_of_le hx
    rw [(h.same q (by omega)).1] at hxd
    refine h.shut hN (by omega) (by omega) ?_ (hC.shut _ (by omega) (by omega) (.inr ?_))
    · intro c y1 y2 y3
      obtain ⟨z, z1, z2, z3, z4, z5⟩ := hN.later c (by omega) y2
      rw [y3] at z1
      cases z1
      by_cases hcc : c = base t b + (k + 1)
      · rw [hcc, ← hn] at z4; omega
      · have := z5 (base t b + (k + 1)) (by omega) (by omega)
        rw [← hn] at this
        omega
    · have := (hN.depth_pos (base t b + q) (by omega) (by omega)).1
      omega
  have hlastd : (nd M (M.length - 1)).d = (nd N (base t b + k)).d := by
    rw [show M.length - 1 = base t' b + k by omega]; exact (h.same k (le_refl _)).1
  have hdk : (nd N (base t b + p)).d ≤ (nd N (base t b + k)).d := by
    by_cases hpk' : p = k
    · rw [hpk']
    · exact le_of_lt (x5 _ (by omega) (by omega))
  rcases addNodeTo_spec (ct := ct) (o := .horizontal) (pos := (region n).high v) h.tree
      (show 1 ≤ n.d by omega) with
    ⟨hd2, _⟩ | ⟨hd2, id, e1, i1, i2, i3, nodes1, n1, n2, ht, hop, hext, hnd, hst1, he⟩
  · omega
  · rw [lastAt_eq (by omega) hopen (by omega)] at e1
    cases e1
    rw [climb_shut (by omega) h.tree hshut _ _ (by omega) (by omega) (by omega) (open_last M)
      (by omega)] at n1
    subst n1
    have hitem : ¬ ((nd nodes1 (base t' b + p)).f.isSome = true
        ∧ 0 ≤ (nd nodes1 (base t' b + p)).itemTypeId) := by
      rintro ⟨q1, q2⟩
      by_cases hp0 : p = 0
      · subst hp0
        have := h.root q1
        rw [Nat.add_zero] at q2
        omega
      · obtain ⟨r1, r2⟩ := h.item p (by omega) hpk
        by_cases hc : (nd nodes1 (base t' b + p)).children = []
        · have hne : (nd N (base t b + p)).children ≠ [] := by
            rw [hN.children_eq (by omega) (by omega)]
            intro hh
            have : base t b + (k + 1) ∈ kidsUpTo N (base t b + p) N.length := by
              unfold kidsUpTo
              rw [List.mem_filter, List.mem_range]
              refine ⟨hk, ?_⟩
              rw [← hn, x1]
              exact beq_self_eq_true _
            rw [hh] at this
            cases this
          have hm := (hC.mark _ (by omega) (by omega)).1 hne
          have := hg p (by omega) hpk (by omega)
          rw [r2 hc] at q2
          omega
        · rw [r1 hc] at q2; omega
    rw [if_neg hitem, if_neg (by
      rw [hst, hvm, sr, high_mirror, Bool.not_not]
      push Not
      exact ⟨c2, c3⟩)] at he
    refine ⟨_, he, ?_⟩
    obtain ⟨nodes2, hn2⟩ : ∃ nodes2, nodes2 = (if (nd nodes1 (base t' b + p)).f.isSome
      then nodes1.modify (base t' b + p) (fun p => { p with itemTypeId := -2 }) else nodes1) :=
      ⟨_, rfl⟩
    rw [← hn2]
    obtain ⟨k1, k2, k3, k4, k5⟩ := childAt_spec (ct := ct) (o := .horizontal) (nodes := nodes1)
      (depth := n.d) (pos := (region n).high v) (id := base t' b + p)
    obtain ⟨w, hw⟩ : ∃ w, w = childAt ct .horizontal nodes1 (base t' b + p) n.d
      ((region n).high v) := ⟨_, rfl⟩
    rw [← hw] at k1 k2 k3 k4 k5 ⊢
    have hal : Alike nodes1 nodes2 := by
      rw [hn2]; split
      · exact alike_modify _ (-2)
      · exact ⟨rfl, fun _ => ⟨Same.refl _, rfl⟩⟩
    have hrest : ∀ i, i ≠ base t' b + p → nd nodes2 i = nd nodes1 i := by
      intro i hi
      rw [hn2]; split
      · rw [nd_modify, if_neg (fun hh => hi hh.1)]
      · rfl
    have hneg : (nd nodes2 (base t' b + p)).f.isSome = true →
        (nd nodes2 (base t' b + p)).itemTypeId = -2 := by
      intro hf
      rw [(hal.2 _).1.1] at hf
      rw [hn2, if_pos hf, nd_modify, if_pos ⟨rfl, i2⟩]
    have ht2 : Tree a t' b nodes2 := by
      rw [hn2]; split
      · refine ht.setItem i1 ?_
        intro _ h0
        dsimp only at h0
        omega
      · exact ht
    have hlen2 : nodes2.length = base t' b + 1 + k := by rw [hal.1]; exact hlen
    have hop2 : Open nodes2 (base t' b + p) := by
      intro j j1 j2
      rw [hal.1] at j2
      rw [(hal.2 _).1.2.1, (hal.2 _).1.2.1]
      exact hop j j1 j2
    have hnew : nd (pushChild nodes2 (base t' b + p) w) (base t' b + (k + 1)) = w := by
      rw [show base t' b + (k + 1) = nodes2.length by omega]; exact nd_push_new
    have hold : ∀ j, j ≤ k → nd (pushChild nodes2 (base t' b + p) w) (base t' b + j)
        = if base t' b + j = base t' b + p
          then { nd nodes2 (base t' b + j) with
            children := (nd nodes2 (base t' b + j)).children ++ [nodes2.length] }
          else nd nodes2 (base t' b + j) := fun j hj => nd_push_old (by omega)
    have hsame : ∀ j, j ≤ k → Same (nd (pushChild nodes2 (base t' b + p) w) (base t' b + j))
        (nd nodes1 (base t' b + j)) := by
      intro j hj
      have := (hal.2 (base t' b + j)).1
      rw [hold j hj]
      split <;> exact this
    refine ⟨?_, ?_, ?_, ?_, ?_, ?_⟩
    · rw [length_push, hlen2]; omega
    · refine ht2.push i1 (by omega) hop2 (fun hf => by rw [hneg hf]; omega) k1 ?_ k3 (by omega)
      rw [(hal.2 _).1.2.1, k2, sd, x4]
    · intro j hj
      by_cases hjk : j ≤ k
      · rw [(hsame j hjk).2.1, (hsame j hjk).2.2]; exact h.same j hjk
      · have hjj : j = k + 1 := by omega
        subst hjj
        rw [hnew, ← hn]
        refine ⟨k2, ?_⟩
        rw [k5, hvm]
        obtain ⟨s1, s2, s3, s4⟩ := strip_child (v := !v) (R := region (nd nodes1 (base t' b + p)))
          (x := start ct .horizontal nodes1 (base t' b + p)) (y := (region n).high v)
        refine region_ext (!v) ?_ ?_ ?_ ?_
        · rw [s1, hst, low_mirror, Bool.not_not]
        · rw [s2, high_mirror, Bool.not_not]
        · rw [s3, sr, low_mirror, low_mirror, Bool.not_not, c4]
        · rw [s4, sr, high_mirror, high_mirror, Bool.not_not, c5]
    · intro j q hj1 hj hf
      by_cases hjk : j ≤ k
      · rw [(hsame j hjk).1]; exact h.father j q hj1 hjk hf
      · have hjj : j = k + 1 := by omega
        subst hjj
        rw [← hn, x1] at hf
        have : base t b + p = base t b + q := Option.some.inj hf
        rw [hnew, k1, show p = q by omega]
    · intro j hj1 hj
      by_cases hjk : j ≤ k
      · rw [if_neg (by omega), hold j hjk]
        by_cases hjp : base t' b + j = base t' b + p
        · rw [if_pos hjp]
          refine ⟨fun _ => ?_, fun hc => by simp at hc⟩
          dsimp only
          rw [hjp]
          apply hneg
          obtain ⟨z, z1, -⟩ := ht2.later (base t' b + p) (by omega) (by omega)
          rw [z1]; rfl
        · rw [if_neg hjp, hrest _ hjp]
          exact h.item j hj1 hjk
      · have hjj : j = k + 1 := by omega
        subst hjj
        rw [hnew, if_pos rfl]
        exact ⟨fun hc => absurd k3 hc, fun _ => k4⟩
    · intro hf
      have h0 := hold 0 (by omega)
      rw [Nat.add_zero] at h0
      rw [h0] at hf ⊢
      by_cases hp0 : base t' b = base t' b + p
      · rw [if_pos hp0] at hf ⊢
        dsimp only at hf ⊢
        rw [hp0] at hf ⊢
        rw [hneg hf]; omega
      · rw [if_neg hp0, hrest _ hp0] at hf ⊢
        exact h.root hf

/-- Replay of one node. -/
theorem Rep.step (hct : a.parameters.cutThickness = ct) (h : Rep a t t' b N g M k)
    (hN : Tree f t b N) (hC : Cutting ct .vertical (base t b) N (-1))
    (hni : f.numberOfItemTypes = a.numberOfItemTypes)
    (hit : ∀ i, i < a.numberOfItemTypes → FlippedItem (a.itemType i) (f.itemType i))
    (hk : base t b + (k + 1) < N.length)
    (hg : ∀ j, g j = replayedItem (nd N (base t b + j))) :
    ∃ M', nodesRun a .horizontal M (Flipper.nodeOps (nd N (base t b + (k + 1)))) = some M'
      ∧ Rep a t t' b N g M' (k + 1) := by
  obtain ⟨M1, e1, r1⟩ := h.addNode hN hC hk (fun j _ _ hj => by
    rw [hg]; unfold replayedItem; rw [if_neg (by omega)]; omega)
  obtain ⟨n, hn⟩ : ∃ n, n = nd N (base t b + (k + 1)) := ⟨_, rfl⟩
  have hd := (hN.depth_pos _ (by omega) hk).2 (by omega)
  rw [← hn] at e1 hd ⊢
  have hop : Flipper.nodeOps n = Op.addNode n.d ((region n).high (vert .vertical (n.d - 1)))
      :: (if n.itemTypeId ≥ 0 then [.setItem n.itemTypeId.toNat] else []) := by
    unfold Flipper.nodeOps
    rw [if_neg (by omega)]
    congr 1
    have : vert .vertical (n.d - 1) = decide (n.d.tmod 2 = 1) := by
      unfold vert isVerticalAt; rw [Int.sub_add_cancel]; simp
    rw [this]
    by_cases hm : n.d.tmod 2 = 1
    · rw [if_pos hm, decide_eq_true hm]; rfl
    · rw [if_neg hm, decide_eq_false hm]; rfl
  rw [hop, nodesRun_addNode, if_neg (by omega), hct, e1]
  dsimp only
  have hlen := r1.len
  by_cases hi : n.itemTypeId ≥ 0
  · rw [if_pos hi, nodesRun_setItem]
    obtain ⟨x, x1, -⟩ := hN.later (base t b + (k + 1)) (by omega) hk
    obtain ⟨-, q, q1, q2, q3⟩ := hN.items _ hk (by rw [x1]; rfl) (by rw [← hn]; exact hi)
    rw [← hn] at q2 q3
    have hq : n.itemTypeId.toNat = q := by omega
    have hlast : M1.length - 1 = base t' b + (k + 1) := by omega
    have hreg := (r1.same (k + 1) (le_refl _)).2
    rw [← hn] at hreg
    have hdim : dimensionsOk (a.itemType q) (nd M1 (base t' b + (k + 1))) = true := by
      have hl : (nd M1 (base t' b + (k + 1))).l = n.b := congrArg Region.l hreg
      have hr : (nd M1 (base t' b + (k + 1))).r = n.t := congrArg Region.r hreg
      have hb : (nd M1 (base t' b + (k + 1))).b = n.l := congrArg Region.b hreg
      have ht : (nd M1 (base t' b + (k + 1))).t = n.r := congrArg Region.t hreg
      have hfi := hit q (by omega)
      unfold dimensionsOk at q3 ⊢
      rw [hl, hr, hb, ht]
      rw [hfi.w, hfi.h] at q3
      simp only [Bool.or_eq_true, Bool.and_eq_true, decide_eq_true_eq] at q3 ⊢
      tauto
    rw [hq, hlast, if_pos ⟨by omega, by intro hh; rw [hh] at hlen; simp at hlen, hdim⟩]
    refine ⟨_, rfl, ?_⟩
    have hal := alike_modify (nodes := M1) (base t' b + (k + 1)) (q : Int)
    have hnd : ∀ j, nd (M1.modify (base t' b + (k + 1)) fun n => { n with itemTypeId := (q : Int) })
        (base t' b + j) = if j = k + 1 then { nd M1 (base t' b + j) with itemTypeId := (q : Int) }
          else nd M1 (base t' b + j) := by
      intro j
      rw [nd_modify]
      by_cases hj : j = k + 1
      · rw [if_pos hj, if_pos ⟨by omega, by omega⟩]
      · rw [if_neg hj, if_neg (fun hh => hj (by omega))]
    have hleaf := r1.tree.leaf_last
    rw [hlast] at hleaf
    refine ⟨?_, ?_, ?_, ?_, ?_, ?_⟩
    · rw [List.length_modify]; exact hlen
    · refine r1.tree.setItem (by omega) ?_
      intro _ _
      exact ⟨hleaf, q, by omega, rfl, hdim⟩
    · intro j hj
      rw [(hal.2 _).1.2.1, (hal.2 _).1.2.2]; exact r1.same j hj
    · intro j p hj1 hj hf
      rw [(hal.2 _).1.1]; exact r1.father j p hj1 hj hf
    · intro j hj1 hj
      rw [hnd j]
      by_cases hjk : j = k + 1
      · rw [if_pos hjk, hjk]
        refine ⟨fun hc => absurd hleaf hc, fun _ => ?_⟩
        dsimp only
        rw [hg, ← hn]
        unfold replayedItem
        rw [if_pos hi, q2]
      · rw [if_neg hjk]
        have := r1.item j hj1 hj
        rw [if_neg hjk] at this
        exact this
    · intro hf
      rw [nd_modify, if_neg (by omega)] at hf ⊢
      exact r1.root hf
  · rw [if_neg hi]
    refine ⟨M1, rfl, r1.len, r1.tree, r1.same, r1.father, ?_, r1.root⟩
    intro j hj1 hj
    have := r1.item j hj1 hj
    by_cases hjk : j = k + 1
    · rw [if_pos hjk] at this
      refine ⟨this.1, fun hc => ?_⟩
      rw [this.2 hc, hg, hjk, ← hn]
      unfold replayedItem
      rw [if_neg hi]
    · rw [if_neg hjk] at this; exact this

end

/-! ### The nodes of a new bin -/

theorem initial_depth (bt : BinType) (b : Nat) : ∀ n ∈ initialNodes bt b, n.d ≤ 0 := by
  intro n hn
  unfold initialNodes at hn
  dsimp only at hn
  have key : ∀ (c : Bool) (l r b t : Int), n ∈ (if c then [trimNode l r b t] else []) →
      n.d ≤ 0 := by
    intro c l r b t h
    cases c
    · cases h
    · rw [List.mem_singleton.mp h]; show (-1 : Int) ≤ 0; omega
  by_cases h : (bt.hardLeft || bt.hardRight || bt.hardBottom || bt.hardTop) = true
  · rw [if_pos h] at hn
    rcases List.mem_append.mp hn with hn | hn
    · rcases List.mem_append.mp hn with hn | hn
      · rw [List.mem_singleton.mp hn]
      · unfold trimNodes at hn
        simp only [List.mem_append] at hn
        rcases hn with ((((((hn | hn) | hn) | hn) | hn) | hn) | hn) | hn <;> exact key _ _ _ _ _ hn
    · rw [List.mem_singleton.mp hn]; exact le_refl (0 : Int)
  · rw [if_neg h] at hn
    rw [List.mem_singleton.mp hn]

/-- The bin's own node. -/
theorem own_node_initial (bt : BinType) (b : Nat) :
    region (nd (initialNodes bt b) (base bt b))
        = ⟨bt.innerLeft, bt.innerRight, bt.innerBottom, bt.innerTop⟩
      ∧ (nd (initialNodes bt b) (base bt b)).f
        = (if bt.hardLeft || bt.hardRight || bt.hardBottom || bt.hardTop then some 0 else none)
      ∧ ((nd (initialNodes bt b) (base bt b)).f.isSome = true →
        (nd (initialNodes bt b) (base bt b)).itemTypeId = -1) := by
  have hlast : ∀ (l : List Node) (a : Node), nd (l ++ [a]) ((l ++ [a]).length - 1) = a := by
    intro l a
    unfold nd
    rw [List.getD_eq_getElem?_getD]
    simp
  unfold base initialNodes
  dsimp only
  by_cases h : (bt.hardLeft || bt.hardRight || bt.hardBottom || bt.hardTop) = true
  · rw [if_pos h, if_pos h, hlast]
    exact ⟨rfl, rfl, fun _ => rfl⟩
  · rw [if_neg h, if_neg h]
    simp only [Bool.or_eq_true, not_or, Bool.not_eq_true] at h
    obtain ⟨⟨⟨h1, h2⟩, h3⟩, h4⟩ := h
    refine ⟨?_, rfl, fun hh => by cases hh⟩
    unfold BinType.innerLeft BinType.innerRight BinType.innerBottom BinType.innerTop
    rw [h1, h2, h3, h4]
    rfl

section
variable {t t' : BinType}

theorem flipped_inner (h : FlippedBin t' t) :
    t.innerLeft = t'.innerBottom ∧ t.innerRight = t'.innerTop ∧ t.innerBottom = t'.innerLeft
    ∧ t.innerTop = t'.innerRight ∧ t.hardLeft = t'.hardBottom ∧ t.hardRight = t'.hardTop
    ∧ t.hardBottom = t'.hardLeft ∧ t.hardTop = t'.hardRight := by
  unfold BinType.innerLeft BinType.innerRight BinType.innerBottom BinType.innerTop
    BinType.hardLeft BinType.hardRight BinType.hardBottom BinType.hardTop
  rw [h.left.1, h.left.2, h.right.1, h.right.2, h.bottom.1, h.bottom.2, h.top.1, h.top.2, h.w, h.h]
  exact ⟨rfl, rfl, rfl, rfl, rfl, rfl, rfl, rfl⟩

end

section
variable {f a : Instance} {t t' : BinType} {b : Nat} {N : List Node} {ct : Int}

theorem Rep.initial (hN : Tree f t b N) (hf : FlippedBin t' t) {g : Nat → Int} :
    Rep a t t' b N g (initialNodes t' b) 0 := by
  have hl := initialNodes_length t' b
  obtain ⟨b1, b2, b3⟩ := own_node_initial t' b
  refine ⟨by unfold base at hl ⊢; omega, tree_initial, ?_, fun j p h1 h2 => by omega,
    fun j h1 h2 => by omega, fun hf => by rw [b3 hf]; omega⟩
  intro j hj
  have hj0 : j = 0 := by omega
  subst hj0
  obtain ⟨i1, i2, i3, i4, -⟩ := flipped_inner hf
  rw [Nat.add_zero, Nat.add_zero, hN.depth_base, base_depth, hN.root.2.2, b1,
    (own_node_initial t b).1]
  refine ⟨rfl, ?_⟩
  unfold mirror
  dsimp only
  rw [i1, i2, i3, i4]

/-- The calls for the nodes of a bin replay them. -/
theorem replay (hct : a.parameters.cutThickness = ct) (hN : Tree f t b N)
    (hC : Cutting ct .vertical (base t b) N (-1)) (hf : FlippedBin t' t)
    (hni : f.numberOfItemTypes = a.numberOfItemTypes)
    (hit : ∀ i, i < a.numberOfItemTypes → FlippedItem (a.itemType i) (f.itemType i)) :
    ∃ M, nodesRun a .horizontal (initialNodes t' b) (N.flatMap Flipper.nodeOps) = some M
      ∧ Rep a t t' b N (fun j => replayedItem (nd N (base t b + j))) M
          (N.length - (base t b + 1)) := by
  have hbl := hN.base_lt
  have hpre : ∀ k, base t b + k < N.length →
      ∃ M, nodesRun a .horizontal (initialNodes t' b)
          ((N.take (base t b + 1 + k)).flatMap Flipper.nodeOps) = some M
        ∧ Rep a t t' b N (fun j => replayedItem (nd N (base t b + j))) M k := by
    intro k
    induction k with
    | zero =>
      intro _
      refine ⟨_, ?_, Rep.initial hN hf⟩
      have : (N.take (base t b + 1 + 0)).flatMap Flipper.nodeOps = [] := by
        rw [List.flatMap_eq_nil_iff]
        intro n hn
        obtain ⟨i, hi, e⟩ := List.getElem_of_mem hn
        rw [List.length_take] at hi
        have hni : nd N i = n := by
          unfold nd
          rw [List.getD_eq_getElem?_getD, List.getElem?_eq_getElem (by omega), ← e,
            List.getElem_take]
          rfl
        have hd : n.d ≤ 0 := by
          rw [← hni]
          by_cases hib : i = base t b
          · rw [hib, hN.depth_base]
          · rw [hN.frame i (by omega)]
            exact initial_depth t b _ (nd_mem (by have := initialNodes_length t b; omega))
        unfold Flipper.nodeOps
        rw [if_pos hd]
      rw [this]
      rfl
    | succ k ih =>
      intro hk
      obtain ⟨M, e, r⟩ := ih (by omega)
      obtain ⟨M', e', r'⟩ := r.step hct hN hC hni hit hk (fun _ => rfl)
      refine ⟨M', ?_, r'⟩
      have hsplit : N.take (base t b + 1 + (k + 1))
          = N.take (base t b + 1 + k) ++ [nd N (base t b + (k + 1))] := by
        rw [show base t b + 1 + (k + 1) = (base t b + 1 + k) + 1 by omega, List.take_add_one,
          List.getElem?_eq_getElem (by omega)]
        unfold nd
        rw [List.getD_eq_getElem?_getD, List.getElem?_eq_getElem (by omega)]
        simp only [Option.toList_some, Option.getD_some]
        congr 3
        omega
      rw [hsplit, List.flatMap_append, nodesRun_append, e]
      simpa using e'
  obtain ⟨M, e, r⟩ := hpre (N.length - (base t b + 1)) (by omega)
  refine ⟨M, ?_, r⟩
  rw [List.take_of_length_le (by omega)] at e
  exact e

/-- After the replay nothing is left to close. -/
theorem Rep.finished {M : List Node} {g : Nat → Int} (hN : Tree f t b N)
    (hC : Cutting ct .vertical (base t b) N (-1))
    (h : Rep a t t' b N g M (N.length - (base t b + 1))) : finishNodes ct M = M := by
  have hbl := hN.base_lt
  have hlen := h.len
  refine finishNodes_shut h.tree fun x hx hx2 _ => ?_
  obtain ⟨q, rfl⟩ := Nat.exists_eq_add_of_le hx
  refine h.shut hN (by omega) (by omega) (fun c h1 h2 => by omega)
    (hC.shut _ (by omega) (by omega) (.inr ?_))
  have := (hN.depth_pos (base t b + q) (by omega) (by omega)).1
  omega

end

end PackingSolver.Guil
