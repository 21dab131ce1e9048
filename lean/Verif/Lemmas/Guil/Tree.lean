import Verif.Lemmas.Guil.Nodes

/-!
# Lemmas: the tree of nodes of a bin under construction
-/

namespace PackingSolver.Guil

open Spec

/-! ### The nodes of a new bin -/

/-- Number of the bin's own node, the last one of a new bin. -/
def base (bt : BinType) (b : Nat) : Nat := (initialNodes bt b).length - 1

theorem initialNodes_cons (bt : BinType) (b : Nat) : ∃ root tail,
    initialNodes bt b = root :: tail ∧ root.f = none ∧ root.children = [] ∧ root.d = 0
      ∧ ∀ n ∈ tail, n.f = some 0 ∧ n.children = [] ∧ n.itemTypeId = -1 := by
  unfold initialNodes
  dsimp only
  by_cases h : (bt.hardLeft || bt.hardRight || bt.hardBottom || bt.hardTop) = true
  · rw [if_pos h]
    refine ⟨_, trimNodes bt ++ [childNode 0 0 bt.innerLeft bt.innerRight bt.innerBottom
      bt.innerTop], rfl, rfl, rfl, rfl, ?_⟩
    intro n hn
    have key : ∀ (c : Bool) (l r b t : Int), n ∈ (if c then [trimNode l r b t] else []) →
        n.f = some 0 ∧ n.children = [] ∧ n.itemTypeId = -1 := by
      intro c l r b t h
      cases c with
      | true =>
        rw [if_pos rfl] at h
        rw [List.mem_singleton.mp h]; exact ⟨rfl, rfl, rfl⟩
      | false =>
        rw [if_neg (by simp)] at h
        cases h
    simp only [trimNodes, List.append_assoc, List.mem_append] at hn
    rcases hn with h | h | h | h | h | h | h | h | h
    · exact key _ _ _ _ _ h
    · exact key _ _ _ _ _ h
    · exact key _ _ _ _ _ h
    · exact key _ _ _ _ _ h
    · exact key _ _ _ _ _ h
    · exact key _ _ _ _ _ h
    · exact key _ _ _ _ _ h
    · exact key _ _ _ _ _ h
    · rw [List.mem_singleton.mp h]; exact ⟨rfl, rfl, rfl⟩
  · rw [if_neg h]
    exact ⟨_, [], rfl, rfl, rfl, rfl, by simp⟩

theorem initialNodes_length (bt : BinType) (b : Nat) :
    base bt b < (initialNodes bt b).length := by
  obtain ⟨root, tail, h, _⟩ := initialNodes_cons bt b
  unfold base
  rw [h]; simp

/-- The bin's own node is the bin without its hard trims. -/
theorem initialNodes_base {bt : BinType} (hs : Sized bt) (b : Nat) :
    region (nd (initialNodes bt b) (base bt b)) = usable bt
      ∧ (nd (initialNodes bt b) (base bt b)).d = 0 := by
  have hlast : ∀ (l : List Node) (a : Node), nd (l ++ [a]) ((l ++ [a]).length - 1) = a := by
    intro l a
    unfold nd
    rw [List.getD_eq_getElem?_getD]
    simp
  unfold base initialNodes
  dsimp only
  have hl := hs.left
  have hr := hs.right
  have hb := hs.bottom
  have ht := hs.top
  by_cases h : (bt.hardLeft || bt.hardRight || bt.hardBottom || bt.hardTop) = true
  · rw [if_pos h, hlast]
    refine ⟨?_, rfl⟩
    have e1 : bt.innerLeft = (usable bt).l := by
      unfold BinType.innerLeft usable BinType.hardLeft
      by_cases h1 : bt.leftTrimType = .hard <;> by_cases h2 : bt.leftTrim > 0 <;>
        simp [h1, h2]
      omega
    have e2 : bt.innerRight = (usable bt).r := by
      unfold BinType.innerRight usable BinType.hardRight
      by_cases h1 : bt.rightTrimType = .hard <;> by_cases h2 : bt.rightTrim > 0 <;>
        simp [h1, h2]
      omega
    have e3 : bt.innerBottom = (usable bt).b := by
      unfold BinType.innerBottom usable BinType.hardBottom
      by_cases h1 : bt.bottomTrimType = .hard <;> by_cases h2 : bt.bottomTrim > 0 <;>
        simp [h1, h2]
      omega
    have e4 : bt.innerTop = (usable bt).t := by
      unfold BinType.innerTop usable BinType.hardTop
      by_cases h1 : bt.topTrimType = .hard <;> by_cases h2 : bt.topTrim > 0 <;>
        simp [h1, h2]
      omega
    unfold region childNode
    rw [e1, e2, e3, e4]
  · rw [if_neg h]
    refine ⟨?_, rfl⟩
    have hh : bt.hardLeft = false ∧ bt.hardRight = false ∧ bt.hardBottom = false
        ∧ bt.hardTop = false := by
      revert h
      cases bt.hardLeft <;> cases bt.hardRight <;> cases bt.hardBottom <;> cases bt.hardTop <;>
        simp
    obtain ⟨h1, h2, h3, h4⟩ := hh
    unfold BinType.hardLeft at h1
    unfold BinType.hardRight at h2
    unfold BinType.hardBottom at h3
    unfold BinType.hardTop at h4
    rw [decide_eq_false_iff_not] at h1 h2 h3 h4
    have e1 : (usable bt).l = 0 := by
      unfold usable
      by_cases hh : bt.leftTrimType = .hard
      · dsimp only; rw [if_pos hh]
        have : ¬ bt.leftTrim > 0 := fun hp => h1 ⟨hh, hp⟩
        omega
      · dsimp only; rw [if_neg hh]
    have e2 : (usable bt).r = bt.w := by
      unfold usable
      by_cases hh : bt.rightTrimType = .hard
      · dsimp only; rw [if_pos hh]
        have : ¬ bt.rightTrim > 0 := fun hp => h2 ⟨hh, hp⟩
        omega
      · dsimp only; rw [if_neg hh]
    have e3 : (usable bt).b = 0 := by
      unfold usable
      by_cases hh : bt.bottomTrimType = .hard
      · dsimp only; rw [if_pos hh]
        have : ¬ bt.bottomTrim > 0 := fun hp => h3 ⟨hh, hp⟩
        omega
      · dsimp only; rw [if_neg hh]
    have e4 : (usable bt).t = bt.h := by
      unfold usable
      by_cases hh : bt.topTrimType = .hard
      · dsimp only; rw [if_pos hh]
        have : ¬ bt.topTrim > 0 := fun hp => h4 ⟨hh, hp⟩
        omega
      · dsimp only; rw [if_neg hh]
    have : usable bt = ⟨(usable bt).l, (usable bt).r, (usable bt).b, (usable bt).t⟩ := rfl
    rw [this, e1, e2, e3, e4]
    rfl

theorem usable_nonempty {bt : BinType} (hs : Sized bt) : (usable bt).Nonempty := by
  have hl := hs.left
  have hr := hs.right
  have hb := hs.bottom
  have ht := hs.top
  have hw := hs.width
  have hh := hs.height
  unfold Region.Nonempty usable
  dsimp only
  constructor
  · by_cases h1 : bt.leftTrimType = .hard <;> by_cases h2 : bt.rightTrimType = .hard <;>
      simp only [h1, h2, if_true, if_false] <;> omega
  · by_cases h1 : bt.bottomTrimType = .hard <;> by_cases h2 : bt.topTrimType = .hard <;>
      simp only [h1, h2, if_true, if_false] <;> omega

/-! ### The tree -/

/-- What an item node must satisfy. -/
def ItemOk (inst : Instance) (n : Node) : Prop :=
  n.f.isSome → 0 ≤ n.itemTypeId → n.children = []
    ∧ ∃ k < inst.numberOfItemTypes, n.itemTypeId = (k : Int) ∧ dimensionsOk (inst.itemType k) n

/-- The node has no later node that is not below it. -/
def Open (nodes : List Node) (id : Nat) : Prop :=
  ∀ j, id < j → j < nodes.length → (nd nodes id).d < (nd nodes j).d

/-- The nodes of a bin under construction. -/
structure Tree (inst : Instance) (bt : BinType) (b : Nat) (nodes : List Node) : Prop where
  base_lt : base bt b < nodes.length
  fathers : Fathers nodes
  later : ∀ i, base bt b < i → i < nodes.length → ∃ a, (nd nodes i).f = some a ∧ base bt b ≤ a
    ∧ a < i ∧ (nd nodes i).d = (nd nodes a).d + 1 ∧ ∀ j, a < j → j < i → (nd nodes a).d < (nd nodes j).d
  kids : ∀ i, base bt b ≤ i → i < nodes.length →
    (nd nodes i).children = (List.range nodes.length).filter fun j => (nd nodes j).f == some i
  items : ∀ i < nodes.length, ItemOk inst (nd nodes i)
  frame : ∀ i < base bt b, nd nodes i = nd (initialNodes bt b) i
  root : Same (nd nodes (base bt b)) (nd (initialNodes bt b) (base bt b))

section
variable {inst : Instance} {bt : BinType} {b : Nat} {nodes nodes' : List Node}

theorem nd_mem {i : Nat} (h : i < nodes.length) : nd nodes i ∈ nodes := by
  unfold nd
  rw [List.getD_eq_getElem?_getD, List.getElem?_eq_getElem h]
  exact List.getElem_mem h

theorem tree_initial : Tree inst bt b (initialNodes bt b) := by
  obtain ⟨root, tail, h, h1, h2, h3, h4⟩ := initialNodes_cons bt b
  have hlen := initialNodes_length bt b
  have hzero : nd (initialNodes bt b) 0 = root := by rw [h]; rfl
  have htail : ∀ i, 0 < i → i < (initialNodes bt b).length → nd (initialNodes bt b) i ∈ tail := by
    intro i hi hl
    obtain ⟨j, rfl⟩ : ∃ j, i = j + 1 := ⟨i - 1, by omega⟩
    rw [h] at hl ⊢
    have : nd (root :: tail) (j + 1) = nd tail j := by
      unfold nd; rw [List.getD_cons_succ]
    rw [this]
    exact nd_mem (by simpa using hl)
  have hf : Fathers (initialNodes bt b) := by
    intro i hi f hf
    by_cases h0 : i = 0
    · subst h0; rw [hzero, h1] at hf; cases hf
    · rw [(h4 _ (htail i (by omega) hi)).1] at hf
      cases hf; omega
  refine ⟨hlen, hf, ?_, ?_, ?_, fun i _ => rfl, .refl _⟩
  · intro i hi hl
    unfold base at hi
    omega
  · intro i hi hl
    have hi' : i = base bt b := by unfold base at hi ⊢; omega
    have hc : (nd (initialNodes bt b) i).children = [] := by
      by_cases h0 : i = 0
      · rw [h0, hzero, h2]
      · exact (h4 _ (htail i (by omega) hl)).2.1
    rw [hc, eq_comm, List.filter_eq_nil_iff]
    intro j hj
    rw [List.mem_range] at hj
    intro hcon
    have hcon := eq_of_beq hcon
    by_cases h0 : j = 0
    · rw [h0, hzero, h1] at hcon; cases hcon
    · rw [(h4 _ (htail j (by omega) hj)).1] at hcon
      have : i = 0 := by cases hcon; rfl
      have hb0 : base bt b = 0 := by rw [← hi']; exact this
      unfold base at hb0
      omega
  · intro i hi hs hp
    by_cases h0 : i = 0
    · rw [h0, hzero, h1] at hs; cases hs
    · rw [(h4 _ (htail i (by omega) hi)).2.2] at hp
      omega

/-- Pushing a child below an open node. -/
theorem Tree.push {id : Nat} {w : Node} (h : Tree inst bt b nodes) (hid : base bt b ≤ id)
    (hl : id < nodes.length) (ho : Open nodes id)
    (hi : (nd nodes id).f.isSome → (nd nodes id).itemTypeId < 0)
    (w1 : w.f = some id) (w2 : w.d = (nd nodes id).d + 1) (w3 : w.children = [])
    (w4 : w.itemTypeId < 0) : Tree inst bt b (pushChild nodes id w) := by
  have hnew : nd (pushChild nodes id w) nodes.length = w := nd_push_new
  have hsame : ∀ i < nodes.length, Same (nd (pushChild nodes id w) i) (nd nodes i) :=
    fun i hi => extends_push.2 i hi
  refine ⟨by rw [length_push]; have := h.base_lt; omega, fathers_push h.fathers hl w1,
    ?_, ?_, ?_, ?_, ?_⟩
  · intro i hi' hl'
    rw [length_push] at hl'
    by_cases hin : i < nodes.length
    · obtain ⟨a, a1, a2, a3, a4, a5⟩ := h.later i hi' hin
      refine ⟨a, by rw [(hsame i hin).1]; exact a1, a2, a3, ?_, ?_⟩
      · rw [(hsame i hin).2.1, (hsame a (by omega)).2.1]; exact a4
      · intro j j1 j2
        rw [(hsame j (by omega)).2.1, (hsame a (by omega)).2.1]; exact a5 j j1 j2
    · have : i = nodes.length := by omega
      subst this
      refine ⟨id, by rw [hnew]; exact w1, hid, hl, by rw [hnew, (hsame id hl).2.1]; exact w2, ?_⟩
      intro j j1 j2
      rw [(hsame j j2).2.1, (hsame id hl).2.1]; exact ho j j1 j2
  · intro i hi' hl'
    rw [length_push] at hl'
    rw [length_push, List.range_succ, List.filter_append]
    have hold : (List.range nodes.length).filter
          (fun j => (nd (pushChild nodes id w) j).f == some i)
        = (List.range nodes.length).filter fun j => (nd nodes j).f == some i := by
      apply List.filter_congr
      intro j hj
      rw [(hsame j (List.mem_range.mp hj)).1]
    rw [hold]
    by_cases hin : i < nodes.length
    · rw [← h.kids i hi' hin, nd_push_old hin]
      by_cases heq : i = id
      · subst heq
        rw [if_pos rfl]
        simp [hnew, w1]
      · rw [if_neg heq]
        have : ¬ (some id == some i) = true := by
          intro hh; exact heq (Option.some.inj (eq_of_beq hh)).symm
        simp [hnew, w1]
        exact fun hh => heq hh.symm
    · have : i = nodes.length := by omega
      subst this
      rw [hnew, w3]
      have hne : ¬ (some id == some nodes.length) = true := by
        intro hh
        have := Option.some.inj (eq_of_beq hh)
        omega
      rw [eq_comm, List.append_eq_nil_iff]
      constructor
      · rw [List.filter_eq_nil_iff]
        intro j hj hcon
        have hj := List.mem_range.mp hj
        have := h.fathers j hj _ (eq_of_beq hcon)
        omega
      · rw [List.filter_eq_nil_iff]
        intro j hj
        rw [List.mem_singleton] at hj
        subst hj
        rw [hnew, w1]; exact hne
  · intro i hi'
    rw [length_push] at hi'
    by_cases hin : i < nodes.length
    · rw [nd_push_old hin]
      by_cases heq : i = id
      · subst heq
        rw [if_pos rfl]
        intro h1 h2
        have := hi h1
        dsimp only at h2
        omega
      · rw [if_neg heq]; exact h.items i hin
    · have : i = nodes.length := by omega
      subst this
      rw [hnew]
      intro _ h2
      omega
  · intro i hi'
    rw [nd_push_old (by have := h.base_lt; omega), if_neg (by omega)]
    exact h.frame i hi'
  · exact (hsame _ h.base_lt).trans h.root

/-- The two lists differ by the items of their nodes only. -/
def Alike (nodes nodes' : List Node) : Prop :=
  nodes'.length = nodes.length ∧ ∀ i, Same (nd nodes' i) (nd nodes i)
    ∧ (nd nodes' i).children = (nd nodes i).children

theorem Alike.extends (h : Alike nodes nodes') : Extends nodes nodes' :=
  ⟨h.1 ▸ le_refl _, fun i _ => (h.2 i).1⟩

theorem Alike.fathers (h : Alike nodes nodes') (hf : Fathers nodes) : Fathers nodes' := by
  intro i hi f hff
  rw [h.1] at hi
  rw [(h.2 i).1.1] at hff
  exact hf i hi f hff

theorem Tree.alike (h : Tree inst bt b nodes) (ha : Alike nodes nodes')
    (hi : ∀ i < nodes'.length, ItemOk inst (nd nodes' i))
    (hf : ∀ i < base bt b, nd nodes' i = nd nodes i) : Tree inst bt b nodes' := by
  obtain ⟨hl, hs⟩ := ha
  refine ⟨hl ▸ h.base_lt, Alike.fathers ⟨hl, hs⟩ h.fathers, ?_, ?_, hi,
    fun i hi => (hf i hi).trans (h.frame i hi), (hs _).1.trans h.root⟩
  · intro i hi' hl'
    rw [hl] at hl'
    obtain ⟨a, a1, a2, a3, a4, a5⟩ := h.later i hi' hl'
    refine ⟨a, by rw [(hs i).1.1]; exact a1, a2, a3, ?_, ?_⟩
    · rw [(hs i).1.2.1, (hs a).1.2.1]; exact a4
    · intro j j1 j2
      rw [(hs j).1.2.1, (hs a).1.2.1]; exact a5 j j1 j2
  · intro i hi' hl'
    rw [hl] at hl' ⊢
    rw [(hs i).2, h.kids i hi' hl']
    apply List.filter_congr
    intro j _
    rw [(hs j).1.1]

/-- The nodes with the item of node `i` replaced. -/
theorem nd_modify {f : Node → Node} (i j : Nat) :
    nd (nodes.modify i f) j = if j = i ∧ i < nodes.length then f (nd nodes j) else nd nodes j := by
  unfold nd
  rw [List.getD_eq_getElem?_getD, List.getElem?_modify, List.getD_eq_getElem?_getD]
  by_cases hj : j < nodes.length
  · rw [List.getElem?_eq_getElem hj]
    by_cases h : i = j
    · subst h; simp [hj]
    · have : ¬ j = i := fun hh => h hh.symm
      simp [h, this]
  · rw [List.getElem?_eq_none (by omega)]
    have : ¬ (j = i ∧ i < nodes.length) := by omega
    simp [this]

theorem alike_modify (i : Nat) (v : Int) :
    Alike nodes (nodes.modify i fun n => { n with itemTypeId := v }) := by
  refine ⟨List.length_modify .., fun j => ?_⟩
  rw [nd_modify]
  by_cases h : j = i ∧ i < nodes.length
  · rw [if_pos h]; exact ⟨⟨rfl, rfl, rfl⟩, rfl⟩
  · rw [if_neg h]; exact ⟨.refl _, rfl⟩

theorem Tree.setItem {i : Nat} {v : Int} (h : Tree inst bt b nodes) (hb : base bt b ≤ i)
    (hv : ItemOk inst { nd nodes i with itemTypeId := v }) :
    Tree inst bt b (nodes.modify i fun n => { n with itemTypeId := v }) := by
  refine h.alike (alike_modify i v) ?_ ?_
  · intro j hj
    rw [List.length_modify] at hj
    rw [nd_modify]
    by_cases hc : j = i ∧ i < nodes.length
    · rw [if_pos hc, hc.1]; exact hv
    · rw [if_neg hc]; exact h.items j hj
  · intro j hj
    rw [nd_modify, if_neg (by omega)]

/-! ### Climbing -/

theorem Tree.closeNode {ct : Int} {id : Nat} (h : Tree inst bt b nodes) (hid : base bt b ≤ id)
    (hl : id < nodes.length) (ho : Open nodes id) :
    Tree inst bt b (closeNode ct nodes id) ∧ Open (closeNode ct nodes id) id := by
  rcases closeNode_cases (ct := ct) nodes id with h' | ⟨w, h', w1, w2, w3, w4, w5⟩
  · rw [h']; exact ⟨h, ho⟩
  · rw [h']
    refine ⟨h.push hid hl ho ?_ w1 w2 w3 (by omega), ?_⟩
    · intro hs
      by_contra hc
      push Not at hc
      exact w5 (h.items id hl hs hc).1
    · intro j j1 j2
      rw [length_push] at j2
      rw [(extends_push.2 id hl).2.1]
      by_cases hj : j < nodes.length
      · rw [(extends_push.2 j hj).2.1]; exact ho j j1 hj
      · have : j = nodes.length := by omega
        subst this
        rw [nd_push_new, w2]
        omega

/-- The father of an open node is open. -/
theorem Tree.open_father {id a : Nat} (h : Tree inst bt b nodes) (hid : base bt b < id)
    (hl : id < nodes.length) (ho : Open nodes id) (ha : (nd nodes id).f = some a) :
    base bt b ≤ a ∧ a < id ∧ Open nodes a ∧ (nd nodes id).d = (nd nodes a).d + 1 := by
  obtain ⟨a', a1, a2, a3, a4, a5⟩ := h.later id hid hl
  rw [a1] at ha
  cases ha
  refine ⟨a2, a3, ?_, a4⟩
  intro j j1 j2
  by_cases hj : j < id
  · exact a5 j j1 hj
  · by_cases hj' : j = id
    · subst hj'; omega
    · have := ho j (by omega) j2; omega

theorem base_depth (bt : BinType) (b : Nat) : (nd (initialNodes bt b) (base bt b)).d = 0 := by
  unfold base initialNodes
  dsimp only
  by_cases h : (bt.hardLeft || bt.hardRight || bt.hardBottom || bt.hardTop) = true
  · rw [if_pos h]
    unfold nd
    rw [List.getD_eq_getElem?_getD]
    simp [childNode]
  · rw [if_neg h]; rfl

theorem Tree.depth_base (h : Tree inst bt b nodes) : (nd nodes (base bt b)).d = 0 := by
  rw [h.root.2.1]; exact base_depth bt b

theorem Tree.top (h : Tree inst bt b nodes) : Top (base bt b) nodes := by
  obtain ⟨root, tail, e, h1, h2, h3, h4⟩ := initialNodes_cons bt b
  have hl := initialNodes_length bt b
  have hzero : nd (initialNodes bt b) 0 = root := by rw [e]; rfl
  by_cases h0 : base bt b = 0
  · left
    rw [h.root.1, h0, hzero, h1]
  · right
    refine ⟨?_, by omega, ?_, ?_⟩
    · rw [h.root.1]
      obtain ⟨j, hj⟩ : ∃ j, base bt b = j + 1 := ⟨base bt b - 1, by omega⟩
      have hm : nd (initialNodes bt b) (base bt b) ∈ tail := by
        rw [e] at hl ⊢
        rw [hj] at hl ⊢
        have : nd (root :: tail) (j + 1) = nd tail j := by unfold nd; rw [List.getD_cons_succ]
        rw [this]
        exact nd_mem (by simpa using hl)
      exact (h4 _ hm).1
    · rw [h.frame 0 (by omega), hzero, h1]
    · rw [h.frame 0 (by omega), hzero, h2]

/-- Climbing keeps the tree and finds an open node of the required depth. -/
theorem Tree.climb {ct depth : Int} (hdep : 1 ≤ depth) : ∀ (fuel : Nat) (nodes : List Node)
    (id : Nat), Tree inst bt b nodes → id < fuel → base bt b ≤ id → id < nodes.length →
    Open nodes id → depth - 1 ≤ (nd nodes id).d →
    Tree inst bt b (climb ct depth fuel nodes (some id)).1
    ∧ ∃ id', (Guil.climb ct depth fuel nodes (some id)).2 = some id' ∧ base bt b ≤ id' ∧ id' ≤ id
      ∧ Open (Guil.climb ct depth fuel nodes (some id)).1 id'
      ∧ (nd (Guil.climb ct depth fuel nodes (some id)).1 id').d = depth - 1
      ∧ ∀ j ≤ id', nd (Guil.climb ct depth fuel nodes (some id)).1 j = nd nodes j := by
  intro fuel
  induction fuel with
  | zero => intro nodes id _ h; omega
  | succ fuel ih =>
    intro nodes id h hf hid hl ho hd
    by_cases hc : (nodes.getD id default).d = depth - 1
    · have he : Guil.climb ct depth (fuel + 1) nodes (some id) = (nodes, some id) := by
        unfold Guil.climb; rw [if_pos hc]
      rw [he]
      exact ⟨h, id, rfl, hid, le_refl _, ho, hc, fun _ _ => rfl⟩
    · have he : Guil.climb ct depth (fuel + 1) nodes (some id)
          = Guil.climb ct depth fuel (Guil.closeNode ct nodes id)
              (nd (Guil.closeNode ct nodes id) id).f := by
        conv_lhs => unfold Guil.climb
        rw [if_neg hc]; rfl
      rw [he]
      obtain ⟨h1, h2⟩ := h.closeNode (ct := ct) hid hl ho
      have hext := closeNode_extends (ct := ct) nodes id
      have hl1 : id < (Guil.closeNode ct nodes id).length := lt_of_lt_of_le hl hext.1
      have hc' : (nd nodes id).d ≠ depth - 1 := hc
      have hne : id ≠ base bt b := by
        intro hh
        rw [hh, h.depth_base] at hd hc'
        omega
      obtain ⟨a, a1, _⟩ := h1.later id (by omega) hl1
      obtain ⟨f1, f2, f3, f4⟩ := h1.open_father (by omega) hl1 h2 a1
      rw [a1]
      have hdd : depth - 1 ≤ (nd (Guil.closeNode ct nodes id) a).d := by
        rw [(hext.2 id hl).2.1] at f4
        omega
      obtain ⟨t, id', i1, i2, i3, i4, i5, i6⟩ :=
        ih (Guil.closeNode ct nodes id) a h1 (by omega) f1 (by omega) f3 hdd
      refine ⟨t, id', i1, i2, by omega, i4, i5, fun j hj => ?_⟩
      rw [i6 j hj]
      rcases closeNode_cases (ct := ct) nodes id with h' | ⟨w, h', _⟩
      · rw [h']
      · rw [h', nd_push_old (by omega), if_neg (by omega)]

theorem Tree.closeUp {ct : Int} : ∀ (fuel : Nat) (nodes : List Node)
    (id : Nat), Tree inst bt b nodes → id < fuel → base bt b ≤ id → id < nodes.length →
    Open nodes id → Tree inst bt b (closeUp ct fuel nodes (some id)) := by
  intro fuel
  induction fuel with
  | zero => intro nodes id _ h; omega
  | succ fuel ih =>
    intro nodes id h hf hid hl ho
    have he : Guil.closeUp ct (fuel + 1) nodes (some id)
        = Guil.closeUp ct fuel (Guil.closeNode ct nodes id)
            (nd (Guil.closeNode ct nodes id) id).f := rfl
    rw [he]
    obtain ⟨h1, h2⟩ := h.closeNode (ct := ct) hid hl ho
    by_cases hb : id = base bt b
    · subst hb
      rw [closeUp_top h1.top]
      exact h1
    · have hext := closeNode_extends (ct := ct) nodes id
      have hl1 : id < (Guil.closeNode ct nodes id).length := lt_of_lt_of_le hl hext.1
      obtain ⟨a, a1, _⟩ := h1.later id (by omega) hl1
      obtain ⟨f1, f2, f3, f4⟩ := h1.open_father (by omega) hl1 h2 a1
      rw [a1]
      exact ih _ a h1 (by omega) f1 (by omega) f3

theorem open_last (nodes : List Node) : Open nodes (nodes.length - 1) := by
  intro j j1 j2; omega

theorem Tree.finish {ct : Int} (h : Tree inst bt b nodes) :
    Tree inst bt b (finishNodes ct nodes) := by
  have := h.base_lt
  unfold finishNodes
  rw [if_neg (by omega)]
  exact Tree.closeUp _ _ _ h (by omega) (by omega) (by omega) (open_last nodes)

end

end PackingSolver.Guil
