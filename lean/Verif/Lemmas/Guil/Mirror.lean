import Verif.Lemmas.Guil.Unflip

/-!
# Lemmas: what two bins with exchanged axes have in common
-/

namespace PackingSolver.Guil

open Spec
open Guil.Spec

section
variable {f a : Instance} {t t' : BinType} {b : Nat} {N M : List Node}

theorem drop_eq_map (nodes : List Node) (k : Nat) :
    nodes.drop k = (List.range (nodes.length - k)).map fun j => nd nodes (k + j) := by
  apply List.ext_getElem
  · rw [List.length_drop, List.length_map, List.length_range]
  · intro i h1 h2
    rw [List.length_drop] at h1
    rw [List.getElem_drop, List.getElem_map, List.getElem_range]
    unfold nd
    rw [List.getD_eq_getElem?_getD, List.getElem?_eq_getElem (by omega)]
    rfl

theorem take_eq_map (nodes : List Node) (k j : Nat) (h : k + j ≤ nodes.length) :
    nodes.take (k + j) = nodes.take k ++ (List.range j).map fun i => nd nodes (k + i) := by
  rw [List.take_add, drop_eq_map, ← List.map_take, List.take_range, Nat.min_eq_left (by omega)]

/-- The nodes after the bin's own are those of depth at least 1. -/
theorem Tree.filter_depth {inst : Instance} {bt : BinType} {nodes : List Node}
    (h : Tree inst bt b nodes) :
    nodes.filter (fun n => decide (1 ≤ n.d)) = nodes.drop (base bt b + 1) := by
  have hbl := h.base_lt
  conv_lhs => rw [← List.take_append_drop (base bt b + 1) nodes]
  rw [List.filter_append]
  have h1 : (nodes.take (base bt b + 1)).filter (fun n => decide (1 ≤ n.d)) = [] := by
    rw [List.filter_eq_nil_iff]
    intro n hn
    obtain ⟨i, hi, e⟩ := List.getElem_of_mem hn
    rw [List.length_take] at hi
    rw [List.getElem_take] at e
    have hnd : nd nodes i = n := by
      unfold nd
      rw [List.getD_eq_getElem?_getD, List.getElem?_eq_getElem (by omega), e]; rfl
    have := (h.depth_iff (i := i) (by omega)).not.mpr (by omega)
    rw [hnd] at this
    simpa using this
  have h2 : (nodes.drop (base bt b + 1)).filter (fun n => decide (1 ≤ n.d))
      = nodes.drop (base bt b + 1) := by
    rw [List.filter_eq_self, drop_eq_map]
    intro n hn
    obtain ⟨j, hj, rfl⟩ := List.mem_map.mp hn
    have hj := List.mem_range.mp hj
    exact decide_eq_true ((h.depth_iff (by omega)).mpr (by omega))
  rw [h1, h2, List.nil_append]

/-- What the corresponding nodes have in common, they have in common in the same order. -/
theorem Twin.map_filter (h : Twin f a t t' b N M) {γ : Type} {g g' : Node → γ}
    (hg : ∀ j, 1 ≤ j → base t b + j < N.length →
      g' (nd M (base t' b + j)) = g (nd N (base t b + j))) :
    (M.filter fun n => decide (1 ≤ n.d)).map g' = (N.filter fun n => decide (1 ≤ n.d)).map g := by
  have hlen := h.len
  rw [h.tree.filter_depth, h.tree'.filter_depth, drop_eq_map, drop_eq_map, List.map_map,
    List.map_map, show M.length - (base t' b + 1) = N.length - (base t b + 1) by omega]
  apply List.map_congr_left
  intro j hj
  have hj := List.mem_range.mp hj
  have := hg (j + 1) (by omega) (by omega)
  dsimp only [Function.comp]
  rw [show base t' b + 1 + j = base t' b + (j + 1) by omega,
    show base t b + 1 + j = base t b + (j + 1) by omega]
  exact this

theorem countP_filter_depth {l : List Node} {P : Node → Bool}
    (hP : ∀ n ∈ l, P n = true → 1 ≤ n.d) :
    l.countP P = ((l.filter fun n => decide (1 ≤ n.d)).map P).countP id := by
  rw [List.countP_map, List.countP_filter]
  apply List.countP_congr
  intro n hn
  constructor
  · intro h; simp [h, hP n hn h]
  · intro h
    rw [Bool.and_eq_true] at h
    exact h.1

theorem Twin.countP (h : Twin f a t t' b N M) {P P' : Node → Bool}
    (hP : ∀ n ∈ N, P n = true → 1 ≤ n.d) (hP' : ∀ n ∈ M, P' n = true → 1 ≤ n.d)
    (hg : ∀ j, 1 ≤ j → base t b + j < N.length →
      P' (nd M (base t' b + j)) = P (nd N (base t b + j))) :
    M.countP P' = N.countP P := by
  rw [countP_filter_depth hP, countP_filter_depth hP', h.map_filter hg]

/-! ### Fathers and children -/

theorem Twin.father_iff (h : Twin f a t t' b N M) {j p : Nat} (h1 : 1 ≤ j)
    (h2 : base t b + j < N.length) :
    (nd M (base t' b + j)).f = some (base t' b + p)
      ↔ (nd N (base t b + j)).f = some (base t b + p) := by
  refine ⟨fun hm => ?_, h.father j p h1 h2⟩
  obtain ⟨x, x1, x2, -⟩ := h.tree.later (base t b + j) (by omega) h2
  obtain ⟨y, rfl⟩ := Nat.exists_eq_add_of_le x2
  have := h.father j y h1 h2 x1
  rw [hm] at this
  have := Option.some.inj this
  rw [x1, show y = p by omega]

theorem Twin.kids (h : Twin f a t t' b N M) {p q : Nat} (hq : base t b + q ≤ N.length) :
    kidsRel M (base t' b) p q = kidsRel N (base t b) p q := by
  unfold kidsRel
  apply List.filter_congr
  intro j hj
  have hj := List.mem_range.mp hj
  have hlen := h.len
  by_cases h0 : j = 0
  · subst h0
    have e1 : ¬ ((nd M (base t' b + 0)).f == some (base t' b + p)) = true := by
      intro hc
      have := h.tree'.fathers _ (by omega) _ (eq_of_beq hc)
      omega
    have e2 : ¬ ((nd N (base t b + 0)).f == some (base t b + p)) = true := by
      intro hc
      have := h.tree.fathers _ (by omega) _ (eq_of_beq hc)
      omega
    rw [Bool.eq_false_iff.mpr e1, Bool.eq_false_iff.mpr e2]
  · have := h.father_iff (p := p) (j := j) (by omega) (by omega)
    rw [Bool.eq_iff_iff, beq_iff_eq, beq_iff_eq]
    exact this

theorem Twin.children (h : Twin f a t t' b N M) {p : Nat} (hp : base t b + p < N.length) :
    (nd N (base t b + p)).children
        = (kidsRel N (base t b) p (N.length - base t b)).map (base t b + ·)
    ∧ (nd M (base t' b + p)).children
        = (kidsRel N (base t b) p (N.length - base t b)).map (base t' b + ·) := by
  have hlen := h.len
  have hbl := h.tree.base_lt
  constructor
  · rw [h.tree.children_eq (by omega) hp]
    conv_lhs => rw [show N.length = base t b + (N.length - base t b) by omega]
    exact kidsUpTo_shift h.tree.fathers (by omega)
  · rw [h.tree'.children_eq (by omega) (by omega),
      show M.length = base t' b + (N.length - base t b) by omega,
      kidsUpTo_shift h.tree'.fathers (by omega), h.kids (by omega)]

theorem mirror_injective {R S : Region} (h : mirror R = mirror S) : R = S := by
  obtain ⟨l, r, b, t⟩ := R
  obtain ⟨l', r', b', t'⟩ := S
  unfold mirror at h
  injection h with h1 h2 h3 h4
  dsimp only at h1 h2 h3 h4
  subst h1 h2 h3 h4
  rfl

theorem Twin.whole (h : Twin f a t t' b N M) {j : Nat} (h1 : 1 ≤ j)
    (h2 : base t b + j < N.length) :
    Whole M (nd M (base t' b + j)) ↔ Whole N (nd N (base t b + j)) := by
  obtain ⟨x, x1, x2, x3, -⟩ := h.tree.later (base t b + j) (by omega) h2
  obtain ⟨y, rfl⟩ := Nat.exists_eq_add_of_le x2
  have hf := h.father j y h1 h2 x1
  have r1 := (h.same j h2).2
  have r2 := (h.same y (by omega)).2
  unfold Whole
  constructor
  · rintro ⟨g, hg, e⟩
    rw [hf] at hg
    cases hg
    refine ⟨_, x1, mirror_injective ?_⟩
    rw [← r1, e]; exact r2
  · rintro ⟨g, hg, e⟩
    rw [x1] at hg
    cases hg
    refine ⟨_, hf, ?_⟩
    rw [r1, e]; exact r2.symm

theorem Twin.pieces (h : Twin f a t t' b N M) {p : Nat} (hp : base t b + p < N.length) :
    (Spec.pieces M (nd M (base t' b + p))).map (·.itemTypeId)
      = (Spec.pieces N (nd N (base t b + p))).map (·.itemTypeId) := by
  obtain ⟨c1, c2⟩ := h.children hp
  unfold Spec.pieces
  rw [c1, c2, List.map_map, List.map_map]
  have key : ∀ l : List Nat, (∀ j ∈ l, 1 ≤ j ∧ base t b + j < N.length) →
      ((l.map ((fun i => M.getD i default) ∘ fun x => base t' b + x)).filter
          fun c => decide (c.itemTypeId ≠ -3)).map (·.itemTypeId)
        = ((l.map ((fun i => N.getD i default) ∘ fun x => base t b + x)).filter
          fun c => decide (c.itemTypeId ≠ -3)).map (·.itemTypeId) := by
    intro l
    induction l with
    | nil => intro _; rfl
    | cons j l ih =>
      intro hl
      obtain ⟨j1, j2⟩ := hl j List.mem_cons_self
      have hi : (M.getD (base t' b + j) default).itemTypeId
          = (N.getD (base t b + j) default).itemTypeId := h.item j j1 j2
      have ih := ih fun x hx => hl x (List.mem_cons_of_mem _ hx)
      rw [List.map_cons, List.map_cons, List.filter_cons, List.filter_cons]
      by_cases h3 : (N.getD (base t b + j) default).itemTypeId = -3
      · rw [if_neg (by simpa [Function.comp] using hi.trans h3),
          if_neg (by simpa [Function.comp] using h3)]
        exact ih
      · rw [if_pos (by simpa [Function.comp] using fun hh => h3 (hi.symm.trans hh)),
          if_pos (by simpa [Function.comp] using h3), List.map_cons, List.map_cons, ih]
        exact congrArg (· :: _) hi
  refine key _ fun j hj => ?_
  unfold kidsRel at hj
  rw [List.mem_filter, List.mem_range] at hj
  refine ⟨?_, by omega⟩
  by_contra h0
  have h0 : j = 0 := by omega
  subst h0
  have := h.tree.fathers _ (by omega) _ (eq_of_beq hj.2)
  omega

theorem pieces_counts {l m : List Node}
    (h : l.map (·.itemTypeId) = m.map (·.itemTypeId)) : l.length = m.length
      ∧ (l.filter fun c => decide (0 ≤ c.itemTypeId)).length
        = (m.filter fun c => decide (0 ≤ c.itemTypeId)).length := by
  constructor
  · have := congrArg List.length h
    rwa [List.length_map, List.length_map] at this
  · rw [← List.countP_eq_length_filter, ← List.countP_eq_length_filter]
    have e : ∀ l : List Node, l.countP (fun c => decide (0 ≤ c.itemTypeId))
        = (l.map (·.itemTypeId)).countP (fun i => decide (0 ≤ i)) := by
      intro l; rw [List.countP_map]; rfl
    rw [e l, e m, h]

theorem Twin.trims (h : Twin f a t t' b N M) {p : Nat} (hp : base t b + p < N.length) :
    (TrimsOne M (nd M (base t' b + p)) ↔ TrimsOne N (nd N (base t b + p)))
    ∧ (SplitsTwo M (nd M (base t' b + p)) ↔ SplitsTwo N (nd N (base t b + p))) := by
  obtain ⟨e1, e2⟩ := pieces_counts (h.pieces hp)
  unfold TrimsOne SplitsTwo itemPieces
  rw [e1, e2]
  exact ⟨Iff.rfl, Iff.rfl⟩

/-! ### Stages -/

theorem Twin.mem_left (h : Twin f a t t' b N M) {n : Node} (hn : n ∈ N) (hd : 1 ≤ n.d) :
    ∃ j, 1 ≤ j ∧ base t b + j < N.length ∧ n = nd N (base t b + j) := by
  obtain ⟨i, hi, e⟩ := List.getElem_of_mem hn
  have hnd : nd N i = n := by
    unfold nd
    rw [List.getD_eq_getElem?_getD, List.getElem?_eq_getElem hi, e]; rfl
  rw [← hnd] at hd
  have hib := (h.tree.depth_iff hi).mp hd
  obtain ⟨j, rfl⟩ := Nat.exists_eq_add_of_le hib.le
  exact ⟨j, by omega, hi, hnd.symm⟩

theorem Twin.mem_right (h : Twin f a t t' b N M) {j : Nat} (hj : base t b + j < N.length) :
    nd M (base t' b + j) ∈ M := by
  have := h.len
  exact nd_mem (by omega)

theorem Twin.real (h : Twin f a t t' b N M) {m : Int} (hm : IsMaxWithZero (cutDepths N) m) :
    IsMaxWithZero (cutDepths M) m := by
  obtain ⟨m0, m1, m2⟩ := hm
  have mem : ∀ {nodes : List Node} {x : Int}, x ∈ cutDepths nodes ↔
      ∃ n ∈ nodes, ¬ Whole nodes n ∧ n.d = x := by
    intro nodes x
    unfold cutDepths
    simp [List.mem_filter, and_assoc]
  refine ⟨m0, ?_, ?_⟩
  · intro x hx
    obtain ⟨n, hn, hw, rfl⟩ := mem.mp hx
    by_cases hd : 1 ≤ n.d
    · obtain ⟨j, j1, j2, rfl⟩ := h.mem hn hd
      rw [(h.same j j2).1]
      exact m1 _ (mem.mpr ⟨_, nd_mem j2, fun hh => hw ((h.whole j1 j2).mpr hh), rfl⟩)
    · omega
  · rcases m2 with m2 | m2
    · exact .inl m2
    · obtain ⟨n, hn, hw, rfl⟩ := mem.mp m2
      by_cases hd : 1 ≤ n.d
      · obtain ⟨j, j1, j2, rfl⟩ := h.mem_left hn hd
        exact .inr (mem.mpr ⟨_, h.mem_right j2, fun hh => hw ((h.whole j1 j2).mp hh),
          (h.same j j2).1⟩)
      · left; omega

theorem Twin.lastStageFree (h : Twin f a t t' b N M) {ct : CutType} {real : Int} (hr : 2 ≤ real)
    (hN : LastStageFree ct N real) : LastStageFree ct M real := by
  obtain ⟨r0, r1, r2⟩ := hN
  have memN : ∀ j, 1 ≤ j → base t b + j < N.length →
      nd M (base t' b + j) ∈ lastCut M real → nd N (base t b + j) ∈ lastCut N real := by
    intro j j1 j2 hm
    unfold lastCut at hm ⊢
    rw [List.mem_filter, Bool.and_eq_true, decide_eq_true_eq, decide_eq_true_eq] at hm ⊢
    rw [h.item j j1 j2, (h.same j j2).1] at hm
    exact ⟨nd_mem j2, hm.2⟩
  have back : ∀ m ∈ lastCut M real, ∃ j, 1 ≤ j ∧ base t b + j < N.length
      ∧ m = nd M (base t' b + j) := by
    intro m hm
    have h2 := hm
    unfold lastCut at h2
    rw [List.mem_filter, Bool.and_eq_true, decide_eq_true_eq, decide_eq_true_eq] at h2
    exact h.mem h2.1 (by omega)
  refine ⟨r0, ?_, ?_⟩
  · obtain ⟨n, hn⟩ := List.exists_mem_of_ne_nil _ r1
    unfold lastCut at hn
    rw [List.mem_filter, Bool.and_eq_true, decide_eq_true_eq, decide_eq_true_eq] at hn
    obtain ⟨j, j1, j2, rfl⟩ := h.mem_left hn.1 (by omega)
    apply List.ne_nil_of_mem (a := nd M (base t' b + j))
    unfold lastCut
    rw [List.mem_filter, Bool.and_eq_true, decide_eq_true_eq, decide_eq_true_eq,
      h.item j j1 j2, (h.same j j2).1]
    exact ⟨h.mem_right j2, hn.2⟩
  · rcases r2 with ⟨c, r2⟩ | ⟨c, r2⟩
    · left
      refine ⟨c, fun m hm => ?_⟩
      obtain ⟨j, j1, j2, rfl⟩ := back m hm
      exact (h.trims j2).1.mpr (r2 _ (memN j j1 j2 hm))
    · right
      refine ⟨c, fun m hm => ?_⟩
      obtain ⟨j, j1, j2, rfl⟩ := back m hm
      exact (r2 _ (memN j j1 j2 hm)).imp (h.trims j2).1.mpr (h.trims j2).2.mpr

/-! ### Items -/

theorem itemsOf_uncut {inst : Instance} {bt : BinType} {nodes : List Node}
    (ht : Tree inst bt b nodes) (h : CutItems nodes) :
    itemsOf (nodes.take (base bt b + 1)) = [] := by
  have hbl := ht.base_lt
  unfold itemsOf
  rw [List.map_eq_nil_iff, List.filter_eq_nil_iff]
  intro n hn hc
  rw [Bool.and_eq_true, decide_eq_true_eq] at hc
  have hd := h n (List.mem_of_mem_take hn) hc.1 hc.2
  obtain ⟨i, hi, e⟩ := List.getElem_of_mem hn
  rw [List.length_take] at hi
  rw [List.getElem_take] at e
  have hnd : nd nodes i = n := by
    unfold nd
    rw [List.getD_eq_getElem?_getD, List.getElem?_eq_getElem (by omega), e]; rfl
  rw [← hnd] at hd
  have := (ht.depth_iff (i := i) (by omega)).mp hd
  omega

theorem Twin.cutItems (h : Twin f a t t' b N M) : CutItems M := by
  intro n hn hf hi
  obtain ⟨i, hil, e⟩ := List.getElem_of_mem hn
  have hnd : nd M i = n := by
    unfold nd
    rw [List.getD_eq_getElem?_getD, List.getElem?_eq_getElem hil, e]; rfl
  rw [← hnd] at hf hi ⊢
  by_cases hb : base t' b < i
  · exact (h.tree'.depth_iff hil).mpr hb
  · exfalso
    by_cases hb' : i = base t' b
    · subst hb'
      have := h.root hf
      omega
    · have hfr := h.tree'.frame i (by omega)
      rw [hfr] at hf hi
      obtain ⟨root, tail, h0, h1, -, -, h4⟩ := initialNodes_cons t' b
      have hm : nd (initialNodes t' b) i ∈ initialNodes t' b :=
        nd_mem (by have := initialNodes_length t' b; omega)
      rw [h0] at hm
      rcases List.mem_cons.mp hm with hm | hm
      · rw [h0, hm, h1] at hf; cases hf
      · rw [← h0] at hm
        have := (h4 _ hm).2.2
        omega

/-- The items of corresponding initial segments are the same. -/
theorem Twin.items_take (h : Twin f a t t' b N M) (hc : CutItems N) {j : Nat}
    (hj : base t b + 1 + j ≤ N.length) :
    itemsOf (M.take (base t' b + 1 + j)) = itemsOf (N.take (base t b + 1 + j)) := by
  have hlen := h.len
  rw [take_eq_map _ _ _ hj, take_eq_map _ _ _ (by omega), itemsOf_append, itemsOf_append,
    itemsOf_uncut h.tree hc, itemsOf_uncut h.tree' h.cutItems, List.nil_append, List.nil_append]
  induction j with
  | zero => rfl
  | succ j ih =>
    rw [List.range_succ, List.map_append, List.map_append, itemsOf_append, itemsOf_append,
      ih (by omega)]
    congr 1
    have hi := h.item (j + 1) (by omega) (by omega)
    obtain ⟨x, x1, x2, -⟩ := h.tree.later (base t b + (j + 1)) (by omega) (by omega)
    obtain ⟨y, rfl⟩ := Nat.exists_eq_add_of_le x2
    have hf := h.father (j + 1) y (by omega) (by omega) x1
    rw [List.map_singleton, List.map_singleton,
      show base t' b + 1 + j = base t' b + (j + 1) by omega,
      show base t b + 1 + j = base t b + (j + 1) by omega]
    unfold itemsOf
    rw [List.filter_singleton, List.filter_singleton, hi, hf, x1]
    dsimp only [Option.isSome_some, Bool.true_and]
    cases decide (0 ≤ (nd N (base t b + (j + 1))).itemTypeId)
    · rfl
    · exact congrArg (fun x : Int => [x.toNat]) hi

theorem Twin.items (h : Twin f a t t' b N M) (hc : CutItems N) : itemsOf M = itemsOf N := by
  have hlen := h.len
  have hbl := h.tree.base_lt
  have := h.items_take hc (j := N.length - (base t b + 1)) (by omega)
  rw [List.take_of_length_le (by omega), List.take_of_length_le (by omega)] at this
  exact this

end

end PackingSolver.Guil
