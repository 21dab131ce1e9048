import Verif.Lemmas.Guil.Replay
import Verif.Props.Guil.Solution

/-!
# Lemmas: turning back the solution of a flipped guillotine instance
-/

namespace PackingSolver.Guil

open Spec
open Guil.Spec

section
variable {f a : Instance} {t t' : BinType} {b : Nat} {N M : List Node} {ct : Int}

/-- `M` is `N` with the axes exchanged, except for the trims. -/
structure Twin (f a : Instance) (t t' : BinType) (b : Nat) (N M : List Node) : Prop where
  tree : Tree f t b N
  tree' : Tree a t' b M
  len : M.length + base t b = N.length + base t' b
  same : ∀ j, base t b + j < N.length → (nd M (base t' b + j)).d = (nd N (base t b + j)).d
    ∧ region (nd M (base t' b + j)) = mirror (region (nd N (base t b + j)))
  father : ∀ j p, 1 ≤ j → base t b + j < N.length →
    (nd N (base t b + j)).f = some (base t b + p) → (nd M (base t' b + j)).f = some (base t' b + p)
  item : ∀ j, 1 ≤ j → base t b + j < N.length →
    (nd M (base t' b + j)).itemTypeId = (nd N (base t b + j)).itemTypeId
  root : (nd M (base t' b)).f.isSome = true → (nd M (base t' b)).itemTypeId < 0

theorem Rep.twin (hN : Tree f t b N) (hC : Cutting ct .vertical (base t b) N (-1))
    (h : Rep a t t' b N (fun j => replayedItem (nd N (base t b + j))) M
      (N.length - (base t b + 1))) : Twin f a t t' b N M := by
  have hbl := hN.base_lt
  have hlen := h.len
  refine ⟨hN, h.tree, by omega, fun j hj => h.same j (by omega),
    fun j p h1 h2 h3 => h.father j p h1 (by omega) h3, ?_, h.root⟩
  intro j h1 h2
  obtain ⟨m1, m2⟩ := hC.mark (base t b + j) (by omega) h2
  obtain ⟨i1, i2⟩ := h.item j h1 (by omega)
  have hkids : (nd M (base t' b + j)).children = [] ↔ (nd N (base t b + j)).children = [] := by
    rw [h.tree.children_eq (by omega) (by omega), hN.children_eq (by omega) (by omega),
      show M.length = base t' b + (N.length - base t b) by omega,
      show N.length = base t b + (N.length - base t b) by omega,
      kidsUpTo_shift h.tree.fathers (by omega), kidsUpTo_shift hN.fathers (by omega),
      Nat.add_sub_cancel_left, h.kids hN (by omega) (by omega), List.map_eq_nil_iff,
      List.map_eq_nil_iff]
  by_cases hc : (nd N (base t b + j)).children = []
  · rw [i2 (hkids.mpr hc)]
    unfold replayedItem
    rcases m2 hc with h | h
    · rw [if_neg (by omega), h]
    · rw [if_pos h]
  · rw [i1 (fun hh => hc (hkids.mp hh)), m1 hc]

theorem Twin.residual (h : Twin f a t t' b N M) :
    Twin f a t t' b (setResidual N) (setResidual M) := by
  have hbl := h.tree.base_lt
  have hbl' := h.tree'.base_lt
  have hlen := h.len
  have hNe : N ≠ [] := by intro hh; rw [hh] at hbl; simp at hbl
  have hMe : M ≠ [] := by intro hh; rw [hh] at hbl'; simp at hbl'
  obtain ⟨j, hj⟩ := Nat.exists_eq_add_of_le (show base t b ≤ N.length - 1 by omega)
  have hj' : M.length - 1 = base t' b + j := by omega
  unfold setResidual
  rw [getLast_nd hNe, getLast_nd hMe]
  dsimp only
  by_cases hc : (nd N (N.length - 1)).itemTypeId = -1 ∧ (nd N (N.length - 1)).d = 1
  · have hj1 : 1 ≤ j := by
      by_contra hj0
      have : j = 0 := by omega
      subst this
      rw [hj, Nat.add_zero, h.tree.depth_base] at hc
      omega
    have hc' : (nd M (M.length - 1)).itemTypeId = -1 ∧ (nd M (M.length - 1)).d = 1 := by
      rw [hj', h.item j hj1 (by omega), (h.same j (by omega)).1, ← hj]; exact hc
    rw [if_pos hc, if_pos hc', set_last_eq_modify, set_last_eq_modify]
    have hal := alike_modify (nodes := N) (N.length - 1) (-3)
    have hal' := alike_modify (nodes := M) (M.length - 1) (-3)
    refine ⟨?_, ?_, by rw [List.length_modify, List.length_modify]; exact hlen, ?_, ?_, ?_, ?_⟩
    · refine h.tree.setItem (by omega) ?_
      intro _ h0; dsimp only at h0; omega
    · refine h.tree'.setItem (by omega) ?_
      intro _ h0; dsimp only at h0; omega
    · intro i hi
      rw [List.length_modify] at hi
      rw [(hal.2 _).1.2.1, (hal.2 _).1.2.2, (hal'.2 _).1.2.1, (hal'.2 _).1.2.2]
      exact h.same i hi
    · intro i p h1 h2 h3
      rw [List.length_modify] at h2
      rw [(hal.2 _).1.1] at h3
      rw [(hal'.2 _).1.1]
      exact h.father i p h1 h2 h3
    · intro i h1 h2
      rw [List.length_modify] at h2
      rw [nd_modify, nd_modify]
      by_cases hij : i = j
      · rw [if_pos ⟨by omega, by omega⟩, if_pos ⟨by omega, by omega⟩]
      · rw [if_neg (by omega), if_neg (by omega)]; exact h.item i h1 h2
    · intro hf
      rw [nd_modify, if_neg (by omega)] at hf ⊢
      exact h.root hf
  · have hc' : ¬ ((nd M (M.length - 1)).itemTypeId = -1 ∧ (nd M (M.length - 1)).d = 1) := by
      rintro ⟨e1, e2⟩
      rw [hj'] at e1 e2
      rw [(h.same j (by omega)).1, ← hj] at e2
      have hj1 : 1 ≤ j := by
        by_contra hj0
        have : j = 0 := by omega
        subst this
        rw [hj, Nat.add_zero, h.tree.depth_base] at e2
        omega
      rw [h.item j hj1 (by omega), ← hj] at e1
      exact hc ⟨e1, e2⟩
    rw [if_neg hc, if_neg hc']
    exact h

/-- The nodes of depth at least 1 are those after the bin's own. -/
theorem Tree.depth_iff {inst : Instance} {bt : BinType} {nodes : List Node}
    (h : Tree inst bt b nodes) {i : Nat} (hi : i < nodes.length) :
    1 ≤ (nd nodes i).d ↔ base bt b < i := by
  constructor
  · intro hd
    by_contra hc
    by_cases hib : i = base bt b
    · rw [hib, h.depth_base] at hd; omega
    · rw [h.frame i (by omega)] at hd
      have := initial_depth bt b _ (nd_mem (nodes := initialNodes bt b) (i := i)
        (by have := initialNodes_length bt b; omega))
      omega
  · intro hb
    exact (h.depth_pos i (by omega) hi).2 hb

/-- A node of the one has its twin in the other. -/
theorem Twin.mem (h : Twin f a t t' b N M) {m : Node} (hm : m ∈ M) (hd : 1 ≤ m.d) :
    ∃ j, 1 ≤ j ∧ base t b + j < N.length ∧ m = nd M (base t' b + j) := by
  obtain ⟨i, hi, e⟩ := List.getElem_of_mem hm
  have hnd : nd M i = m := by
    unfold nd
    rw [List.getD_eq_getElem?_getD, List.getElem?_eq_getElem hi, e]; rfl
  rw [← hnd] at hd
  have hib := (h.tree'.depth_iff hi).mp hd
  obtain ⟨j, rfl⟩ := Nat.exists_eq_add_of_le hib.le
  have hlen := h.len
  exact ⟨j, by omega, by omega, hnd.symm⟩

end

/-! ### The calls -/

theorem runOrThrow_append {inst : Instance} {l m : List Op} : ∀ {sb : SolutionBuilder},
    sb.runOrThrow inst (l ++ m)
      = (sb.runOrThrow inst l).bind fun sb => sb.runOrThrow inst m := by
  induction l with
  | nil => intro sb; rfl
  | cons op l ih =>
    intro sb
    rw [List.cons_append, SolutionBuilder.runOrThrow, SolutionBuilder.runOrThrow]
    rcases sb.step inst op with ⟨sb1, _ | e⟩
    · exact ih
    · rfl

/-- A finished bin of the flipped instance, before the residual is marked. -/
structure Cuttable (f : Instance) (bin : SolutionBin) : Prop where
  type_lt : bin.binTypeId < f.numberOfBinTypes
  tree : Tree f (f.binType bin.binTypeId) bin.binTypeId bin.nodes
  cutting : Cutting f.parameters.cutThickness .vertical
    (base (f.binType bin.binTypeId) bin.binTypeId) bin.nodes (-1)

/-- The bin that the calls for a flipped bin leave. -/
structure Unflipped (f a : Instance) (bin bin' : SolutionBin) : Prop where
  fresh : bin' = { binTypeId := bin.binTypeId, copies := bin.copies, firstCutOrientation := .horizontal, nodes := bin'.nodes }
  finished : finishNodes a.parameters.cutThickness bin'.nodes = bin'.nodes
  twin : Twin f a (f.binType bin.binTypeId) (a.binType bin.binTypeId) bin.binTypeId bin.nodes
    bin'.nodes

section
variable {f a : Instance}

theorem flipped_thickness (h : FlippedOf a f) :
    f.parameters.cutThickness = a.parameters.cutThickness := by rw [h.parameters]

theorem unflip_bin (hfl : FlippedOf a f) {bin : SolutionBin} (hb : Cuttable f bin)
    (sb : SolutionBuilder) : ∃ bin', Unflipped f a bin bin'
      ∧ sb.runOrThrow a (Flipper.binOps bin)
        = .ok ⟨{ sb.sol with bins := sb.sol.bins ++ [bin'] }⟩ := by
  have hlt := hb.type_lt
  rw [hfl.numberOfBinTypes] at hlt
  have hC := hb.cutting
  rw [flipped_thickness hfl] at hC
  obtain ⟨M, e, r⟩ := replay rfl hb.tree hC (hfl.bins _ hlt) hfl.numberOfItemTypes hfl.items
  obtain ⟨bin0, hbin0⟩ : ∃ bin0 : SolutionBin, bin0 = { binTypeId := bin.binTypeId, copies := bin.copies, firstCutOrientation := .horizontal, nodes := initialNodes (a.binType bin.binTypeId) bin.binTypeId } := ⟨_, rfl⟩
  refine ⟨{ bin0 with nodes := M }, ⟨by rw [hbin0], r.finished hb.tree hC, r.twin hb.tree hC⟩, ?_⟩
  unfold Flipper.binOps
  have hadd : sb.step a (.addBin bin.binTypeId bin.copies .horizontal)
      = (⟨{ sb.sol with bins := sb.sol.bins ++ [bin0] }⟩, none) := by
    show sb.addBin a bin.binTypeId bin.copies .horizontal = _
    unfold SolutionBuilder.addBin
    rw [if_neg (by omega), hbin0]
  unfold SolutionBuilder.runOrThrow
  rw [hadd]
  exact runOrThrow_nodes (bins := sb.sol.bins) (bin := bin0) rfl (by rw [hbin0]; exact e)

theorem unflip_bins (hfl : FlippedOf a f) : ∀ (L : List SolutionBin), (∀ bin ∈ L, Cuttable f bin) →
    ∀ sb : SolutionBuilder, ∃ L', List.Forall₂ (Unflipped f a) L L'
      ∧ sb.runOrThrow a (L.flatMap Flipper.binOps)
        = .ok ⟨{ sb.sol with bins := sb.sol.bins ++ L' }⟩ := by
  intro L
  induction L with
  | nil => intro _ sb; exact ⟨[], .nil, by rw [List.append_nil]; rfl⟩
  | cons bin L ih =>
    intro hL sb
    obtain ⟨bin', u, e⟩ := unflip_bin hfl (hL bin List.mem_cons_self) sb
    obtain ⟨L', u', e'⟩ := ih (fun b hb => hL b (List.mem_cons_of_mem _ hb))
      ⟨{ sb.sol with bins := sb.sol.bins ++ [bin'] }⟩
    refine ⟨bin' :: L', .cons u u', ?_⟩
    rw [List.flatMap_cons, runOrThrow_append, e]
    show SolutionBuilder.runOrThrow a _ _ = _
    rw [e']
    simp

theorem nodeOps_residual (nodes : List Node) :
    (setResidual nodes).flatMap Flipper.nodeOps = nodes.flatMap Flipper.nodeOps := by
  unfold setResidual
  by_cases h : nodes = []
  · subst h; rfl
  · rw [getLast_nd h]
    dsimp only
    by_cases hc : (nd nodes (nodes.length - 1)).itemTypeId = -1
        ∧ (nd nodes (nodes.length - 1)).d = 1
    · rw [if_pos hc, set_last_eq_modify]
      obtain ⟨l, x, rfl⟩ : ∃ l x, nodes = l ++ [x] :=
        ⟨nodes.dropLast, nodes.getLast h, (List.dropLast_append_getLast h).symm⟩
      have hlen : (l ++ [x]).length - 1 = l.length := by simp
      have hx : nd (l ++ [x]) l.length = x := by unfold nd; simp
      rw [hlen, hx] at hc
      rw [hlen, modify_snoc, List.flatMap_append, List.flatMap_append]
      congr 1
      rw [List.flatMap_singleton, List.flatMap_singleton]
      unfold Flipper.nodeOps
      dsimp only
      rw [if_neg (show ¬ x.d ≤ 0 by omega), if_neg (show ¬ x.d ≤ 0 by omega),
        if_neg (show ¬ (-3 : Int) ≥ 0 by omega), if_neg (show ¬ x.itemTypeId ≥ 0 by omega)]
    · rw [if_neg hc]

end

/-! ### The solutions -/

theorem forall₂_modify {α β : Type} {R : α → β → Prop} {g : α → α} {g' : β → β}
    (hg : ∀ x y, R x y → R (g x) (g' y)) {l : List α} {l' : List β} (h : List.Forall₂ R l l') :
    ∀ i, List.Forall₂ R (l.modify i g) (l'.modify i g') := by
  induction h with
  | nil => intro i; cases i <;> exact .nil
  | cons h1 _ ih =>
    intro i
    cases i with
    | zero => exact .cons (hg _ _ h1) (by assumption)
    | succ i => exact .cons h1 (ih i)

theorem forall₂_carry {α β α' β' : Type} {R : α → β → Prop} {S : α → α' → Prop}
    {S' : β → β' → Prop} {T : α' → β' → Prop} (hT : ∀ x y x' y', R x y → S x x' → S' y y' → T x' y')
    {l : List α} {l' : List β} (h : List.Forall₂ R l l') : ∀ {m : List α'} {m' : List β'},
    List.Forall₂ S l m → List.Forall₂ S' l' m' → List.Forall₂ T m m' := by
  induction h with
  | nil => intro m m' h1 h2; cases h1; cases h2; exact .nil
  | cons h1 _ ih =>
    intro m m' h2 h3
    cases h2 with
    | cons h2 h2' =>
      cases h3 with
      | cons h3 h3' => exact .cons (hT _ _ _ _ h1 h2 h3) (ih h2' h3')

theorem build_staged {inst : Instance} {sb : SolutionBuilder} {s : Solution}
    (h : sb.build inst = .ok s) :
    List.Forall₂ (Staged inst) (finishBins inst.parameters.cutThickness sb.sol.bins) s.bins := by
  obtain ⟨h1, h2⟩ := build_bins h
  have hlen : (finishBins inst.parameters.cutThickness sb.sol.bins).length
      = sb.sol.bins.length := by
    unfold finishBins
    dsimp only
    rw [List.length_modify, List.length_map]
  rw [List.forall₂_iff_get]
  refine ⟨by omega, fun i hi hi' => ?_⟩
  have := h2 i hi'
  rw [List.getD_eq_getElem?_getD, List.getD_eq_getElem?_getD, List.getElem?_eq_getElem hi,
    List.getElem?_eq_getElem hi'] at this
  exact this

/-- Two bins that show the same pieces with the axes exchanged. -/
structure TwinBin (f a : Instance) (bin bin' : SolutionBin) : Prop where
  type_lt : bin.binTypeId < f.numberOfBinTypes
  type_eq : bin'.binTypeId = bin.binTypeId
  copies : bin'.copies = bin.copies
  orientation : bin'.firstCutOrientation = .horizontal
  twin : Twin f a (f.binType bin.binTypeId) (a.binType bin.binTypeId) bin.binTypeId bin.nodes
    bin'.nodes

section
variable {f a : Instance}

theorem TwinBin.staged {b b' c c' : SolutionBin} (h : TwinBin f a b b') (h1 : Staged f b c)
    (h2 : Staged a b' c') : TwinBin f a c c' := by
  obtain ⟨e1, e2, e3, e4, _⟩ := staged_frame h1
  obtain ⟨e1', e2', e3', e4', _⟩ := staged_frame h2
  refine ⟨by rw [e1]; exact h.type_lt, by rw [e1, e1']; exact h.type_eq,
    by rw [e2, e2']; exact h.copies, by rw [e3']; exact h.orientation, ?_⟩
  rw [e1, e4, e4']
  exact h.twin

/-- Waste that is long enough stays so. -/
theorem TwinBin.wasteOk {b b' : SolutionBin} (hfl : FlippedOf a f) (h : TwinBin f a b b')
    (hw : WasteOk f (plateOf b)) : WasteOk a (plateOf b') := by
  intro m hm hd hi
  obtain ⟨j, j1, j2, rfl⟩ := h.twin.mem hm hd
  obtain ⟨s1, s2⟩ := h.twin.same j j2
  rw [s1] at hd
  rw [h.twin.item j j1 j2] at hi
  have := hw _ (nd_mem (nodes := b.nodes) j2) hd hi
  rw [hfl.parameters] at this
  have er := congrArg Region.r s2
  have el := congrArg Region.l s2
  have et := congrArg Region.t s2
  have eb := congrArg Region.b s2
  unfold region mirror at er el et eb
  dsimp only at er el et eb this
  rw [er, el, et, eb]
  exact ⟨this.2, this.1⟩

theorem unflip_twins (hfl : FlippedOf a f) (hct : 0 ≤ f.parameters.cutThickness)
    (ht : TablesOk a) {ops : List Op} {sb : SolutionBuilder} {s : Solution}
    (hrun : (SolutionBuilder.new f).runOrThrow f ops = .ok sb) (hb : sb.build f = .ok s)
    (hv : ∀ bin ∈ s.bins, bin.firstCutOrientation = .vertical) :
    ∃ s' ops', Flipper.unflipSolution a s = .ok s'
      ∧ (SolutionBuilder.run a ops').build a = .ok s'
      ∧ List.Forall₂ (TwinBin f a) s.bins s'.bins := by
  obtain ⟨hI, hC⟩ := runOrThrow_inv hct runInv_new
    (by intro bin hb; cases hb) hrun
  have hsb : SolutionBuilder.run f ops = sb := runOrThrow_foldl hrun
  have hst := build_staged hb
  -- the finished bins, before the residual is marked
  generalize hL : sb.sol.bins.map (fun bin => { bin with
    nodes := finishNodes f.parameters.cutThickness bin.nodes }) = L at *
  have hfb : finishBins f.parameters.cutThickness sb.sol.bins
      = L.modify (L.length - 1) (fun bin => { bin with nodes := setResidual bin.nodes }) := by
    unfold finishBins; dsimp only; rw [hL]
  rw [hfb] at hst
  have hor : ∀ bin ∈ L, bin.firstCutOrientation = .vertical := by
    intro bin hbin
    obtain ⟨i, hi, e⟩ := List.getElem_of_mem hbin
    rw [List.forall₂_iff_get] at hst
    obtain ⟨l1, l2⟩ := hst
    rw [List.length_modify] at l1
    have := l2 i (by rw [List.length_modify]; exact hi) (by omega)
    obtain ⟨_, _, e3, _, _⟩ := staged_frame this
    have h3 := hv _ (List.get_mem s.bins ⟨i, by omega⟩)
    rw [e3, List.get_eq_getElem, List.getElem_modify] at h3
    rw [← e]
    split at h3 <;> exact h3
  have hcut : ∀ bin ∈ L, Cuttable f bin := by
    intro bin hbin
    have ho := hor bin hbin
    rw [← hL] at hbin
    obtain ⟨b0, hb0, rfl⟩ := List.mem_map.mp hbin
    have hd := doneBin_finish (hI.bins b0 hb0).1
    refine ⟨hd.type_lt, hd.tree, ?_⟩
    have hcc := Cutting.finish hct (hI.bins b0 hb0).1.tree (hC b0 hb0)
    rw [show b0.firstCutOrientation = .vertical from ho] at hcc
    exact hcc
  -- the calls
  have hops : s.bins.flatMap Flipper.binOps = L.flatMap Flipper.binOps := by
    have key : ∀ (l m : List SolutionBin) (i : Nat), List.Forall₂ (Staged f)
        (l.modify i (fun bin => { bin with nodes := setResidual bin.nodes })) m →
        m.flatMap Flipper.binOps = l.flatMap Flipper.binOps := by
      intro l
      induction l with
      | nil => intro m i h; cases i <;> (cases h; rfl)
      | cons x l ih =>
        intro m i h
        cases i with
        | zero =>
          cases h with
          | cons h1 h2 =>
            rw [List.flatMap_cons, List.flatMap_cons]
            obtain ⟨e1, e2, _, e4, _⟩ := staged_frame h1
            congr 1
            · unfold Flipper.binOps
              rw [e1, e2, e4]
              dsimp only
              rw [nodeOps_residual]
            · exact ih _ l.length (by rw [List.modify_eq_self (Nat.le_refl _)]; exact h2)
        | succ i =>
          cases h with
          | cons h1 h2 =>
            rw [List.flatMap_cons, List.flatMap_cons]
            obtain ⟨e1, e2, _, e4, _⟩ := staged_frame h1
            congr 1
            · unfold Flipper.binOps
              rw [e1, e2, e4]
            · exact ih _ i h2
    exact key L s.bins _ hst
  obtain ⟨L', hLL, hr⟩ := unflip_bins hfl L hcut (SolutionBuilder.new a)
  have hsb' := runOrThrow_foldl hr
  have hbins : (SolutionBuilder.run a (L.flatMap Flipper.binOps)).sol.bins = L' := by
    show (List.foldl _ (SolutionBuilder.new a) _).sol.bins = L'
    rw [hsb']; exact List.nil_append _
  -- the finished bins on the other side
  have hmap : L'.map (fun bin => { bin with
      nodes := finishNodes a.parameters.cutThickness bin.nodes }) = L' := by
    clear hbins hsb' hr hops hcut hor hfb hst hL
    induction hLL with
    | nil => rfl
    | cons h1 _ ih => rw [List.map_cons, ih, h1.finished]
  have hfb' : finishBins a.parameters.cutThickness L'
      = L'.modify (L.length - 1) (fun bin => { bin with nodes := setResidual bin.nodes }) := by
    unfold finishBins
    dsimp only
    rw [hmap, hLL.length_eq]
  have htw : List.Forall₂ (TwinBin f a)
      (L.modify (L.length - 1) (fun bin => { bin with nodes := setResidual bin.nodes }))
      (finishBins a.parameters.cutThickness L') := by
    rw [hfb']
    refine forall₂_modify (fun x y h => ⟨h.type_lt, h.type_eq, h.copies, h.orientation,
      h.twin.residual⟩) ?_ _
    rw [List.forall₂_iff_get] at hLL ⊢
    refine ⟨hLL.1, fun i hi hi' => ?_⟩
    have hu := hLL.2 i hi hi'
    have e := hu.fresh
    exact ⟨(hcut _ (List.get_mem L ⟨i, hi⟩)).type_lt, by rw [e], by rw [e], by rw [e], hu.twin⟩
  -- the build
  have hwf : ∀ p ∈ plates s, WasteOk f p := built_waste_ok (ops := ops) (by rw [hsb]; exact hb)
  have hbuild : ∃ s', (SolutionBuilder.run a (L.flatMap Flipper.binOps)).build a = .ok s' := by
    rcases build_defined ht (L.flatMap Flipper.binOps) with ⟨h, _⟩ | ⟨_, b', hb', hnw⟩
    · exact h
    · exfalso
      rw [hbins] at hb'
      obtain ⟨i, hi, e⟩ := List.getElem_of_mem hb'
      rw [List.forall₂_iff_get] at htw hst
      have h1 := htw.2 i (by rw [htw.1]; exact hi) hi
      have h2 := hst.2 i (by rw [htw.1]; exact hi) (by rw [← hst.1, htw.1]; exact hi)
      rw [show List.get _ ⟨i, hi⟩ = b' from e] at h1
      refine hnw (h1.wasteOk hfl ?_)
      have h3 := hwf _ (List.mem_map_of_mem (f := plateOf)
        (List.get_mem s.bins ⟨i, by rw [← hst.1, htw.1]; exact hi⟩))
      obtain ⟨e1, e2, e3, e4, _⟩ := staged_frame h2
      unfold plateOf at h3 ⊢
      rw [← e1, ← e2, ← e3, ← e4]
      exact h3
  obtain ⟨s', hs'⟩ := hbuild
  refine ⟨s', L.flatMap Flipper.binOps, ?_, hs', ?_⟩
  · unfold Flipper.unflipSolution
    rw [hops]
    refine bind_ok.mpr ⟨_, hr, ?_⟩
    rw [← hsb']
    exact hs'
  · have hst' := build_staged hs'
    rw [hbins] at hst'
    exact forall₂_carry (fun _ _ _ _ h h1 h2 => h.staged h1 h2) htw hst hst'

end

end PackingSolver.Guil
