import Verif.Lemmas.Guil.Mirror

/-!
# Lemmas: the constraints on two bins with exchanged axes
-/

namespace PackingSolver.Guil

open Spec
open Guil.Spec

section
variable {f a : Instance} {b b' : SolutionBin}

theorem TwinBin.mirrored (h : TwinBin f a b b') : Mirrored (plateOf b) (plateOf b') := by
  refine ⟨h.type_eq, h.copies, h.orientation, ?_⟩
  unfold cutPieces
  rw [List.map_map]
  refine h.twin.map_filter fun j h1 h2 => ?_
  dsimp only [Function.comp]
  rw [(h.twin.same j h2).1, (h.twin.same j h2).2, h.twin.item j h1 h2]

theorem vertical_flip (d : Nat) :
    decide (VerticalAt .horizontal (d : Int)) = !decide (VerticalAt .vertical (d : Int)) := by
  unfold VerticalAt
  rcases (by omega : (d : Int) % 2 = 0 ∨ (d : Int) % 2 = 1) with h | h <;> simp [h]

theorem usable_flip {t t' : BinType} (h : FlippedBin t' t) : usable t' = mirror (usable t) := by
  unfold usable mirror
  rw [h.left.1, h.left.2, h.right.1, h.right.2, h.bottom.1, h.bottom.2, h.top.1, h.top.2, h.w, h.h]

theorem TwinBin.distancesOk (h : TwinBin f a b b') (hv : b.firstCutOrientation = .vertical) {d : Nat}
    (hd : 1 ≤ d) {lo hi : Int} (hN : DistancesOk d lo hi (plateOf b)) :
    DistancesOk d lo hi (plateOf b') := by
  intro m hm hmd hi2 _
  obtain ⟨j, j1, j2, rfl⟩ := h.twin.mem hm (by omega)
  rw [(h.twin.same j j2).1] at hmd
  rw [h.twin.item j j1 j2] at hi2
  have hn := hN _ (nd_mem (nodes := b.nodes) j2) hmd hi2
    (by show b.firstCutOrientation ≠ .any; rw [hv]; decide)
  have hv1 : (plateOf b).orientation = .vertical := hv
  have hv2 : (plateOf b').orientation = .horizontal := h.orientation
  rw [hv1] at hn
  rw [hv2, vertical_flip, (h.twin.same j j2).2, high_mirror, low_mirror, Bool.not_not]
  exact hn

theorem TwinBin.number1Ok (hfl : FlippedOf a f) (h : TwinBin f a b b')
    (hv : b.firstCutOrientation = .vertical) (hN : Number1Ok f (plateOf b)) :
    Number1Ok a (plateOf b') := by
  intro h0 _
  have hlt := h.type_lt
  rw [hfl.numberOfBinTypes] at hlt
  have hv1 : (plateOf b).orientation = .vertical := hv
  have hv2 : (plateOf b').orientation = .horizontal := h.orientation
  have ht : (plateOf b').binTypeId = b.binTypeId := h.type_eq
  have hp : f.parameters.maximumNumber1Cuts = a.parameters.maximumNumber1Cuts := by
    rw [hfl.parameters]
  have hn := hN (by rw [hp]; exact h0) (by rw [hv1]; decide)
  rw [hv1, hp] at hn
  rw [hv2, ht, usable_flip (hfl.bins _ hlt)]
  have e1 := vertical_flip 1
  rw [Nat.cast_one] at e1
  rw [e1, high_mirror, Bool.not_not]
  refine le_trans (le_of_eq ?_) hn
  congr 1
  refine h.twin.countP ?_ ?_ ?_
  · intro n _ hh
    rw [Bool.and_eq_true, decide_eq_true_eq] at hh
    omega
  · intro n _ hh
    rw [Bool.and_eq_true, decide_eq_true_eq] at hh
    omega
  · intro j j1 j2
    rw [(h.twin.same j j2).1, (h.twin.same j j2).2, high_mirror, Bool.not_not]

theorem TwinBin.number2Ok (hfl : FlippedOf a f) (h : TwinBin f a b b')
    (hv : b.firstCutOrientation = .vertical) (hN : Number2Ok f (plateOf b)) :
    Number2Ok a (plateOf b') := by
  intro h0 _ i hi hd
  have hv1 : (plateOf b).orientation = .vertical := hv
  have hv2 : (plateOf b').orientation = .horizontal := h.orientation
  have hp : f.parameters.maximumNumber2Cuts = a.parameters.maximumNumber2Cuts := by
    rw [hfl.parameters]
  have hlen := h.twin.len
  have hil : i < b'.nodes.length := hi
  have hd' : (nd b'.nodes i).d = 1 := hd
  have hib := (h.twin.tree'.depth_iff hil).mp (by omega)
  obtain ⟨p, rfl⟩ := Nat.exists_eq_add_of_le hib.le
  have hp2 : base (f.binType b.binTypeId) b.binTypeId + p < b.nodes.length := by omega
  have hn := hN (by rw [hp]; exact h0) (by rw [hv1]; decide) _ hp2
    (by rw [(h.twin.same p hp2).1] at hd'; exact hd')
  rw [hv1, hp] at hn
  have e2 := vertical_flip 2
  rw [Nat.cast_ofNat] at e2
  rw [hv2, e2]
  refine le_trans (le_of_eq ?_) hn
  congr 1
  have son : ∀ {inst : Instance} {bt : BinType} {k : Nat} {nodes : List Node} {n : Node} {x : Nat},
      Tree inst bt k nodes → n ∈ nodes → n.f = some x → base bt k ≤ x → 1 ≤ n.d := by
    intro inst bt k nodes n x ht hn hf hx
    obtain ⟨q, hq, e⟩ := List.getElem_of_mem hn
    have hnd : nd nodes q = n := by
      unfold nd
      rw [List.getD_eq_getElem?_getD, List.getElem?_eq_getElem hq, e]; rfl
    have := ht.fathers q hq x (by rw [hnd]; exact hf)
    rw [← hnd]
    exact (ht.depth_iff hq).mpr (by omega)
  refine h.twin.countP ?_ ?_ ?_
  · intro n hnm hh
    rw [Bool.and_eq_true, decide_eq_true_eq] at hh
    exact son h.twin.tree hnm hh.1 (by omega)
  · intro n hnm hh
    rw [Bool.and_eq_true, decide_eq_true_eq] at hh
    exact son h.twin.tree' hnm hh.1 (by omega)
  · intro j j1 j2
    have hfi := h.twin.father_iff (p := p) j1 j2
    have r1 := (h.twin.same j j2).2
    have r2 : region ((plateOf b').nodes.getD
        (base (a.binType b.binTypeId) b.binTypeId + p) default)
        = mirror (region ((plateOf b).nodes.getD
          (base (f.binType b.binTypeId) b.binTypeId + p) default)) := (h.twin.same p hp2).2
    rw [r1, r2, high_mirror, high_mirror, Bool.not_not]
    congr 1
    exact decide_eq_decide.mpr hfi

theorem meets_flip {t t' : BinType} (h : FlippedBin t' t) {R : Region}
    (hm : MeetsDefect t' (mirror R)) : MeetsDefect t R := by
  obtain ⟨d, hd, h1, h2, h3, h4⟩ := hm
  refine ⟨{ x := d.y, y := d.x, w := d.h, h := d.w }, ?_, h3, h4, h1, h2⟩
  rw [h.defects]
  exact List.mem_map_of_mem hd

theorem cuts_flip {t t' : BinType} (h : FlippedBin t' t) {v : Bool} {pos lo hi : Int}
    (hm : CutsDefect t' v pos lo hi) : CutsDefect t (!v) pos lo hi := by
  obtain ⟨d, hd, hh⟩ := hm
  refine ⟨{ x := d.y, y := d.x, w := d.h, h := d.w }, ?_, ?_⟩
  · rw [h.defects]
    exact List.mem_map_of_mem hd
  · cases v <;> exact hh

theorem TwinBin.defectsOk (hfl : FlippedOf a f) (h : TwinBin f a b b')
    (hN : DefectsOk f (plateOf b)) : DefectsOk a (plateOf b') := by
  intro m hm hd hi hmeet
  have hlt := h.type_lt
  rw [hfl.numberOfBinTypes] at hlt
  obtain ⟨j, j1, j2, rfl⟩ := h.twin.mem hm hd
  rw [(h.twin.same j j2).1] at hd
  rw [h.twin.item j j1 j2] at hi
  rw [(h.twin.same j j2).2, show (plateOf b').binTypeId = b.binTypeId from h.type_eq] at hmeet
  exact hN _ (nd_mem (nodes := b.nodes) j2) hd hi (meets_flip (hfl.bins _ hlt) hmeet)

theorem TwinBin.cutThroughOk (hfl : FlippedOf a f) (h : TwinBin f a b b')
    (hN : CutThroughOk f (plateOf b)) : CutThroughOk a (plateOf b') := by
  intro h0 m hm hd v
  have hlt := h.type_lt
  rw [hfl.numberOfBinTypes] at hlt
  obtain ⟨j, j1, j2, rfl⟩ := h.twin.mem hm hd
  rw [(h.twin.same j j2).1] at hd
  have hn := hN (by rw [hfl.parameters]; exact h0) _ (nd_mem (nodes := b.nodes) j2) hd (!v)
  rw [(h.twin.same j j2).2, show (plateOf b').binTypeId = b.binTypeId from h.type_eq, low_mirror,
    low_mirror, high_mirror, high_mirror]
  exact ⟨fun hc => hn.1 (cuts_flip (hfl.bins _ hlt) hc), fun hc => hn.2 (cuts_flip (hfl.bins _ hlt) hc)⟩

/-! ### Resources -/

theorem consumption_flip (hfl : FlippedOf a f) {r r' : Resource} (h : SameResource r' r)
    (items : List Nat) : consumption a r' items = consumption f r items := by
  unfold consumption
  rw [hfl.numberOfItemTypes]
  congr 1
  apply List.map_congr_left
  intro i _
  congr 1
  apply List.map_congr_left
  intro c _
  rw [h.consumption]

theorem resources_flip {t t' : BinType} (h : FlippedBin t' t) :
    List.Forall₂ SameResource t'.resources t.resources := by
  rw [List.forall₂_iff_get]
  refine ⟨h.numberOfResources.symm, fun i hi hi' => ?_⟩
  have := h.resources i hi
  rw [List.getD_eq_getElem?_getD, List.getD_eq_getElem?_getD, List.getElem?_eq_getElem hi,
    List.getElem?_eq_getElem hi'] at this
  exact this

theorem resourcesOk_flip (hfl : FlippedOf a f) {k : Nat} (hk : k < a.numberOfBinTypes)
    {items : List Nat} (h : ResourcesOk f k items) : ResourcesOk a k items := by
  intro r hr hp p hpi
  have hres := resources_flip (hfl.bins k hk)
  obtain ⟨i, hi, e⟩ := List.getElem_of_mem hr
  rw [List.forall₂_iff_get] at hres
  have hs := hres.2 i hi (by rw [← hres.1]; exact hi)
  rw [show List.get _ ⟨i, hi⟩ = r from e] at hs
  have := h _ (List.get_mem _ ⟨i, by rw [← hres.1]; exact hi⟩) (by rw [hs.penalize]; exact hp) p hpi
  rw [consumption_flip hfl hs, ← hs.capacity]
  exact this

theorem penalties_flip (hfl : FlippedOf a f) {k : Nat} (hk : k < a.numberOfBinTypes)
    (items : List Nat) : penalties a k items = penalties f k items := by
  unfold penalties
  have hres := resources_flip (hfl.bins k hk)
  congr 1
  generalize (a.binType k).resources = l at hres
  generalize (f.binType k).resources = m at hres
  induction hres with
  | nil => rfl
  | cons h1 _ ih =>
    rw [List.map_cons, List.map_cons, ih, consumption_flip hfl h1, h1.capacity, h1.penalize,
      h1.penalty]

/-! ### Stages -/

theorem max_unique {l : List Int} {m m' : Int} (h : IsMaxWithZero l m) (h' : IsMaxWithZero l m') :
    m = m' := by
  obtain ⟨a0, a1, a2⟩ := h
  obtain ⟨b0, b1, b2⟩ := h'
  have x1 : m ≤ m' := by rcases a2 with h | h; omega; exact b1 _ h
  have x2 : m' ≤ m := by rcases b2 with h | h; omega; exact a1 _ h
  omega

theorem TwinBin.stagesOk {s s' : Solution} {ops ops' : List Op} (hfl : FlippedOf a f)
    (hb : (SolutionBuilder.run f ops).build f = .ok s)
    (hb' : (SolutionBuilder.run a ops').build a = .ok s')
    (h : TwinBin f a b b') (hm : b ∈ s.bins) (hm' : b' ∈ s'.bins) {K : Int} (hK : 1 ≤ K)
    (hle : b.numberOfStages ≤ K) : b'.numberOfStages ≤ K := by
  obtain ⟨m1, m2, m3⟩ := stages_of_bin hb hm
  obtain ⟨m1', m2', m3'⟩ := stages_of_bin hb' hm'
  have hreal := max_unique (h.twin.real m1) m1'
  have hct : f.parameters.cutType = a.parameters.cutType := by rw [hfl.parameters]
  rw [hct] at m2 m3
  rw [← hreal] at m2' m3'
  by_cases hr : 2 ≤ b.numberOfStagesReal
  · by_cases hl : LastStageFree a.parameters.cutType b.nodes b.numberOfStagesReal
    · rw [m2' (h.twin.lastStageFree hr hl), ← m2 hl]; exact hle
    · rw [m3 hl] at hle
      by_cases hl' : LastStageFree a.parameters.cutType b'.nodes b.numberOfStagesReal
      · rw [m2' hl']; omega
      · rw [m3' hl']; exact hle
  · by_cases hl' : LastStageFree a.parameters.cutType b'.nodes b.numberOfStagesReal
    · rw [m2' hl']; omega
    · rw [m3' hl']; omega

end

/-! ### Several bins -/

section
variable {f a : Instance} {bs bs' : List SolutionBin}

/-- The bins correspond and all items lie on pieces. -/
def Twins (f a : Instance) (bs bs' : List SolutionBin) : Prop :=
  List.Forall₂ (fun b b' => TwinBin f a b b' ∧ CutItems b.nodes) bs bs'

theorem Twins.itemCopies (h : Twins f a bs bs') (i : Nat) :
    itemCopies (bs'.map plateOf) i = itemCopies (bs.map plateOf) i := by
  unfold Spec.itemCopies
  congr 1
  induction h with
  | nil => rfl
  | cons h1 _ ih =>
    rw [List.map_cons, List.map_cons, List.map_cons, List.map_cons, ih]
    congr 1
    have e1 : (plateOf _).items = (plateOf _).items := h1.1.twin.items h1.2
    rw [e1]
    exact congrArg (· * _) h1.1.copies

theorem Twins.binCopies (h : Twins f a bs bs') (k : Nat) :
    binCopies (bs'.map plateOf) k = binCopies (bs.map plateOf) k := by
  unfold Spec.binCopies
  congr 1
  induction h with
  | nil => rfl
  | cons h1 _ ih =>
    rw [List.map_cons, List.map_cons, List.map_cons, List.map_cons, ih]
    congr 1
    unfold plateOf
    dsimp only
    rw [h1.1.type_eq, h1.1.copies]

theorem Twins.profit (hfl : FlippedOf a f) (h : Twins f a bs bs')
    (hit : ∀ b ∈ bs, ∀ i ∈ itemsOf b.nodes, i < a.numberOfItemTypes) :
    reportedProfit a (bs'.map plateOf) = reportedProfit f (bs.map plateOf) := by
  unfold Spec.reportedProfit
  congr 1
  induction h with
  | nil => rfl
  | @cons b b' _ _ h1 _ ih =>
    rw [List.map_cons, List.map_cons, List.map_cons, List.map_cons,
      ih fun x hx => hit x (List.mem_cons_of_mem _ hx)]
    congr 1
    have hlt := h1.1.type_lt
    rw [hfl.numberOfBinTypes] at hlt
    have e1 : (plateOf b').items = (plateOf b).items := h1.1.twin.items h1.2
    have e2 : (plateOf b').copies = (plateOf b).copies := h1.1.copies
    have e3 : (plateOf b').binTypeId = b.binTypeId := h1.1.type_eq
    rw [e1, e2, e3, penalties_flip hfl hlt]
    congr 3
    apply List.map_congr_left
    intro i hi
    rw [(hfl.items i (hit b List.mem_cons_self i hi)).profit]

theorem Twins.cost (hfl : FlippedOf a f) (h : Twins f a bs bs') :
    Spec.cost a (bs'.map plateOf) = Spec.cost f (bs.map plateOf) := by
  unfold Spec.cost
  congr 1
  induction h with
  | nil => rfl
  | @cons b b' _ _ h1 _ ih =>
    rw [List.map_cons, List.map_cons, List.map_cons, List.map_cons, ih]
    congr 1
    have hlt := h1.1.type_lt
    rw [hfl.numberOfBinTypes] at hlt
    have e2 : (plateOf b').copies = (plateOf b).copies := h1.1.copies
    have e3 : (plateOf b').binTypeId = b.binTypeId := h1.1.type_eq
    rw [e2, e3, ← (hfl.bins _ hlt).cost]

theorem forall₂_split {α β : Type} {R : α → β → Prop} {l2 : List β} : ∀ {l1 : List β} {l : List α},
    List.Forall₂ R l (l1 ++ l2) →
    ∃ m1 m2, List.Forall₂ R m1 l1 ∧ List.Forall₂ R m2 l2 ∧ l = m1 ++ m2 := by
  intro l1
  induction l1 with
  | nil => intro l h; exact ⟨[], l, .nil, h, rfl⟩
  | cons x l1 ih =>
    intro l h
    cases h with
    | cons h1 h2 =>
      obtain ⟨m1, m2, x1, x2, rfl⟩ := ih h2
      exact ⟨_ :: m1, m2, .cons h1 x1, x2, rfl⟩

/-- Items that are cut in the order of their stacks stay so. -/
theorem Twins.stacksOk (hfl : FlippedOf a f) (h : Twins f a bs bs')
    (hN : StacksOk f (bs.map plateOf)) : StacksOk a (bs'.map plateOf) := by
  intro before p after hps first n rest hnodes hd hi hpos
  -- the bin and those before it
  obtain ⟨l1, l2, el, e1, e2⟩ := List.map_eq_append_iff.mp hps
  obtain ⟨b', l3, el2, e3, e4⟩ := List.map_eq_cons_iff.mp e2
  subst el2 el
  obtain ⟨m1, m2, hm1, hm2, em⟩ : ∃ m1 m2, Twins f a m1 l1 ∧ Twins f a m2 (b' :: l3)
      ∧ bs = m1 ++ m2 := by
    unfold Twins at h ⊢
    exact forall₂_split h
  unfold Twins at hm2
  obtain ⟨b, m3, hb, hm3, em2⟩ := List.forall₂_cons_right_iff.mp hm2
  subst em2 em e3 e1
  -- the node
  have hlen := hb.1.twin.len
  have hn' : (plateOf b').nodes = b'.nodes := rfl
  rw [hn'] at hnodes
  have hk : nd b'.nodes first.length = n := by unfold nd; rw [hnodes]; simp
  have hkl : first.length < b'.nodes.length := by rw [hnodes]; simp
  rw [← hk] at hd
  have hkb := (hb.1.twin.tree'.depth_iff hkl).mp hd
  obtain ⟨j, hj⟩ := Nat.exists_eq_add_of_le hkb
  have hj2 : base (f.binType b.binTypeId) b.binTypeId + (j + 1) < b.nodes.length := by omega
  have hkj : first.length = base (a.binType b.binTypeId) b.binTypeId + (j + 1) := by omega
  rw [hkj] at hk hd
  have hitem := hb.1.twin.item (j + 1) (by omega) hj2
  rw [hk] at hitem
  rw [(hb.1.twin.same _ hj2).1] at hd
  -- its item type
  have hitok := hb.1.twin.tree.items _ hj2
  obtain ⟨N1, hN1⟩ : ∃ N1, N1 = nd b.nodes (base (f.binType b.binTypeId) b.binTypeId + (j + 1)) :=
    ⟨_, rfl⟩
  have hlt : n.itemTypeId.toNat < a.numberOfItemTypes := by
    obtain ⟨x, x1, x2, -⟩ := hb.1.twin.tree.later _ (by omega) hj2
    have := hitok (by rw [x1]; rfl) (by rw [← hitem]; exact hi)
    obtain ⟨-, i, i1, i2, -⟩ := this
    rw [← hitem] at i2
    rw [i2, Int.toNat_natCast, ← hfl.numberOfItemTypes]; exact i1
  have hF := hfl.items _ hlt
  have hsp := hfl.stackPos _ hlt
  -- what holds before
  have hspl : (plateOf b).nodes = b.nodes.take (base (f.binType b.binTypeId) b.binTypeId + (j + 1))
      ++ N1 :: b.nodes.drop (base (f.binType b.binTypeId) b.binTypeId + (j + 1) + 1) := by
    show b.nodes = _
    conv_lhs => rw [← List.take_append_drop
      (base (f.binType b.binTypeId) b.binTypeId + (j + 1)) b.nodes, List.drop_eq_getElem_cons hj2]
    rw [hN1]
    unfold nd
    rw [List.getD_eq_getElem?_getD, List.getElem?_eq_getElem hj2]
    rfl
  have hold := hN (m1.map plateOf) (plateOf b) (m3.map plateOf)
    (by rw [List.map_append, List.map_cons]) _ N1 _ hspl (by rw [hN1]; exact hd)
    (by rw [hN1, ← hitem]; exact hi) (by rw [hN1, ← hitem, hsp]; exact hpos)
  dsimp only at hold ⊢
  rw [hN1, ← hitem, hsp, hF.stackId, hfl.predecessor _ hlt hpos] at hold
  have hpred : (f.itemType (a.item (a.itemType n.itemTypeId.toNat).stackId
      ((a.itemType n.itemTypeId.toNat).stackPos - 1))).copies
      = (a.itemType (a.item (a.itemType n.itemTypeId.toNat).stackId
      ((a.itemType n.itemTypeId.toNat).stackPos - 1))).copies := by
    by_cases hp : a.item (a.itemType n.itemTypeId.toNat).stackId
      ((a.itemType n.itemTypeId.toNat).stackPos - 1) < a.numberOfItemTypes
    · exact (hfl.items _ hp).copies
    · have o1 : a.itemTypes.length ≤ a.item (a.itemType n.itemTypeId.toNat).stackId
          ((a.itemType n.itemTypeId.toNat).stackPos - 1) := Nat.not_lt.mp hp
      have o2 : f.itemTypes.length ≤ a.item (a.itemType n.itemTypeId.toNat).stackId
          ((a.itemType n.itemTypeId.toNat).stackPos - 1) := by
        have := hfl.numberOfItemTypes
        unfold Instance.numberOfItemTypes at this
        omega
      generalize a.item (a.itemType n.itemTypeId.toNat).stackId
          ((a.itemType n.itemTypeId.toNat).stackPos - 1) = x at o1 o2
      unfold Instance.itemType
      rw [List.getD_eq_default _ _ o1, List.getD_eq_default _ _ o2]
  rw [hpred] at hold
  have htk : itemsOf (first ++ [n])
      = itemsOf (b.nodes.take (base (f.binType b.binTypeId) b.binTypeId + (j + 1)) ++ [N1]) := by
    have t1 : first ++ [n] = b'.nodes.take (base (a.binType b.binTypeId) b.binTypeId + 1 + (j + 1)) := by
      rw [hnodes, show base (a.binType b.binTypeId) b.binTypeId + 1 + (j + 1)
        = first.length + 1 by omega, List.take_append]
      simp
    have t2 : b.nodes.take (base (f.binType b.binTypeId) b.binTypeId + (j + 1)) ++ [N1]
        = b.nodes.take (base (f.binType b.binTypeId) b.binTypeId + 1 + (j + 1)) := by
      rw [hN1]
      unfold nd
      rw [List.getD_eq_getElem?_getD, List.getElem?_eq_getElem hj2,
        show base (f.binType b.binTypeId) b.binTypeId + 1 + (j + 1)
        = base (f.binType b.binTypeId) b.binTypeId + (j + 1) + 1 by omega, List.take_add_one,
        List.getElem?_eq_getElem hj2]
      rfl
    rw [t1, t2]
    exact hb.1.twin.items_take hb.2 (by omega)
  rw [hm1.itemCopies, htk, show b'.copies = b.copies from hb.1.copies, hN1]
  exact hold

end

end PackingSolver.Guil
