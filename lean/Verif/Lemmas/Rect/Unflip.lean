import Verif.Lemmas.Rect.Flip
import Verif.Lemmas.Rect.Reach

/-! Helper lemmas: solutions under an exchange of the axes. -/

namespace PackingSolver.Rect

open Rect.Spec
open PackingSolver.OneDim (getD_mem)

/-! ### The builder accepts -/

theorem addItem_accepts {inst : Instance} (sb : SolutionBuilder) (k i : Nat) (x y : Int) (r : Bool)
    (hk : k < sb.sol.bins.length) (hi : i < inst.numberOfItemTypes)
    (hr : r = true → (inst.itemType i).oriented = false) :
    ∃ sb', sb.addItem inst k i x y r = .ok sb' := by
  unfold SolutionBuilder.addItem
  rw [if_neg (by omega), if_neg (by omega), if_neg]
  · exact ⟨_, rfl⟩
  · cases r
    · simp
    · simp [hr rfl]

theorem Raw.length {inst : Instance} {s : Solution} {p : Packing} (h : Raw inst s p) :
    s.bins.length = p.length := by rw [← h.view]; simp [binsView]

theorem raw_addBin {inst : Instance} {sb sb' : SolutionBuilder} {p : Packing} {t : Nat} {c : Int}
    (hr : Raw inst sb.sol p) (h : sb.addBin inst t c = .ok sb') :
    Raw inst sb'.sol (p ++ [⟨t, c, []⟩]) := raw_step (op := .addBin t c) hr h

theorem raw_addItem {inst : Instance} {sb sb' : SolutionBuilder} {q : Packing} {b : PackedBin}
    {k i : Nat} {x y : Int} {r : Bool} (hr : Raw inst sb.sol (q ++ [b])) (hk : k = q.length)
    (h : sb.addItem inst k i x y r = .ok sb') :
    Raw inst sb'.sol (q ++ [{ b with items := b.items ++ [⟨i, x, y, r⟩] }]) := by
  have := raw_step (op := .addItem k i x y r) hr h
  subst hk
  have e : (q ++ [b]).modify q.length (fun b => { b with items := b.items ++ [⟨i, x, y, r⟩] })
      = q ++ [{ b with items := b.items ++ [⟨i, x, y, r⟩] }] := by
    rw [List.modify_eq_set_getElem?]
    simp
  unfold opStep at this
  dsimp only at this
  rwa [e] at this

namespace FlipLemmas

variable {a f : Instance}

theorem item_width (h : FlippedOf a f) {i : Nat} (hi : i < a.numberOfItemTypes) (r : Bool) :
    (f.itemType i).width r = (a.itemType i).height r := by
  have := h.items i hi
  unfold ItemType.width ItemType.height
  rw [this.x, this.y]

theorem item_height (h : FlippedOf a f) {i : Nat} (hi : i < a.numberOfItemTypes) (r : Bool) :
    (f.itemType i).height r = (a.itemType i).width r := by
  have := h.items i hi
  unfold ItemType.width ItemType.height
  rw [this.x, this.y]

theorem occupies_flip (h : FlippedOf a f) {p : PlacedItem} (hp : p.itemTypeId < a.numberOfItemTypes) :
    occupies a (flipPlaced p) = flipRect (occupies f p) := by
  unfold occupies flipPlaced flipRect
  simp only [item_width h hp, item_height h hp]

theorem separated_flip (r s : Placed) : Separated (flipRect r) (flipRect s) ↔ Separated r s := by
  unfold Separated flipRect
  simp only
  tauto

theorem inside_flip (W H : Int) (r : Placed) : Inside W H (flipRect r) ↔ Inside H W r := by
  unfold Inside flipRect
  simp only
  tauto

theorem flipPlaced_flipPlaced (p : PlacedItem) : flipPlaced (flipPlaced p) = p := rfl

theorem count_flip (l : List PlacedItem) (i : Nat) : count (l.map flipPlaced) i = count l i := by
  unfold count
  rw [List.countP_map]
  rfl

theorem consumption_flip (h : FlippedOf a f) {k : Nat} (hk : k < a.numberOfBinTypes) {r : Nat}
    (hr : r < (a.binType k).resources.length) (l : List PlacedItem) :
    consumption a ((a.binType k).resources.getD r {}) (l.map flipPlaced)
      = consumption f ((f.binType k).resources.getD r {}) l := by
  unfold consumption
  rw [h.numberOfItemTypes]
  congr 1
  apply List.map_congr_left
  intro i _
  rw [count_flip]
  congr 1
  apply List.map_congr_left
  intro c _
  rw [((h.bins k hk).resources r hr).consumption]

theorem penalties_flip (h : FlippedOf a f) {k : Nat} (hk : k < a.numberOfBinTypes)
    (l : List PlacedItem) : penalties a k (l.map flipPlaced) = penalties f k l := by
  unfold penalties
  congr 1
  have hl := (h.bins k hk).numberOfResources
  apply List.ext_getElem
  · simp [hl]
  · intro r h1 h2
    have hr : r < (a.binType k).resources.length := by simpa using h1
    have hr' : r < (f.binType k).resources.length := by omega
    have hs := (h.bins k hk).resources r hr
    have hc := consumption_flip h hk hr l
    simp only [List.getElem_map]
    rw [List.getD_eq_getElem _ _ hr, List.getD_eq_getElem _ _ hr'] at hs hc
    rw [hc, hs.capacity, hs.penalize, hs.penalty]

theorem itemsProfit_flip (h : FlippedOf a f) {l : List PlacedItem}
    (hl : ∀ p ∈ l, p.itemTypeId < a.numberOfItemTypes) :
    itemsProfit a (l.map flipPlaced) = itemsProfit f l := by
  unfold itemsProfit
  rw [List.map_map]
  congr 1
  apply List.map_congr_left
  intro p hp
  exact ((h.items _ (hl p hp)).profit).symm

theorem binWeight_flip (h : FlippedOf a f) {l : List PlacedItem}
    (hl : ∀ p ∈ l, p.itemTypeId < a.numberOfItemTypes) :
    binWeight a (l.map flipPlaced) = binWeight f l := by
  unfold binWeight
  rw [List.map_map]
  congr 1
  apply List.map_congr_left
  intro p hp
  exact ((h.items _ (hl p hp)).weight).symm

theorem wellTyped_flip (h : FlippedOf a f) (p : Packing) :
    WellTyped a (flipPacking p) ↔ WellTyped f p := by
  unfold WellTyped flipPacking
  rw [h.numberOfItemTypes, h.numberOfBinTypes]
  simp only [List.forall_mem_map]
  rfl

theorem map_congr_sum {β : Type} [Add β] [Zero β] {l : List PackedBin} {g g' : PackedBin → β}
    (hg : ∀ b ∈ l, g b = g' b) : (l.map g).sum = (l.map g').sum := by
  rw [List.map_congr_left hg]

/-! ### `unflip_solution` -/

theorem unflip_items {orig : Instance} (l : List PlacedItem) {sb : SolutionBuilder} {q : Packing}
    {b : PackedBin} (hr : Raw orig sb.sol (q ++ [b])) :
    (∀ sb', l.foldlM (fun sb p => sb.addItem orig q.length p.itemTypeId p.y p.x p.rotate) sb
        = .ok sb' →
      Raw orig sb'.sol (q ++ [{ b with items := b.items ++ l.map flipPlaced }]))
    ∧ ((∀ p ∈ l, p.itemTypeId < orig.numberOfItemTypes
        ∧ (p.rotate = true → (orig.itemType p.itemTypeId).oriented = false)) →
      ∃ sb', l.foldlM (fun sb p => sb.addItem orig q.length p.itemTypeId p.y p.x p.rotate) sb
        = .ok sb') := by
  induction l generalizing sb b with
  | nil =>
    refine ⟨fun sb' h => ?_, fun _ => ⟨sb, rfl⟩⟩
    simp only [List.foldlM_nil] at h
    cases h
    simpa using hr
  | cons p l ih =>
    constructor
    · intro sb' h
      obtain ⟨sb1, h1, h2⟩ := foldlM_cons_ok.mp h
      have := (ih (raw_addItem hr rfl h1)).1 sb' h2
      simpa [flipPlaced] using this
    · intro hp
      have hp0 := hp p List.mem_cons_self
      obtain ⟨sb1, h1⟩ := addItem_accepts sb q.length p.itemTypeId p.y p.x p.rotate
        (by rw [hr.length]; simp) hp0.1 hp0.2
      obtain ⟨sb', h2⟩ := (ih (raw_addItem hr rfl h1)).2
        (fun q hq => hp q (List.mem_cons_of_mem _ hq))
      exact ⟨sb', foldlM_cons_ok.mpr ⟨sb1, h1, h2⟩⟩

theorem unflip_bins {orig : Instance} (l : List SolutionBin) {sb : SolutionBuilder} {q : Packing}
    (hr : Raw orig sb.sol q) :
    (∀ sb', l.foldlM (Flipper.unflipBin orig) sb = .ok sb' →
      Raw orig sb'.sol (q ++ flipPacking (binsView l)))
    ∧ (WellTyped orig (binsView l) → (∀ b ∈ l, ∀ p ∈ b.items, p.rotate = true →
        (orig.itemType p.itemTypeId).oriented = false) →
      ∃ sb', l.foldlM (Flipper.unflipBin orig) sb = .ok sb') := by
  induction l generalizing sb q with
  | nil =>
    refine ⟨fun sb' h => ?_, fun _ _ => ⟨sb, rfl⟩⟩
    simp only [List.foldlM_nil] at h
    cases h
    simpa [flipPacking, binsView] using hr
  | cons b l ih =>
    constructor
    · intro sb' h
      obtain ⟨sb1, h1, h2⟩ := foldlM_cons_ok.mp h
      unfold Flipper.unflipBin at h1
      obtain ⟨sb0, h0, h1⟩ := bind_ok.mp h1
      rw [hr.length] at h1
      have hr1 := (unflip_items b.items (raw_addBin hr h0)).1 sb1 h1
      have := (ih hr1).1 sb' h2
      simpa [flipPacking, binsView] using this
    · intro ht hro
      have htb := ht ⟨b.binTypeId, b.copies, b.items⟩ (by simp [binsView])
      obtain ⟨sb0, h0⟩ : ∃ sb0, sb.addBin orig b.binTypeId b.copies = .ok sb0 := by
        unfold SolutionBuilder.addBin
        rw [if_pos htb.1]
        exact ⟨_, rfl⟩
      have hr0 := raw_addBin hr h0
      obtain ⟨sb1, h1⟩ := (unflip_items b.items hr0).2
        (fun p hp => ⟨htb.2 p hp, hro b List.mem_cons_self p hp⟩)
      have hr1 := (unflip_items b.items hr0).1 sb1 h1
      obtain ⟨sb', h2⟩ := (ih hr1).2 (fun c hc => ht c (by
          simp only [binsView, List.map_cons, List.mem_cons] at hc ⊢; exact .inr hc))
        (fun c hc => hro c (List.mem_cons_of_mem _ hc))
      refine ⟨sb', foldlM_cons_ok.mpr ⟨sb1, ?_, h2⟩⟩
      unfold Flipper.unflipBin
      refine bind_ok.mpr ⟨sb0, h0, ?_⟩
      rw [hr.length]
      exact h1

theorem unflip_ops {orig : Instance} (l : List SolutionBin) {sb sb' : SolutionBuilder}
    (h : l.foldlM (Flipper.unflipBin orig) sb = .ok sb') :
    ∃ ops : List BuilderOp, ops.foldlM (SolutionBuilder.step orig) sb = .ok sb' := by
  induction l generalizing sb with
  | nil => exact ⟨[], h⟩
  | cons b l ih =>
    obtain ⟨sb1, h1, h2⟩ := foldlM_cons_ok.mp h
    unfold Flipper.unflipBin at h1
    obtain ⟨sb0, h0, h1⟩ := bind_ok.mp h1
    obtain ⟨ops, ho⟩ := ih h2
    have key : ∀ (l : List PlacedItem) (sb0 : SolutionBuilder) (k : Nat),
        l.foldlM (fun sb p => sb.addItem orig k p.itemTypeId p.y p.x p.rotate) sb0 = .ok sb1 →
        (l.map fun p => BuilderOp.addItem k p.itemTypeId p.y p.x p.rotate).foldlM
          (SolutionBuilder.step orig) sb0 = .ok sb1 := by
      intro l
      induction l with
      | nil => intro sb0 k h; exact h
      | cons p l ih =>
        intro sb0 k h
        obtain ⟨sb2, h2, h3⟩ := foldlM_cons_ok.mp h
        exact foldlM_cons_ok.mpr ⟨sb2, h2, ih sb2 k h3⟩
    refine ⟨.addBin b.binTypeId b.copies :: ((b.items.map fun p =>
      BuilderOp.addItem sb.sol.bins.length p.itemTypeId p.y p.x p.rotate) ++ ops), ?_⟩
    exact foldlM_cons_ok.mpr ⟨sb0, h0, by
      rw [List.foldlM_append]; exact bind_ok.mpr ⟨sb1, key _ _ _ h1, ho⟩⟩

theorem unflip_ok {orig : Instance} {s s' : Solution} (h : Flipper.unflipSolution orig s = .ok s') :
    Good orig s' ∧ packingOf s' = flipPacking (packingOf s)
    ∧ ∃ ops, SolutionBuilder.runOps orig ops = .ok s' := by
  unfold Flipper.unflipSolution at h
  obtain ⟨sb, h1, h2⟩ := bind_ok.mp h
  have hr := (unflip_bins s.bins (raw_new orig)).1 sb h1
  rw [List.nil_append] at hr
  obtain ⟨g, v⟩ := builder_ok hr h2
  obtain ⟨ops, ho⟩ := unflip_ops s.bins h1
  exact ⟨g, v, ops, bind_ok.mpr ⟨sb, ho, h2⟩⟩

end FlipLemmas

end PackingSolver.Rect
