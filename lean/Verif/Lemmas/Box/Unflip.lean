import Verif.Lemmas.Box.Flip
import Verif.Lemmas.Box.Reach
import Verif.Props.Box.Solution

/-! Helper lemmas: box solutions under an exchange of the axes. -/

namespace PackingSolver.Box

open Box.Spec
open PackingSolver.OneDim (getD_mem)

theorem Raw.length {inst : Instance} {s : Solution} {p : Packing} (h : Raw inst s p) :
    s.bins.length = p.length := by rw [← h.view]; simp [binsView]

theorem raw_addBin {inst : Instance} {sb sb' : SolutionBuilder} {p : Packing} {t : Nat} {c : Int}
    (hr : Raw inst sb.sol p) (h : sb.addBin inst t c = .ok sb') :
    Raw inst sb'.sol (p ++ [⟨t, c, []⟩]) := raw_step (op := .addBin t c) hr h

theorem raw_addItem {inst : Instance} {sb sb' : SolutionBuilder} {q : Packing} {b : PackedBin}
    {k i : Nat} {x y z : Int} {r : Rotation} (hr : Raw inst sb.sol (q ++ [b])) (hk : k = q.length)
    (h : sb.addItem inst k i x y z r = .ok sb') :
    Raw inst sb'.sol (q ++ [{ b with items := b.items ++ [⟨i, x, y, z, r⟩] }]) := by
  have := raw_step (op := .addItem k i x y z r) hr h
  subst hk
  have e : (q ++ [b]).modify q.length (fun b => { b with items := b.items ++ [⟨i, x, y, z, r⟩] })
      = q ++ [{ b with items := b.items ++ [⟨i, x, y, z, r⟩] }] := by
    rw [List.modify_eq_set_getElem?]
    simp
  unfold opStep at this
  dsimp only at this
  rwa [e] at this

namespace FlipLemmas

/-- Exchanging twice gives the first rotation back. -/
theorem exchangeRotation_twice (d : Direction) (r : Rotation) :
    exchangeRotation d (exchangeRotation d r) = r := by cases d <;> cases r <;> rfl

theorem exchange_twice (d : Direction) (b : Dims) : exchange d (exchange d b) = b := by
  cases d <;> rfl

theorem rotated_exchange (d : Direction) (b : Dims) (r : Rotation) :
    rotated b (exchangeRotation d r) = exchange d (rotated b r) := by
  cases d <;> cases r <;> rfl

variable {a f : Instance} {d : Direction}

theorem flipPlaced_twice (p : PlacedItem) : flipPlaced d (flipPlaced d p) = p := by
  obtain ⟨i, x, y, z, r⟩ := p
  cases d <;> cases r <;> rfl

theorem occupies_flip (h : FlippedOf d a f) {p : PlacedItem}
    (hp : p.itemTypeId < a.numberOfItemTypes) :
    occupies a (flipPlaced d p) = flipBox d (occupies f p) := by
  obtain ⟨i, x, y, z, r⟩ := p
  unfold occupies flipPlaced flipBox
  simp only [rotated_exchange, (h.items _ hp).box]

theorem separated_flip (r s : Placed) :
    Separated (flipBox d r) (flipBox d s) ↔ Separated r s := by
  cases d <;> simp only [Separated, flipBox, exchange] <;> tauto

theorem inside_flip (b : Dims) (r : Placed) :
    Inside (exchange d b) (flipBox d r) ↔ Inside b r := by
  cases d <;> simp only [Inside, flipBox, exchange] <;> tauto

theorem rotation_flip (h : FlippedOf d a f) {i : Nat} (hi : i < a.numberOfItemTypes)
    (r : Rotation) : exchangeRotation d r ∈ (a.itemType i).rotations
      ↔ r ∈ (f.itemType i).rotations := by
  rw [(h.items i hi).rotations, List.mem_map]
  constructor
  · intro hr
    exact ⟨_, hr, exchangeRotation_twice d r⟩
  · rintro ⟨q, hq, rfl⟩
    rwa [exchangeRotation_twice]

theorem count_flip (l : List PlacedItem) (i : Nat) : count (l.map (flipPlaced d)) i = count l i := by
  unfold count
  rw [List.countP_map]
  rfl

theorem itemsProfit_flip (h : FlippedOf d a f) {l : List PlacedItem}
    (hl : ∀ p ∈ l, p.itemTypeId < a.numberOfItemTypes) :
    itemsProfit a (l.map (flipPlaced d)) = itemsProfit f l := by
  unfold itemsProfit
  rw [List.map_map]
  congr 1
  apply List.map_congr_left
  intro p hp
  exact ((h.items _ (hl p hp)).profit).symm

theorem binWeight_flip (h : FlippedOf d a f) {l : List PlacedItem}
    (hl : ∀ p ∈ l, p.itemTypeId < a.numberOfItemTypes) :
    binWeight a (l.map (flipPlaced d)) = binWeight f l := by
  unfold binWeight
  rw [List.map_map]
  congr 1
  apply List.map_congr_left
  intro p hp
  exact ((h.items _ (hl p hp)).weight).symm

theorem wellTyped_flip (h : FlippedOf d a f) (p : Packing) :
    WellTyped a (flipPacking d p) ↔ WellTyped f p := by
  unfold WellTyped flipPacking
  rw [h.numberOfItemTypes, h.numberOfBinTypes]
  simp only [List.forall_mem_map]
  rfl

theorem map_congr_sum {β : Type} [Add β] [Zero β] {l : List PackedBin} {g g' : PackedBin → β}
    (hg : ∀ b ∈ l, g b = g' b) : (l.map g).sum = (l.map g').sum := by
  rw [List.map_congr_left hg]

/-! ### `unflip_solution` -/

theorem unflipItem_eq (hd : d ≠ .any) (orig : Instance) (k : Nat) (sb : SolutionBuilder)
    (p : PlacedItem) : Flipper.unflipItem orig d k sb p
      = sb.addItem orig k p.itemTypeId (flipPlaced d p).x (flipPlaced d p).y (flipPlaced d p).z
          (flipPlaced d p).rotation := by
  unfold Flipper.unflipItem
  rw [flippedRotation_eq hd]
  cases d
  · rfl
  · rfl
  · rfl
  · exact absurd rfl hd

theorem unflip_items (hd : d ≠ .any) {orig : Instance} (l : List PlacedItem) {sb : SolutionBuilder} {q : Packing}
    {b : PackedBin} (hr : Raw orig sb.sol (q ++ [b])) :
    (∀ sb', l.foldlM (Flipper.unflipItem orig d q.length) sb
        = .ok sb' →
      Raw orig sb'.sol (q ++ [{ b with items := b.items ++ l.map (flipPlaced d) }]))
    ∧ ((∀ p ∈ l, p.itemTypeId < orig.numberOfItemTypes
        ∧ (flipPlaced d p).rotation ∈ (orig.itemType p.itemTypeId).rotations) →
      ∃ sb', l.foldlM (Flipper.unflipItem orig d q.length) sb
        = .ok sb') := by
  induction l generalizing sb b with
  | nil =>
    refine ⟨fun sb' h => ?_, fun _ => ⟨sb, rfl⟩⟩
    simp only [List.foldlM_nil] at h
    cases h
    simpa using hr
  | cons p l ih =>
    constructor
    · intro sb' h
      obtain ⟨sb1, h1, h2⟩ := foldlM_cons_ok.mp h
      rw [unflipItem_eq hd] at h1
      have := (ih (raw_addItem hr rfl h1)).1 sb' h2
      have e : (⟨p.itemTypeId, (flipPlaced d p).x, (flipPlaced d p).y, (flipPlaced d p).z,
          (flipPlaced d p).rotation⟩ : PlacedItem) = flipPlaced d p := rfl
      rw [e] at this
      simpa using this
    · intro hp
      have hp0 := hp p List.mem_cons_self
      obtain ⟨sb1, h1⟩ := builder_accepts sb q.length p.itemTypeId
        (flipPlaced d p).x (flipPlaced d p).y (flipPlaced d p).z (flipPlaced d p).rotation
        (by rw [hr.length]; simp) hp0.1 hp0.2
      obtain ⟨sb', h2⟩ := (ih (raw_addItem hr rfl h1)).2
        (fun q hq => hp q (List.mem_cons_of_mem _ hq))
      exact ⟨sb', foldlM_cons_ok.mpr ⟨sb1, (unflipItem_eq hd _ _ _ _).trans h1, h2⟩⟩

theorem unflip_bins (hd : d ≠ .any) {orig : Instance} (l : List SolutionBin) {sb : SolutionBuilder} {q : Packing}
    (hr : Raw orig sb.sol q) :
    (∀ sb', l.foldlM (Flipper.unflipBin orig d) sb = .ok sb' →
      Raw orig sb'.sol (q ++ flipPacking d (binsView l)))
    ∧ (WellTyped orig (binsView l) → (∀ b ∈ l, ∀ p ∈ b.items, 
        (flipPlaced d p).rotation ∈ (orig.itemType p.itemTypeId).rotations) →
      ∃ sb', l.foldlM (Flipper.unflipBin orig d) sb = .ok sb') := by
  induction l generalizing sb q with
  | nil =>
    refine ⟨fun sb' h => ?_, fun _ _ => ⟨sb, rfl⟩⟩
    simp only [List.foldlM_nil] at h
    cases h
    simpa [flipPacking, binsView] using hr
  | cons b l ih =>
    constructor
    · intro sb' h
      obtain ⟨sb1, h1, h2⟩ := foldlM_cons_ok.mp h
      unfold Flipper.unflipBin at h1
      obtain ⟨sb0, h0, h1⟩ := bind_ok.mp h1
      rw [hr.length] at h1
      have hr1 := (unflip_items hd b.items (raw_addBin hr h0)).1 sb1 h1
      have := (ih hr1).1 sb' h2
      simpa [flipPacking, binsView] using this
    · intro ht hro
      have htb := ht ⟨b.binTypeId, b.copies, b.items⟩ (by simp [binsView])
      obtain ⟨sb0, h0⟩ : ∃ sb0, sb.addBin orig b.binTypeId b.copies = .ok sb0 := by
        unfold SolutionBuilder.addBin
        rw [if_pos htb.1]
        exact ⟨_, rfl⟩
      have hr0 := raw_addBin hr h0
      obtain ⟨sb1, h1⟩ := (unflip_items hd b.items hr0).2
        (fun p hp => ⟨htb.2 p hp, hro b List.mem_cons_self p hp⟩)
      have hr1 := (unflip_items hd b.items hr0).1 sb1 h1
      obtain ⟨sb', h2⟩ := (ih hr1).2 (fun c hc => ht c (by
          simp only [binsView, List.map_cons, List.mem_cons] at hc ⊢; exact .inr hc))
        (fun c hc => hro c (List.mem_cons_of_mem _ hc))
      refine ⟨sb', foldlM_cons_ok.mpr ⟨sb1, ?_, h2⟩⟩
      unfold Flipper.unflipBin
      refine bind_ok.mpr ⟨sb0, h0, ?_⟩
      rw [hr.length]
      exact h1

theorem unflip_ops (hd : d ≠ .any) {orig : Instance} (l : List SolutionBin) {sb sb' : SolutionBuilder}
    (h : l.foldlM (Flipper.unflipBin orig d) sb = .ok sb') :
    ∃ ops : List BuilderOp, ops.foldlM (SolutionBuilder.step orig) sb = .ok sb' := by
  induction l generalizing sb with
  | nil => exact ⟨[], h⟩
  | cons b l ih =>
    obtain ⟨sb1, h1, h2⟩ := foldlM_cons_ok.mp h
    unfold Flipper.unflipBin at h1
    obtain ⟨sb0, h0, h1⟩ := bind_ok.mp h1
    obtain ⟨ops, ho⟩ := ih h2
    have key : ∀ (l : List PlacedItem) (sb0 : SolutionBuilder) (k : Nat),
        l.foldlM (Flipper.unflipItem orig d k) sb0 = .ok sb1 →
        (l.map fun p => BuilderOp.addItem k p.itemTypeId (flipPlaced d p).x (flipPlaced d p).y
          (flipPlaced d p).z (flipPlaced d p).rotation).foldlM
          (SolutionBuilder.step orig) sb0 = .ok sb1 := by
      intro l
      induction l with
      | nil => intro sb0 k h; exact h
      | cons p l ih =>
        intro sb0 k h
        obtain ⟨sb2, h2, h3⟩ := foldlM_cons_ok.mp h
        exact foldlM_cons_ok.mpr ⟨sb2, (unflipItem_eq hd _ _ _ _).symm.trans h2, ih sb2 k h3⟩
    refine ⟨.addBin b.binTypeId b.copies :: ((b.items.map fun p =>
      BuilderOp.addItem sb.sol.bins.length p.itemTypeId (flipPlaced d p).x (flipPlaced d p).y
        (flipPlaced d p).z (flipPlaced d p).rotation) ++ ops), ?_⟩
    exact foldlM_cons_ok.mpr ⟨sb0, h0, by
      rw [List.foldlM_append]; exact bind_ok.mpr ⟨sb1, key _ _ _ h1, ho⟩⟩

theorem unflip_ok (hd : d ≠ .any) {orig : Instance} {s s' : Solution}
    (h : Flipper.unflipSolution orig d s = .ok s') :
    Good orig s' ∧ packingOf s' = flipPacking d (packingOf s)
    ∧ ∃ ops, SolutionBuilder.runOps orig ops = .ok s' := by
  unfold Flipper.unflipSolution at h
  obtain ⟨sb, h1, h2⟩ := bind_ok.mp h
  have hr := (unflip_bins hd s.bins (raw_new orig)).1 sb h1
  rw [List.nil_append] at hr
  obtain ⟨g, v, -⟩ := builder_ok hr h2
  obtain ⟨ops, ho⟩ := unflip_ops hd s.bins h1
  exact ⟨g, v, ops, bind_ok.mpr ⟨sb, ho, h2⟩⟩

end FlipLemmas

end PackingSolver.Box
