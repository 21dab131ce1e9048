import Verif.Lemmas.Guil.Sparse
import Verif.Lemmas.Guil.Table
import Verif.Lemmas.Guil.InstStacks

/-!
# Invariants of the block search: every block is a pattern
-/

namespace PackingSolver.Guil

open Guil.Spec

/-- How a block was made from the returned blocks. -/
inductive BuiltBlock (inst : Instance) (t : Int) (ret : List Block) : Block → Prop where
  | simple {b : Block} {id : Nat} {rot : Bool} {it : ItemType}
      (hc : b.content = .simple id rot) (hit : inst.itemTypes[id]? = some it)
      (hrot : rot = true → it.oriented = false)
      (hw : b.w = if rot then it.h else it.w) (hh : b.h = if rot then it.w else it.h)
      (hp : b.profit = it.profit) (hcp : b.itemCopies = [(id, 1)]) (hco : 1 ≤ it.copies) :
      BuiltBlock inst t ret b
  | pair {b p1 p2 : Block} {i j : Nat} (hc : b.content = .pair i j)
      (h1 : ret[i]? = some p1) (h2 : ret[j]? = some p2)
      (b1 : BuiltBlock inst t ret p1) (b2 : BuiltBlock inst t ret p2)
      (hd : (b.firstCutOrientation = .vertical ∧ b.w = p1.w + p2.w + t ∧ b.h = max p1.h p2.h)
        ∨ (b.firstCutOrientation = .horizontal ∧ b.w = max p1.w p2.w ∧ b.h = p1.h + p2.h + t))
      (hp : b.profit = p1.profit + p2.profit)
      (hcp : b.itemCopies = mergeCopies p1.itemCopies p2.itemCopies)
      (hv : b.itemCopies.all (copiesOk inst) = true) : BuiltBlock inst t ret b

/-- Item types have positive sides. -/
def PosItems (inst : Instance) : Prop := ∀ it ∈ inst.itemTypes, 0 < it.w ∧ 0 < it.h

section
variable {inst : Instance} {t : Int} {ret : List Block} {b : Block}

theorem BuiltBlock.mono (h : BuiltBlock inst t ret b) (x : List Block) : BuiltBlock inst t (ret ++ x) b := by
  induction h with
  | simple hc hit hrot hw hh hp hcp hco => exact .simple hc hit hrot hw hh hp hcp hco
  | pair hc h1 h2 _ _ hd hp hcp hv ih1 ih2 =>
    refine .pair hc ?_ ?_ ih1 ih2 hd hp hcp hv
    · rw [List.getElem?_append_left (List.getElem?_eq_some_iff.mp h1).1]; exact h1
    · rw [List.getElem?_append_left (List.getElem?_eq_some_iff.mp h2).1]; exact h2

theorem itemType_of_some {id : Nat} {it : ItemType} (h : inst.itemTypes[id]? = some it) :
    inst.itemType id = it := by
  unfold Instance.itemType
  rw [List.getD_eq_getElem?_getD, h]
  rfl

theorem BuiltBlock.pos (hpos : PosItems inst) (ht : 0 ≤ t) (h : BuiltBlock inst t ret b) :
    0 < b.w ∧ 0 < b.h := by
  induction h with
  | simple hc hit hrot hw hh hp hcp hco =>
    have := hpos _ (List.mem_of_getElem? hit)
    rw [hw, hh]
    split <;> omega
  | pair hc h1 h2 _ _ hd hp hcp hv ih1 ih2 =>
    rcases hd with ⟨_, hw, hh⟩ | ⟨_, hw, hh⟩ <;> rw [hw, hh] <;> omega

theorem BuiltBlock.copies (h : BuiltBlock inst t ret b) :
    Canonical b.itemCopies ∧ b.profit = profitOf inst b.itemCopies
      ∧ b.itemCopies.all (copiesOk inst) = true := by
  induction h with
  | simple hc hit hrot hw hh hp hcp hco =>
    rw [hcp]
    refine ⟨canonical_single _, ?_, ?_⟩
    · rw [hp, profitOf_cons, itemType_of_some hit]
      simp [profitOf]
    · simp only [List.all_cons, List.all_nil, Bool.and_true]
      unfold copiesOk
      dsimp only
      rw [itemType_of_some hit]
      exact decide_eq_true hco
  | pair hc h1 h2 _ _ hd hp hcp hv ih1 ih2 =>
    refine ⟨?_, ?_, hv⟩
    · rw [hcp]; exact canonical_merge _ _ ih1.1 ih2.1
    · rw [hcp, profitOf_merge, hp, ih1.2.1, ih2.2.1]

/-- A pattern of a box gives one of any larger box. -/
theorem fits_enlarge {items : List ItemType} {p : Pattern} {w h w' h' : Int}
    (_ht : 0 ≤ t) (hw : 0 < w) (hh : 0 < h) (hww : w ≤ w') (hhh : h ≤ h')
    (hf : p.Fits items t w h) :
    ∃ p' : Pattern, p'.Fits items t w' h' ∧ p'.profit items = p.profit items
      ∧ ∀ i, p'.count i = p.count i := by
  have h1 : ∃ p' : Pattern, p'.Fits items t w' h ∧ p'.profit items = p.profit items
      ∧ ∀ i, p'.count i = p.count i := by
    by_cases e : w = w'
    · subst e; exact ⟨p, hf, rfl, fun _ => rfl⟩
    · refine ⟨.vertical w p .waste, ⟨hw, by omega, hf, ?_⟩, by simp [Pattern.profit],
        fun i => by simp [Pattern.count]⟩
      by_cases hc : w + t < w'
      · exact Or.inl ⟨hc, trivial⟩
      · exact Or.inr ⟨by omega, rfl⟩
  obtain ⟨p1, f1, e1, c1⟩ := h1
  by_cases e : h = h'
  · subst e; exact ⟨p1, f1, e1, c1⟩
  · refine ⟨.horizontal h p1 .waste, ⟨hh, by omega, f1, ?_⟩, by simp [Pattern.profit, e1],
      fun i => by simp [Pattern.count, c1]⟩
    by_cases hc : h + t < h'
    · exact Or.inl ⟨hc, trivial⟩
    · exact Or.inr ⟨by omega, rfl⟩

/-- Every block is a pattern of its box. -/
theorem BuiltBlock.pattern (hpos : PosItems inst) (ht : 0 ≤ t) (h : BuiltBlock inst t ret b) :
    ∃ p : Pattern, p.Fits inst.itemTypes t b.w b.h ∧ p.profit inst.itemTypes = b.profit
      ∧ ∀ i, (p.count i : Int) = sparseCount b.itemCopies i := by
  induction h with
  | simple hc hit hrot hw hh hp hcp hco =>
    rename_i b id rot it
    refine ⟨.item id rot, ⟨it, hit, ?_⟩, ?_, ?_⟩
    · rw [hw, hh]
      cases rot with
      | false => simp
      | true => simp [hrot rfl]
    · simp only [Pattern.profit]
      rw [List.getD_eq_getElem?_getD, hit, hp]
      rfl
    · intro i
      rw [hcp]
      simp only [Pattern.count, sparseCount, List.map_cons, List.map_nil, List.sum_cons, List.sum_nil]
      split <;> rfl
  | @pair b q1 q2 i j hc h1 h2 hb1 hb2 hd hp hcp hv ih1 ih2 =>
    obtain ⟨p1, f1, e1, c1⟩ := ih1
    obtain ⟨p2, f2, e2, c2⟩ := ih2
    have pos1 := hb1.pos hpos ht
    have pos2 := hb2.pos hpos ht
    rcases hd with ⟨_, hw, hh⟩ | ⟨_, hw, hh⟩
    · obtain ⟨p1', f1', e1', c1'⟩ := fits_enlarge ht pos1.1 pos1.2 (le_refl q1.w)
        (le_max_left q1.h q2.h) f1
      obtain ⟨p2', f2', e2', c2'⟩ := fits_enlarge ht pos2.1 pos2.2 (le_refl q2.w)
        (le_max_right q1.h q2.h) f2
      refine ⟨.vertical q1.w p1' p2', ?_, ?_, ?_⟩
      · rw [hw, hh]
        refine ⟨pos1.1, by omega, f1', Or.inl ⟨by omega, ?_⟩⟩
        rw [show q1.w + q2.w + t - q1.w - t = q2.w by omega]
        exact f2'
      · simp only [Pattern.profit]
        rw [e1', e2', e1, e2, hp]
      · intro i
        rw [hcp, sparseCount_merge, ← c1, ← c2]
        simp only [Pattern.count]
        rw [c1', c2']
        push_cast
        rfl
    · obtain ⟨p1', f1', e1', c1'⟩ := fits_enlarge ht pos1.1 pos1.2 (le_max_left q1.w q2.w)
        (le_refl q1.h) f1
      obtain ⟨p2', f2', e2', c2'⟩ := fits_enlarge ht pos2.1 pos2.2 (le_max_right q1.w q2.w)
        (le_refl q2.h) f2
      refine ⟨.horizontal q1.h p1' p2', ?_, ?_, ?_⟩
      · rw [hw, hh]
        refine ⟨pos1.2, by omega, f1', Or.inl ⟨by omega, ?_⟩⟩
        rw [show q1.h + q2.h + t - q1.h - t = q2.h by omega]
        exact f2'
      · simp only [Pattern.profit]
        rw [e1', e2', e1, e2, hp]
      · intro i
        rw [hcp, sparseCount_merge, ← c1, ← c2]
        simp only [Pattern.count]
        rw [c1', c2']
        push_cast
        rfl

end

/-! ## The state of the search -/

/-- A block of the search. -/
def BlockOk (c : HyperContext) (ret : List Block) (b : Block) : Prop :=
  BuiltBlock c.inst c.t ret b ∧ b.w ≤ c.effW ∧ b.h ≤ c.effH

/-- The block waits in some bucket. -/
def Waiting (s : Search) (b : Block) : Prop := ∃ k, b ∈ s.buckets.getD k []

/-- What holds at every moment of the search. -/
structure SInv (c : HyperContext) (s : Search) : Prop where
  returned : ∀ b ∈ s.returned, BlockOk c s.returned b
  waiting : ∀ b, Waiting s b → BlockOk c s.returned b
  reported : ∀ b ∈ s.reported, BlockOk c s.returned b
  increasing : s.reported.Pairwise fun a b => a.profit < b.profit
  le_best : ∀ b ∈ s.reported, 0 < b.profit ∧ b.profit ≤ s.best
  best : (s.reported = [] ∧ s.best = 0) ∨ ∃ b, s.reported.getLast? = some b ∧ b.profit = s.best
  size : s.buckets.length = c.bk.count

theorem SInv.best_nonneg {c : HyperContext} {s : Search} (h : SInv c s) : 0 ≤ s.best := by
  rcases h.best with ⟨_, e⟩ | ⟨b, hb, e⟩
  · rw [e]
  · rw [← e]
    exact (h.le_best b (List.mem_of_getLast? hb)).1.le

section
variable {c : HyperContext} {s : Search} {b : Block}

theorem sinv_report (h : SInv c s) (hb : BlockOk c s.returned b) : SInv c (s.report b) := by
  unfold Search.report
  by_cases hp : b.profit > s.best
  · rw [if_pos hp]
    have h0 := h.best_nonneg
    refine ⟨h.returned, h.waiting, ?_, ?_, ?_, Or.inr ⟨b, by simp, rfl⟩, h.size⟩
    · intro x hx
      rcases List.mem_append.mp hx with hx | hx
      · exact h.reported x hx
      · rw [List.mem_singleton.mp hx]; exact hb
    · refine List.pairwise_append.mpr ⟨h.increasing, List.pairwise_singleton _ _, ?_⟩
      intro x hx y hy
      rw [List.mem_singleton.mp hy]
      exact lt_of_le_of_lt (h.le_best x hx).2 hp
    · intro x hx
      show 0 < x.profit ∧ x.profit ≤ b.profit
      rcases List.mem_append.mp hx with hx | hx
      · exact ⟨(h.le_best x hx).1, le_trans (h.le_best x hx).2 (le_of_lt hp)⟩
      · rw [List.mem_singleton.mp hx]
        exact ⟨lt_of_le_of_lt h0 hp, le_refl _⟩
  · rw [if_neg hp]; exact h

theorem report_fields (s : Search) (b : Block) :
    (s.report b).buckets = s.buckets ∧ (s.report b).seen = s.seen
      ∧ (s.report b).returned = s.returned ∧ s.best ≤ (s.report b).best
      ∧ b.profit ≤ (s.report b).best ∧ (s.report b).ticks = s.ticks := by
  unfold Search.report
  by_cases hp : b.profit > s.best
  · rw [if_pos hp]
    exact ⟨rfl, rfl, rfl, le_of_lt hp, le_refl _, rfl⟩
  · rw [if_neg hp]
    exact ⟨rfl, rfl, rfl, le_refl _, not_lt.mp hp, rfl⟩

theorem mem_push {x : Block} {k : Nat} (s : Search) (b : Block)
    (hx : x ∈ (s.push c.bk b).buckets.getD k []) :
    x ∈ s.buckets.getD k [] ∨ (x = b ∧ k = c.bk.index b.priority) := by
  unfold Search.push at hx
  dsimp only at hx
  rw [getD_modify_ite] at hx
  by_cases e : c.bk.index b.priority = k ∧ k < s.buckets.length
  · rw [if_pos e] at hx
    rcases List.mem_cons.mp hx with rfl | hx
    · exact Or.inr ⟨rfl, e.1.symm⟩
    · exact Or.inl hx
  · rw [if_neg e] at hx
    exact Or.inl hx

theorem mem_push_old {x : Block} {k : Nat} (s : Search) (b : Block)
    (hx : x ∈ s.buckets.getD k []) : x ∈ (s.push c.bk b).buckets.getD k [] := by
  unfold Search.push
  dsimp only
  rw [List.getD_eq_getElem?_getD] at hx ⊢
  rw [List.getElem?_modify]
  cases hk : s.buckets[k]? with
  | none => rw [hk] at hx; exact absurd hx (by simp)
  | some l =>
    rw [hk] at hx
    split <;> simp_all

theorem mem_push_new (s : Search) (b : Block) (hlt : c.bk.index b.priority < s.buckets.length) :
    b ∈ (s.push c.bk b).buckets.getD (c.bk.index b.priority) [] := by
  unfold Search.push
  dsimp only
  rw [List.getD_eq_getElem?_getD, List.getElem?_modify, List.getElem?_eq_getElem hlt]
  simp

theorem sinv_push (h : SInv c s) (hb : BlockOk c s.returned b) : SInv c (s.push c.bk b) := by
  refine ⟨h.returned, ?_, h.reported, h.increasing, h.le_best, h.best, ?_⟩
  · rintro x ⟨k, hx⟩
    rcases mem_push s b hx with hx | ⟨rfl, _⟩
    · exact h.waiting x ⟨k, hx⟩
    · exact hb
  · show (s.buckets.modify _ _).length = _
    rw [List.length_modify]; exact h.size

theorem mem_pop {x : Block} {k j : Nat} (s : Search) (hx : x ∈ (s.pop k).buckets.getD j []) :
    x ∈ s.buckets.getD j [] := by
  unfold Search.pop at hx
  dsimp only at hx
  rw [List.getD_eq_getElem?_getD, List.getElem?_modify] at hx
  rw [List.getD_eq_getElem?_getD]
  cases hk : s.buckets[j]? with
  | none => rw [hk] at hx; exact absurd hx (by simp)
  | some l =>
    rw [hk] at hx
    by_cases e : k = j
    · simp only [e, if_true, Option.getD_some] at hx ⊢
      exact List.mem_of_mem_tail hx
    · simpa [e] using hx

theorem mem_pop_or {x y : Block} {k j : Nat} {l : List Block} (s : Search)
    (hk : s.buckets.getD k [] = y :: l) (hx : x ∈ s.buckets.getD j []) :
    x = y ∨ x ∈ (s.pop k).buckets.getD j [] := by
  unfold Search.pop
  dsimp only
  rw [List.getD_eq_getElem?_getD] at hk hx ⊢
  rw [List.getElem?_modify]
  by_cases e : k = j
  · subst e
    rw [hk] at hx
    cases hl : s.buckets[k]? with
    | none => rw [hl] at hk; cases hk
    | some l' =>
      rw [hl] at hk
      simp only [Option.getD_some] at hk
      subst hk
      rcases List.mem_cons.mp hx with rfl | hx
      · exact Or.inl rfl
      · right; simpa using hx
  · right
    simpa [e] using hx

theorem sinv_pop (h : SInv c s) (k : Nat) : SInv c (s.pop k) := by
  refine ⟨h.returned, ?_, h.reported, h.increasing, h.le_best, h.best, ?_⟩
  · rintro x ⟨j, hx⟩
    exact h.waiting x ⟨j, mem_pop s hx⟩
  · show (s.buckets.modify _ _).length = _
    rw [List.length_modify]; exact h.size

theorem sinv_tick (h : SInv c s) : SInv c s.tick :=
  ⟨h.returned, h.waiting, h.reported, h.increasing, h.le_best, h.best, h.size⟩

theorem sinv_accept (h : SInv c s) (hb : BlockOk c s.returned b) : SInv c (s.accept b) := by
  have mono : ∀ x, BlockOk c s.returned x → BlockOk c (s.accept b).returned x :=
    fun x hx => ⟨hx.1.mono [b], hx.2⟩
  refine ⟨?_, fun x hx => mono x (h.waiting x hx), fun x hx => mono x (h.reported x hx),
    h.increasing, h.le_best, h.best, h.size⟩
  intro x hx
  rcases List.mem_append.mp hx with hx | hx
  · exact mono x (h.returned x hx)
  · rw [List.mem_singleton.mp hx]; exact mono b hb

/-! ## Seeds -/

/-- The entry of the table of completions. -/
def HyperContext.R (c : HyperContext) (w h : Int) : WithBot ℚ := entry ⊥ c.effW c.rdp w h

/-- What the search needs of its context. -/
structure CtxOk (c : HyperContext) : Prop where
  width : 0 < c.effW
  height : 0 < c.effH
  thickness : 0 ≤ c.t
  table : IsTable c.effW c.effH c.rdp
  items : PosItems c.inst

theorem read_R (hc : CtxOk c) {w h : Int} (hw : 0 < w) (hwW : w ≤ c.effW) (hh : 0 < h)
    (hhH : h ≤ c.effH) : tableRead c.rdp c.effW w h = .ok (c.R w h) :=
  read_ok ⊥ hc.table ⟨hw.le, hwW, hh.le, hhH⟩

/-- A block that is reported, then queued if its priority is still good enough. -/
def seedWith (c : HyperContext) (it : ItemType) (id : Nat) (rotate : Bool) (s : Search) :
    WithBot ℚ → Search
  | none => s
  | some v =>
    if it.profit + v ≤ s.best then s
    else
      let block := seedBlock it id rotate (it.profit + v)
      if block.priority > (s.report block).best then (s.report block).push c.bk block
      else s.report block

/-- A rotation of an item type that is considered by the seed loop. -/
def SeedFits (c : HyperContext) (it : ItemType) (rotate : Bool) : Prop :=
  ¬ (rotate = true ∧ it.oriented = true) ∧ ¬ (rotate = true ∧ it.w = it.h)
  ∧ (if rotate then it.h else it.w) ≤ c.effW ∧ (if rotate then it.w else it.h) ≤ c.effH

theorem seedRotation_eq (hc : CtxOk c) {id : Nat} {it : ItemType}
    (hit : c.inst.itemTypes[id]? = some it) (rotate : Bool) (s : Search) :
    (SeedFits c it rotate ∧ seedRotation c id rotate s = .ok (seedWith c it id rotate s
        (c.R (if rotate then it.h else it.w) (if rotate then it.w else it.h))))
    ∨ (¬ SeedFits c it rotate ∧ seedRotation c id rotate s = .ok s) := by
  have hpos := hc.items _ (List.mem_of_getElem? hit)
  unfold seedRotation SeedFits
  rw [itemType_of_some hit]
  dsimp only
  by_cases h1 : rotate = true ∧ it.oriented = true
  · rw [if_pos h1]; exact Or.inr ⟨fun h => h.1 h1, rfl⟩
  · rw [if_neg h1]
    by_cases h2 : rotate = true ∧ it.w = it.h
    · rw [if_pos h2]; exact Or.inr ⟨fun h => h.2.1 h2, rfl⟩
    · rw [if_neg h2]
      generalize hw : (if rotate then it.h else it.w) = w
      generalize hh : (if rotate then it.w else it.h) = h
      have hw0 : 0 < w := by rw [← hw]; split <;> omega
      have hh0 : 0 < h := by rw [← hh]; split <;> omega
      by_cases h3 : w > c.effW ∨ h > c.effH
      · rw [if_pos h3]; exact Or.inr ⟨fun h => by omega, rfl⟩
      · rw [if_neg h3]
        refine Or.inl ⟨⟨h1, h2, by omega, by omega⟩, ?_⟩
        rw [read_R hc hw0 (by omega) hh0 (by omega)]
        show (match c.R w h with | none => _ | some v => _) = _
        unfold seedWith
        cases c.R w h with
        | bot => rfl
        | coe v =>
          show (if it.profit + v ≤ s.best then _ else _) = _
          by_cases h4 : it.profit + v ≤ s.best
          · rw [if_pos h4]; simp only [if_pos h4]
          · rw [if_neg h4]; simp only [if_neg h4]

theorem sinv_seedWith (h : SInv c s) {it : ItemType} {id : Nat} {rotate : Bool}
    (hb : ∀ p, BlockOk c s.returned (seedBlock it id rotate p)) (r : WithBot ℚ) :
    SInv c (seedWith c it id rotate s r) := by
  unfold seedWith
  cases r with
  | bot => exact h
  | coe v =>
    show SInv c (if it.profit + v ≤ s.best then _ else _)
    by_cases h1 : it.profit + v ≤ s.best
    · rw [if_pos h1]; exact h
    · rw [if_neg h1]
      have h2 := sinv_report h (hb (it.profit + v))
      dsimp only
      split
      · refine sinv_push h2 ?_
        rw [(report_fields s _).2.2.1]
        exact hb _
      · exact h2

theorem seed_ok {id : Nat} {it : ItemType} (ret : List Block)
    (hit : c.inst.itemTypes[id]? = some it) {rotate : Bool} (hf : SeedFits c it rotate)
    (hco : 1 ≤ it.copies) (p : ℚ) : BlockOk c ret (seedBlock it id rotate p) := by
  refine ⟨.simple rfl hit ?_ rfl rfl rfl rfl hco, hf.2.2.1, hf.2.2.2⟩
  intro e
  cases ho : it.oriented with
  | false => rfl
  | true => exact absurd ⟨e, ho⟩ hf.1

theorem sinv_seedRotation (hc : CtxOk c) (h : SInv c s) {id : Nat} {it : ItemType}
    (hit : c.inst.itemTypes[id]? = some it) (hco : 1 ≤ it.copies) (rotate : Bool) :
    ∃ s', seedRotation c id rotate s = .ok s' ∧ SInv c s' := by
  rcases seedRotation_eq hc hit rotate s with ⟨hf, e⟩ | ⟨_, e⟩
  · exact ⟨_, e, sinv_seedWith h (fun p => seed_ok _ hit hf hco p) _⟩
  · exact ⟨_, e, h⟩

theorem item_some {c : HyperContext} {id : Nat} (hid : id < c.inst.numberOfItemTypes) :
    ∃ it, c.inst.itemTypes[id]? = some it :=
  ⟨_, List.getElem?_eq_getElem hid⟩

theorem sinv_seedItem (hc : CtxOk c) (h : SInv c s) {id : Nat}
    (hid : id < c.inst.numberOfItemTypes) : ∃ s', seedItem c s id = .ok s' ∧ SInv c s' := by
  obtain ⟨it, hit⟩ := item_some hid
  unfold seedItem
  rw [itemType_of_some hit]
  by_cases h1 : it.copies < 1
  · rw [if_pos h1]; exact ⟨s, rfl, h⟩
  · rw [if_neg h1]
    obtain ⟨s1, e1, i1⟩ := sinv_seedRotation hc h hit (by omega) false
    obtain ⟨s2, e2, i2⟩ := sinv_seedRotation hc i1 hit (by omega) true
    exact ⟨s2, by rw [e1]; exact e2, i2⟩

theorem sinv_seedAll (hc : CtxOk c) (h : SInv c s) : ∃ s', seedAll c s = .ok s' ∧ SInv c s' := by
  unfold seedAll
  exact foldlM_range_ok (P := fun _ s => SInv c s) h
    (fun k a hk ha => sinv_seedItem hc ha hk)

/-! ## Combinations -/

/-- The priority of a combination. -/
def HyperContext.prio (c : HyperContext) (profit : ℚ) (w h : Int) : WithBot ℚ :=
  if w ≤ c.effW ∧ h ≤ c.effH then (profit : WithBot ℚ) + c.R w h else ((-1 : ℚ) : WithBot ℚ)

theorem combinedPriority_eq (hc : CtxOk c) (profit : ℚ) {w h : Int} (hw : 0 < w) (hh : 0 < h) :
    combinedPriority c profit w h = .ok (c.prio profit w h) := by
  unfold combinedPriority HyperContext.prio
  by_cases h1 : w ≤ c.effW ∧ h ≤ c.effH
  · rw [if_pos h1, if_pos h1, read_R hc hw h1.1 hh h1.2]
    rfl
  · rw [if_neg h1, if_neg h1]

theorem addCombined_le {mk : ℚ → Block} {p : WithBot ℚ} (hp : p ≤ (s.best : WithBot ℚ)) :
    addCombined c s mk p = s := by
  cases p with
  | bot => rfl
  | coe q =>
    show (if q > s.best then _ else _) = _
    rw [if_neg (not_lt.mpr (WithBot.coe_le_coe.mp hp))]

theorem addCombined_gt {mk : ℚ → Block} {q : ℚ} (hq : s.best < q) :
    addCombined c s mk (q : WithBot ℚ) = (s.report (mk q)).push c.bk (mk q) := by
  show (if q > s.best then _ else _) = _
  rw [if_pos hq]

theorem addCombined_cases (s : Search) (mk : ℚ → Block) (p : WithBot ℚ) :
    (p ≤ (s.best : WithBot ℚ) ∧ addCombined c s mk p = s)
    ∨ ∃ q : ℚ, p = q ∧ s.best < q
      ∧ addCombined c s mk p = (s.report (mk q)).push c.bk (mk q) := by
  rcases le_or_gt p (s.best : WithBot ℚ) with h | h
  · exact Or.inl ⟨h, addCombined_le h⟩
  · cases p with
    | bot => exact absurd h (by simp)
    | coe q =>
      have hq : s.best < q := WithBot.coe_lt_coe.mp h
      exact Or.inr ⟨q, rfl, hq, addCombined_gt hq⟩

/-- The two combinations of two blocks. -/
def addBoth (c : HyperContext) (b e : Block) (i j : Nat) (s : Search) : Search :=
  addCombined c (addCombined c s (verticalBlock c.t b e i j)
      (c.prio (b.profit + e.profit) (b.w + e.w + c.t) (max b.h e.h)))
    (horizontalBlock c.t b e i j)
    (c.prio (b.profit + e.profit) (max b.w e.w) (b.h + e.h + c.t))

theorem combineWith_eq (hc : CtxOk c) {i j : Nat} {e : Block} (he : s.returned[j]? = some e)
    (hb : 0 < b.w ∧ 0 < b.h) (hep : 0 < e.w ∧ 0 < e.h) :
    combineWith c b i s j = .ok (if validCopies c.inst b.itemCopies e.itemCopies = true
      then addBoth c b e i j s else s) := by
  have ht := hc.thickness
  unfold combineWith
  have hd : s.returned.getD j default = e := by
    rw [List.getD_eq_getElem?_getD, he]; rfl
  rw [hd]
  dsimp only
  rw [combinedPriority_eq hc _ (by omega) (by omega), combinedPriority_eq hc _ (by omega) (by omega)]
  show (if _ ∧ _ then (Except.ok s : Except Err Search) else _) = _
  by_cases h1 : c.prio (b.profit + e.profit) (b.w + e.w + c.t) (max b.h e.h)
      ≤ (s.best : WithBot ℚ)
      ∧ c.prio (b.profit + e.profit) (max b.w e.w) (b.h + e.h + c.t) ≤ (s.best : WithBot ℚ)
  · rw [if_pos h1]
    have : addBoth c b e i j s = s := by
      unfold addBoth
      rw [addCombined_le h1.1, addCombined_le h1.2]
    rw [this]
    split <;> rfl
  · rw [if_neg h1]
    cases hv : validCopies c.inst b.itemCopies e.itemCopies with
    | false => rfl
    | true => rfl

theorem prio_gt {profit : ℚ} {w h : Int} {q : ℚ} (h0 : 0 ≤ s.best)
    (hq : c.prio profit w h = q) (hlt : s.best < q) : w ≤ c.effW ∧ h ≤ c.effH := by
  unfold HyperContext.prio at hq
  by_contra hn
  rw [if_neg hn] at hq
  have : (-1 : ℚ) = q := WithBot.coe_inj.mp hq
  linarith

theorem addCombined_fields (s : Search) (mk : ℚ → Block) (p : WithBot ℚ) :
    (addCombined c s mk p).seen = s.seen ∧ (addCombined c s mk p).returned = s.returned
      ∧ s.best ≤ (addCombined c s mk p).best ∧ (addCombined c s mk p).ticks = s.ticks := by
  rcases addCombined_cases (c := c) s mk p with ⟨_, e⟩ | ⟨q, _, _, e⟩
  · rw [e]; exact ⟨rfl, rfl, le_refl _, rfl⟩
  · rw [e]
    have := report_fields s (mk q)
    exact ⟨this.2.1, this.2.2.1, this.2.2.2.1, this.2.2.2.2.2⟩

theorem sinv_addCombined (h : SInv c s) {mk : ℚ → Block} {p : WithBot ℚ}
    (hb : ∀ q : ℚ, p = q → s.best < q → BlockOk c s.returned (mk q)) :
    SInv c (addCombined c s mk p) := by
  rcases addCombined_cases (c := c) s mk p with ⟨_, e⟩ | ⟨q, e1, hlt, e⟩
  · rw [e]; exact h
  · rw [e]
    refine sinv_push (sinv_report h (hb q e1 hlt)) ?_
    rw [(report_fields s _).2.2.1]
    exact hb q e1 hlt

theorem sinv_addBoth (h : SInv c s) {i j : Nat} {e : Block}
    (hb : s.returned[i]? = some b) (he : s.returned[j]? = some e)
    (hv : validCopies c.inst b.itemCopies e.itemCopies = true) :
    SInv c (addBoth c b e i j s) := by
  have ob := h.returned b (List.mem_of_getElem? hb)
  have oe := h.returned e (List.mem_of_getElem? he)
  have hv' : (mergeCopies b.itemCopies e.itemCopies).all (copiesOk c.inst) = true := by
    rw [← validCopies_eq]; exact hv
  unfold addBoth
  have h1 : SInv c (addCombined c s (verticalBlock c.t b e i j)
      (c.prio (b.profit + e.profit) (b.w + e.w + c.t) (max b.h e.h))) := by
    refine sinv_addCombined h fun q e1 hlt => ⟨?_, prio_gt h.best_nonneg e1 hlt⟩
    exact .pair rfl hb he ob.1 oe.1 (Or.inl ⟨rfl, rfl, rfl⟩) rfl rfl hv'
  have hf := addCombined_fields (c := c) s (verticalBlock c.t b e i j)
      (c.prio (b.profit + e.profit) (b.w + e.w + c.t) (max b.h e.h))
  refine sinv_addCombined h1 fun q e1 hlt => ⟨?_, prio_gt h1.best_nonneg e1 hlt⟩
  rw [hf.2.1]
  exact .pair rfl hb he ob.1 oe.1 (Or.inr ⟨rfl, rfl, rfl⟩) rfl rfl hv'

theorem combine_step (hc : CtxOk c) (h : SInv c s) {i j : Nat}
    (hb : s.returned[i]? = some b) (hj : j < s.returned.length) :
    ∃ s', combineWith c b i s j = .ok s' ∧ SInv c s' ∧ s'.returned = s.returned
      ∧ s'.seen = s.seen := by
  have he : s.returned[j]? = some s.returned[j] := List.getElem?_eq_getElem hj
  have ob := h.returned b (List.mem_of_getElem? hb)
  have oe := h.returned _ (List.mem_of_getElem? he)
  have e := combineWith_eq (b := b) (i := i) hc he (ob.1.pos hc.items hc.thickness)
    (oe.1.pos hc.items hc.thickness)
  refine ⟨_, e, ?_⟩
  by_cases hv : validCopies c.inst b.itemCopies s.returned[j].itemCopies = true
  · rw [if_pos hv]
    refine ⟨sinv_addBoth h hb he hv, ?_, ?_⟩
    · unfold addBoth
      rw [(addCombined_fields _ _ _).2.1, (addCombined_fields _ _ _).2.1]
    · unfold addBoth
      rw [(addCombined_fields _ _ _).1, (addCombined_fields _ _ _).1]
  · rw [if_neg hv]; exact ⟨h, rfl, rfl⟩

theorem combine_loop (hc : CtxOk c) (h : SInv c s) {i n : Nat}
    (hb : s.returned[i]? = some b) (hn : n ≤ s.returned.length) :
    ∃ s', (List.range n).foldlM (combineWith c b i) s = .ok s' ∧ SInv c s'
      ∧ s'.returned = s.returned ∧ s'.seen = s.seen := by
  refine foldlM_range_ok (P := fun _ s' => SInv c s' ∧ s'.returned = s.returned
    ∧ s'.seen = s.seen) ⟨h, rfl, rfl⟩ ?_
  rintro k a hk ⟨ha, e, es⟩
  obtain ⟨s', e1, e2, e3, e4⟩ := combine_step (b := b) (i := i) hc ha (by rw [e]; exact hb)
    (j := k) (by rw [e]; omega)
  exact ⟨s', e1, e2, e3.trans e, e4.trans es⟩

/-! ## The main loop -/

theorem sinv_processBucket (hc : CtxOk c) {k fuel : Nat} (h : SInv c s) :
    ∃ r, processBucket c k fuel s = .ok r ∧ ∀ s', r = some s' → SInv c s' := by
  induction fuel generalizing s with
  | zero => exact ⟨none, rfl, fun _ h => by cases h⟩
  | succ fuel ih =>
    unfold processBucket
    cases hb : s.buckets.getD k [] with
    | nil => exact ⟨some s, rfl, fun s' e => by cases e; exact h⟩
    | cons b rest =>
      dsimp only
      have ob : BlockOk c s.returned b := h.waiting b ⟨k, by rw [hb]; simp⟩
      split
      · exact ⟨_, rfl, fun s' e => by cases e; exact sinv_tick h⟩
      split
      · exact ⟨_, rfl, fun s' e => by cases e; exact sinv_tick h⟩
      have hp : SInv c (s.tick.pop k) := sinv_pop (sinv_tick h) k
      split
      · exact ih hp
      split
      · exact ih hp
      have ha : SInv c ((s.tick.pop k).accept b) := sinv_accept hp ob
      have hlen : ((s.tick.pop k).accept b).returned.length
          = (s.tick.pop k).returned.length + 1 := by
        show (_ ++ [b]).length = _
        simp
      have hget : ((s.tick.pop k).accept b).returned[(s.tick.pop k).returned.length]? = some b := by
        show ((s.tick.pop k).returned ++ [b])[(s.tick.pop k).returned.length]? = some b
        simp
      obtain ⟨s', e1, i1, -⟩ := combine_loop hc ha hget (le_of_eq hlen.symm)
      obtain ⟨r, e2, i2⟩ := ih i1
      refine ⟨r, ?_, i2⟩
      rw [e1]
      exact e2

theorem sinv_processBuckets (hc : CtxOk c) {fuel : Nat} {ks : List Nat} (h : SInv c s) :
    ∃ r, processBuckets c fuel ks s = .ok r ∧ ∀ s', r = some s' → SInv c s' := by
  induction ks generalizing s with
  | nil => exact ⟨some s, rfl, fun s' e => by cases e; exact h⟩
  | cons k ks ih =>
    unfold processBuckets
    split
    · exact ⟨_, rfl, fun s' e => by cases e; exact sinv_tick h⟩
    split
    · exact ⟨_, rfl, fun s' e => by cases e; exact sinv_tick h⟩
    obtain ⟨r, e1, i1⟩ := sinv_processBucket (k := k) (fuel := fuel) hc (sinv_tick h)
    rw [e1]
    cases r with
    | none => exact ⟨none, rfl, fun _ h => by cases h⟩
    | some s1 => exact ih (i1 s1 rfl)

theorem sinv_init (c : HyperContext) : SInv c { buckets := List.replicate c.bk.count [] } := by
  refine ⟨by simp, ?_, by simp, by simp, by simp, Or.inl ⟨rfl, rfl⟩, by simp⟩
  rintro b ⟨k, hk⟩
  rw [List.getD_eq_getElem?_getD, List.getElem?_replicate] at hk
  split at hk <;> simp at hk

theorem sinv_runSearch (hc : CtxOk c) (fuel : Nat) :
    ∃ r, runSearch c fuel = .ok r ∧ ∀ s', r = some s' → SInv c s' := by
  unfold runSearch
  obtain ⟨s1, e1, i1⟩ := sinv_seedAll hc (sinv_init c)
  rw [e1]
  exact sinv_processBuckets hc i1

end

end PackingSolver.Guil
