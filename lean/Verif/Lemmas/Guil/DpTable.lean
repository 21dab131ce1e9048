import Verif.Lemmas.Guil.Table

/-!
# Lemmas about the table of best profits
-/

namespace PackingSolver.Guil

open Guil.Spec

/-- The item type can be placed in the box `w × h`. -/
def FillsBox (it : ItemType) (w h : Int) : Prop :=
  (it.w = w ∧ it.h = h) ∨ (it.oriented = false ∧ it.h = w ∧ it.w = h)

/-- The values considered for the box `w × h`. -/
def Candidate (items : List ItemType) (t : Int) (f : Int → Int → ℚ) (w h : Int) (v : ℚ) : Prop :=
  (∃ it ∈ items, FillsBox it w h ∧ v = it.profit)
  ∨ (∃ c, 0 < c ∧ 2 * c + t ≤ w ∧ v = f c h + f (w - c - t) h)
  ∨ ∃ c, 0 < c ∧ 2 * c + t ≤ h ∧ v = f w c + f w (h - c - t)

/-- The patterns the table is about. -/
def Good (items : List ItemType) (t w h : Int) (p : Pattern) : Prop :=
  p.Fits items t w h ∧ p.TwoSided t w h

/-- The best profit of these patterns. -/
abbrev Best (items : List ItemType) (t w h : Int) (v : ℚ) : Prop :=
  IsBestProfit items (Good items t w h) v

section
variable {items : List ItemType} {t W H w h : Int} {tbl : List ℚ}

theorem dpItem_raised (ht : IsTable W H tbl) (hin : InTable W H w h) (it : ItemType) :
    RaisedBy 0 W H w h (fun v => FillsBox it w h ∧ v = it.profit) tbl (dpItem W w h tbl it) := by
  unfold dpItem
  have h1 : RaisedBy 0 W H w h (fun v => (it.w = w ∧ it.h = h) ∧ v = it.profit) tbl
      (if it.w = w ∧ it.h = h then tableRaise tbl W w h it.profit else tbl) := by
    by_cases hc : it.w = w ∧ it.h = h
    · rw [if_pos hc]
      exact (RaisedBy.raise ht hin _).congr fun v => ⟨fun e => ⟨hc, e⟩, fun e => e.2⟩
    · rw [if_neg hc]
      exact (RaisedBy.refl ht).congr fun v => ⟨fun e => e.elim, fun e => hc e.1⟩
  dsimp only
  generalize (if it.w = w ∧ it.h = h then tableRaise tbl W w h it.profit else tbl) = tbl1 at h1
  have h2 : RaisedBy 0 W H w h
      (fun v => (it.oriented = false ∧ it.h = w ∧ it.w = h) ∧ v = it.profit) tbl1
      (if it.oriented = false ∧ it.h = w ∧ it.w = h
        then tableRaise tbl1 W w h it.profit else tbl1) := by
    by_cases hc : it.oriented = false ∧ it.h = w ∧ it.w = h
    · rw [if_pos hc]
      exact (RaisedBy.raise h1.table hin _).congr fun v => ⟨fun e => ⟨hc, e⟩, fun e => e.2⟩
    · rw [if_neg hc]
      exact (RaisedBy.refl h1.table).congr fun v => ⟨fun e => e.elim, fun e => hc e.1⟩
  refine (h1.trans h2).congr fun v => ?_
  unfold FillsBox
  constructor
  · rintro (⟨a, b⟩ | ⟨a, b⟩)
    · exact ⟨Or.inl a, b⟩
    · exact ⟨Or.inr a, b⟩
  · rintro ⟨a | a, b⟩
    · exact Or.inl ⟨a, b⟩
    · exact Or.inr ⟨a, b⟩

theorem dpItems_raised (items : List ItemType) (ht : IsTable W H tbl) (hin : InTable W H w h) :
    RaisedBy 0 W H w h (fun v => ∃ it ∈ items, FillsBox it w h ∧ v = it.profit) tbl
      (items.foldl (dpItem W w h) tbl) := by
  induction items generalizing tbl with
  | nil =>
    exact (RaisedBy.refl ht).congr fun v => ⟨fun e => e.elim, by rintro ⟨_, hm, _⟩; cases hm⟩
  | cons it rest ih =>
    have h1 := dpItem_raised ht hin it
    rw [List.foldl_cons]
    refine (h1.trans (ih h1.table)).congr fun v => ?_
    constructor
    · rintro (e | ⟨x, hx, e⟩)
      · exact ⟨it, by simp, e⟩
      · exact ⟨x, by simp [hx], e⟩
    · rintro ⟨x, hx, e⟩
      rcases List.mem_cons.mp hx with rfl | hx
      · exact Or.inl e
      · exact Or.inr ⟨x, hx, e⟩

theorem halfCuts_iff {n t : Int} {k : Nat} : k < halfCuts n t ↔ 2 * ((k : Int) + 1) + t ≤ n := by
  unfold halfCuts
  omega

theorem dpCell_raised (items : List ItemType) (ht : IsTable W H tbl) (hw : 0 < w) (hwW : w ≤ W)
    (hh : 0 < h) (hhH : h ≤ H) (ht0 : 0 ≤ t) :
    ∃ tbl', dpCell items W t w h tbl = .ok tbl'
      ∧ RaisedBy 0 W H w h (Candidate items t (entry 0 W tbl) w h) tbl tbl' := by
  have hin : InTable W H w h := ⟨by omega, hwW, by omega, hhH⟩
  have h0 := dpItems_raised items ht hin
  unfold dpCell
  dsimp only
  generalize items.foldl (dpItem W w h) tbl = t0 at h0
  have key1 := raisedBy_loop (d := (0 : ℚ)) (W := W) (H := H) (w := w) (h := h) (t0 := t0)
    (n := halfCuts w t) (step := dpSplitX W t w h)
    (fun k => entry 0 W tbl ((k : Int) + 1) h + entry 0 W tbl (w - ((k : Int) + 1) - t) h)
    h0.table ?_
  swap
  · intro k t1 S hk h1
    have hk' := halfCuts_iff.mp hk
    have i1 : InTable W H ((k : Int) + 1) h := ⟨by omega, by omega, by omega, hhH⟩
    have i2 : InTable W H (w - ((k : Int) + 1) - t) h := ⟨by omega, by omega, by omega, hhH⟩
    refine ⟨_, ?_, RaisedBy.raise h1.table hin _⟩
    unfold dpSplitX
    rw [read_ok 0 h1.table i1, read_ok 0 h1.table i2]
    rw [h1.other _ _ i1 (by omega), h1.other _ _ i2 (by omega), h0.other _ _ i1 (by omega),
      h0.other _ _ i2 (by omega)]
    rfl
  obtain ⟨t1, e1, h1⟩ := key1
  rw [e1]
  have key2 := raisedBy_loop (d := (0 : ℚ)) (W := W) (H := H) (w := w) (h := h) (t0 := t1)
    (n := halfCuts h t) (step := dpSplitY W t w h)
    (fun k => entry 0 W tbl w ((k : Int) + 1) + entry 0 W tbl w (h - ((k : Int) + 1) - t))
    h1.table ?_
  swap
  · intro k t2 S hk h2
    have hk' := halfCuts_iff.mp hk
    have i1 : InTable W H w ((k : Int) + 1) := ⟨by omega, by omega, by omega, by omega⟩
    have i2 : InTable W H w (h - ((k : Int) + 1) - t) := ⟨by omega, by omega, by omega, by omega⟩
    refine ⟨_, ?_, RaisedBy.raise h2.table hin _⟩
    unfold dpSplitY
    rw [read_ok 0 h2.table i1, read_ok 0 h2.table i2]
    rw [h2.other _ _ i1 (by omega), h2.other _ _ i2 (by omega), h1.other _ _ i1 (by omega),
      h1.other _ _ i2 (by omega), h0.other _ _ i1 (by omega), h0.other _ _ i2 (by omega)]
    rfl
  obtain ⟨t2, e2, h2⟩ := key2
  refine ⟨t2, e2, ((h0.trans h1).trans h2).congr fun v => ?_⟩
  unfold Candidate
  constructor
  · rintro ((a | ⟨k, hk, e⟩) | ⟨k, hk, e⟩)
    · exact Or.inl a
    · exact Or.inr (Or.inl ⟨(k : Int) + 1, by omega, halfCuts_iff.mp hk, e⟩)
    · exact Or.inr (Or.inr ⟨(k : Int) + 1, by omega, halfCuts_iff.mp hk, e⟩)
  · rintro (a | ⟨c, hc, hc2, e⟩ | ⟨c, hc, hc2, e⟩)
    · exact Or.inl (Or.inl a)
    · have ec : (((c - 1).toNat : Nat) : Int) + 1 = c := by omega
      refine Or.inl (Or.inr ⟨(c - 1).toNat, halfCuts_iff.mpr (by omega), ?_⟩)
      rw [ec]; exact e
    · have ec : (((c - 1).toNat : Nat) : Int) + 1 = c := by omega
      refine Or.inr ⟨(c - 1).toNat, halfCuts_iff.mpr (by omega), ?_⟩
      rw [ec]; exact e

theorem best_of_candidates (ht0 : 0 ≤ t) {f : Int → Int → ℚ} {v : ℚ}
    (hx : ∀ a, 0 < a → a < w → Best items t a h (f a h))
    (hy : ∀ b, 0 < b → b < h → Best items t w b (f w b))
    (h0 : 0 ≤ v) (hge : ∀ u, Candidate items t f w h u → u ≤ v)
    (hatt : v = 0 ∨ Candidate items t f w h v) : Best items t w h v := by
  constructor
  · rcases hatt with rfl | ⟨it, hm, hf, e⟩ | ⟨c, hc, hc2, e⟩ | ⟨c, hc, hc2, e⟩
    · exact ⟨.waste, ⟨trivial, trivial⟩, rfl⟩
    · obtain ⟨i, hi, hget⟩ := List.getElem_of_mem hm
      have hsome : items[i]? = some it := by rw [List.getElem?_eq_getElem hi, hget]
      have hd : items.getD i default = it := by rw [List.getD_eq_getElem?_getD, hsome]; rfl
      rcases hf with hf | hf
      · exact ⟨.item i false, ⟨⟨it, hsome, by simpa using hf⟩, trivial⟩, by
          simp only [Pattern.profit]; rw [hd, e]⟩
      · exact ⟨.item i true, ⟨⟨it, hsome, by simpa using hf⟩, trivial⟩, by
          simp only [Pattern.profit]; rw [hd, e]⟩
    · obtain ⟨p, ⟨hp1, hp2⟩, ep⟩ := (hx c hc (by omega)).1
      obtain ⟨q, ⟨hq1, hq2⟩, eq⟩ := (hx (w - c - t) (by omega) (by omega)).1
      refine ⟨.vertical c p q, ⟨⟨hc, by omega, hp1, Or.inl ⟨by omega, hq1⟩⟩,
        ⟨by omega, hp2, hq2⟩⟩, ?_⟩
      simp only [Pattern.profit]
      rw [ep, eq, e]
    · obtain ⟨p, ⟨hp1, hp2⟩, ep⟩ := (hy c hc (by omega)).1
      obtain ⟨q, ⟨hq1, hq2⟩, eq⟩ := (hy (h - c - t) (by omega) (by omega)).1
      refine ⟨.horizontal c p q, ⟨⟨hc, by omega, hp1, Or.inl ⟨by omega, hq1⟩⟩,
        ⟨by omega, hp2, hq2⟩⟩, ?_⟩
      simp only [Pattern.profit]
      rw [ep, eq, e]
  · rintro p ⟨hp, hp2⟩
    cases p with
    | waste => exact h0
    | item id rot =>
      obtain ⟨it, hsome, hd⟩ := hp
      have hd' : items.getD id default = it := by rw [List.getD_eq_getElem?_getD, hsome]; rfl
      simp only [Pattern.profit]
      rw [hd']
      refine hge _ (Or.inl ⟨it, List.mem_of_getElem? hsome, ?_, rfl⟩)
      cases rot with
      | true => exact Or.inr (by simpa using hd)
      | false => exact Or.inl (by simpa using hd)
    | vertical x l r =>
      obtain ⟨h1, h2, hl, hr⟩ := hp
      obtain ⟨h3, hl2, hr2⟩ := hp2
      have hr' : r.Fits items t (w - x - t) h := by
        rcases hr with hr | hr
        · exact hr.2
        · omega
      simp only [Pattern.profit]
      have u1 := (hx x h1 h2).2 l ⟨hl, hl2⟩
      have u2 := (hx (w - x - t) (by omega) (by omega)).2 r ⟨hr', hr2⟩
      refine le_trans (add_le_add u1 u2) ?_
      by_cases hc : 2 * x + t ≤ w
      · exact hge _ (Or.inr (Or.inl ⟨x, h1, hc, rfl⟩))
      · refine hge _ (Or.inr (Or.inl ⟨w - x - t, by omega, by omega, ?_⟩))
        have e : w - (w - x - t) - t = x := by omega
        rw [e, add_comm]
    | horizontal x l r =>
      obtain ⟨h1, h2, hl, hr⟩ := hp
      obtain ⟨h3, hl2, hr2⟩ := hp2
      have hr' : r.Fits items t w (h - x - t) := by
        rcases hr with hr | hr
        · exact hr.2
        · omega
      simp only [Pattern.profit]
      have u1 := (hy x h1 h2).2 l ⟨hl, hl2⟩
      have u2 := (hy (h - x - t) (by omega) (by omega)).2 r ⟨hr', hr2⟩
      refine le_trans (add_le_add u1 u2) ?_
      by_cases hc : 2 * x + t ≤ h
      · exact hge _ (Or.inr (Or.inr ⟨x, h1, hc, rfl⟩))
      · refine hge _ (Or.inr (Or.inr ⟨h - x - t, by omega, by omega, ?_⟩))
        have e : h - (h - x - t) - t = x := by omega
        rw [e, add_comm]

/-- Everything before column `w`, and the first `j` boxes of column `w`, is computed; the rest is
zero. -/
structure DpDone (items : List ItemType) (t W H w : Int) (j : Nat) (tbl : List ℚ) : Prop where
  table : IsTable W H tbl
  done : ∀ a b, 0 < a → a ≤ W → 0 < b → b ≤ H → (a < w ∨ (a = w ∧ b ≤ j)) →
    Best items t a b (entry 0 W tbl a b)
  todo : ∀ a b, 0 < a → a ≤ W → 0 < b → b ≤ H → ¬ (a < w ∨ (a = w ∧ b ≤ j)) →
    entry 0 W tbl a b = 0

theorem dpDone_step (hw : 0 < w) (hwW : w ≤ W) (ht0 : 0 ≤ t) {j : Nat} (hj : (j : Int) < H)
    (hd : DpDone items t W H w j tbl) :
    ∃ tbl', dpCell items W t w ((j : Int) + 1) tbl = .ok tbl' ∧ DpDone items t W H w (j + 1) tbl' := by
  obtain ⟨tbl', e, hr⟩ := dpCell_raised (h := (j : Int) + 1) items hd.table hw hwW (by omega)
    (by omega) ht0
  refine ⟨tbl', e, hr.table, ?_, ?_⟩
  · intro a b ha haW hb hbH hlt
    by_cases hab : w = a ∧ (j : Int) + 1 = b
    · obtain ⟨rfl, rfl⟩ := hab
      have hz : entry 0 W tbl w ((j : Int) + 1) = 0 :=
        hd.todo _ _ ha haW hb hbH (by omega)
      refine best_of_candidates ht0 (f := entry 0 W tbl) ?_ ?_ ?_ hr.ge ?_
      · intro a ha haw
        exact hd.done a _ ha (by omega) (by omega) (by omega) (Or.inl haw)
      · intro b hb hbj
        exact hd.done w b hw hwW hb (by omega) (Or.inr ⟨rfl, by omega⟩)
      · exact le_trans (le_of_eq hz.symm) hr.start
      · rcases hr.attained with h | h
        · exact Or.inl (h.trans hz)
        · exact Or.inr h
    · rw [hr.other a b ⟨by omega, haW, by omega, hbH⟩ hab]
      exact hd.done a b ha haW hb hbH (by omega)
  · intro a b ha haW hb hbH hlt
    rw [hr.other a b ⟨by omega, haW, by omega, hbH⟩ (by omega)]
    exact hd.todo a b ha haW hb hbH (by omega)

theorem dpTable_ok (items : List ItemType) (hW : 0 < W) (hH : 0 < H) (ht0 : 0 ≤ t) :
    ∃ tbl, dpTable items W H t = .ok tbl ∧ IsTable W H tbl
      ∧ ∀ a b, 0 < a → a ≤ W → 0 < b → b ≤ H → Best items t a b (entry 0 W tbl a b) := by
  unfold dpTable
  have hpos : 0 ≤ (W + 1) * (H + 1) := mul_nonneg (by omega) (by omega)
  rw [if_neg (by omega)]
  have key := foldlM_range_ok (n := W.toNat)
    (f := fun tbl (i : Nat) => dpColumn items W H t ((i : Int) + 1) tbl)
    (s := List.replicate ((W + 1) * (H + 1)).toNat (0 : ℚ))
    (P := fun i tbl => DpDone items t W H ((i : Int) + 1) 0 tbl) ?_ ?_
  · obtain ⟨tbl, e, hd⟩ := key
    exact ⟨tbl, e, hd.table, fun a b h1 h2 h3 h4 => hd.done a b h1 h2 h3 h4 (Or.inl (by omega))⟩
  · refine ⟨by simp [IsTable], fun a b h1 h2 h3 h4 h5 => by omega, fun a b h1 h2 h3 h4 h5 => ?_⟩
    unfold entry
    rw [List.getD_eq_getElem?_getD, List.getElem?_replicate]
    split <;> rfl
  · intro i tbl hi hd
    unfold dpColumn
    have key := foldlM_range_ok (n := H.toNat)
      (f := fun tbl (j : Nat) => dpCell items W t ((i : Int) + 1) ((j : Int) + 1) tbl)
      (s := tbl) (P := fun j tbl => DpDone items t W H ((i : Int) + 1) j tbl) hd
      (fun j tbl hj hdj => by
        obtain ⟨tbl', e, h'⟩ := dpDone_step (by omega) (by omega) ht0 (by omega) hdj
        exact ⟨tbl', e, h'⟩)
    obtain ⟨tbl', e, hd'⟩ := key
    refine ⟨tbl', e, hd'.table, ?_, ?_⟩
    · intro a b h1 h2 h3 h4 h5
      exact hd'.done a b h1 h2 h3 h4 (by push_cast at h5 ⊢; omega)
    · intro a b h1 h2 h3 h4 h5
      exact hd'.todo a b h1 h2 h3 h4 (by push_cast at h5 ⊢; omega)

end

end PackingSolver.Guil
