import Verif.Model.Guil.DpRebuild
import Verif.Lemmas.Guil.DpTable
import Verif.Lemmas.Guil.Rebuild

/-!
# Rebuilding a guillotine solution from the table of best profits
-/

namespace PackingSolver.Guil

open Spec
open Guil.Spec

section
variable {items : List ItemType} {t W H w h : Int} {tbl : List ℚ}

theorem Best.nonneg {v : ℚ} (hb : Best items t w h v) : 0 ≤ v :=
  hb.2 .waste ⟨trivial, trivial⟩

/-- A positive entry is the profit of an item or the sum of the entries of the two parts of a
cut. -/
theorem candidate_of_best (ht0 : 0 ≤ t) {f : Int → Int → ℚ}
    (hx : ∀ a, 0 < a → a < w → Best items t a h (f a h))
    (hy : ∀ b, 0 < b → b < h → Best items t w b (f w b))
    (hb : Best items t w h (f w h)) : f w h = 0 ∨ Candidate items t f w h (f w h) := by
  have joinX : ∀ c, 0 < c → c + t < w → f c h + f (w - c - t) h ≤ f w h := by
    intro c h1 h2
    obtain ⟨p, ⟨hp1, hp2⟩, ep⟩ := (hx c h1 (by omega)).1
    obtain ⟨q, ⟨hq1, hq2⟩, eq⟩ := (hx (w - c - t) (by omega) (by omega)).1
    rw [← ep, ← eq]
    exact hb.2 (.vertical c p q) ⟨⟨h1, by omega, hp1, .inl ⟨h2, hq1⟩⟩, h2, hp2, hq2⟩
  have joinY : ∀ c, 0 < c → c + t < h → f w c + f w (h - c - t) ≤ f w h := by
    intro c h1 h2
    obtain ⟨p, ⟨hp1, hp2⟩, ep⟩ := (hy c h1 (by omega)).1
    obtain ⟨q, ⟨hq1, hq2⟩, eq⟩ := (hy (h - c - t) (by omega) (by omega)).1
    rw [← ep, ← eq]
    exact hb.2 (.horizontal c p q) ⟨⟨h1, by omega, hp1, .inl ⟨h2, hq1⟩⟩, h2, hp2, hq2⟩
  obtain ⟨p, ⟨hp, hp2⟩, e⟩ := hb.1
  cases p with
  | waste => exact .inl e.symm
  | item id rot =>
    obtain ⟨it, hsome, hd⟩ := hp
    have hd' : items.getD id default = it := by rw [List.getD_eq_getElem?_getD, hsome]; rfl
    simp only [Pattern.profit] at e
    rw [hd'] at e
    refine .inr (.inl ⟨it, List.mem_of_getElem? hsome, ?_, e.symm⟩)
    cases rot with
    | true => exact Or.inr (by simpa using hd)
    | false => exact Or.inl (by simpa using hd)
  | vertical x l r =>
    obtain ⟨h1, h2, hl, hr⟩ := hp
    obtain ⟨h3, hl2, hr2⟩ := hp2
    have hr' : r.Fits items t (w - x - t) h := by
      rcases hr with hr | hr
      · exact hr.2
      · omega
    have u1 := (hx x h1 h2).2 l ⟨hl, hl2⟩
    have u2 := (hx (w - x - t) (by omega) (by omega)).2 r ⟨hr', hr2⟩
    simp only [Pattern.profit] at e
    have hsum : f w h = f x h + f (w - x - t) h :=
      le_antisymm (by rw [← e]; exact add_le_add u1 u2) (joinX x h1 h3)
    by_cases hc : 2 * x + t ≤ w
    · exact .inr (.inr (.inl ⟨x, h1, hc, hsum⟩))
    · refine .inr (.inr (.inl ⟨w - x - t, by omega, by omega, ?_⟩))
      rw [show w - (w - x - t) - t = x by omega, add_comm]
      exact hsum
  | horizontal x l r =>
    obtain ⟨h1, h2, hl, hr⟩ := hp
    obtain ⟨h3, hl2, hr2⟩ := hp2
    have hr' : r.Fits items t w (h - x - t) := by
      rcases hr with hr | hr
      · exact hr.2
      · omega
    have u1 := (hy x h1 h2).2 l ⟨hl, hl2⟩
    have u2 := (hy (h - x - t) (by omega) (by omega)).2 r ⟨hr', hr2⟩
    simp only [Pattern.profit] at e
    have hsum : f w h = f w x + f w (h - x - t) :=
      le_antisymm (by rw [← e]; exact add_le_add u1 u2) (joinY x h1 h3)
    by_cases hc : 2 * x + t ≤ h
    · exact .inr (.inr (.inr ⟨x, h1, hc, hsum⟩))
    · refine .inr (.inr (.inr ⟨h - x - t, by omega, by omega, ?_⟩))
      rw [show h - (h - x - t) - t = x by omega, add_comm]
      exact hsum

theorem fillsBox_iff {it : ItemType} : fillsBox it w h = true ↔ FillsBox it w h := by
  unfold fillsBox FillsBox
  simp [and_assoc]

/-- The loop over cuts finds a cut if there is one. -/
theorem findCut_spec {first second : Int → Except Err ℚ} {f g : Int → ℚ} {cur : ℚ} {n : Nat}
    (hf : ∀ k : Nat, k < n → first ((k : Int) + 1) = .ok (f ((k : Int) + 1)))
    (hg : ∀ k : Nat, k < n → second ((k : Int) + 1) = .ok (g ((k : Int) + 1))) :
    ∀ l : List Nat, (∀ k ∈ l, k < n) →
      (∃ k ∈ l, findCut first second cur l = .ok (some ((k : Int) + 1))
        ∧ f ((k : Int) + 1) + g ((k : Int) + 1) = cur)
      ∨ (findCut first second cur l = .ok none
        ∧ ∀ k ∈ l, f ((k : Int) + 1) + g ((k : Int) + 1) ≠ cur) := by
  intro l
  induction l with
  | nil => intro _; exact .inr ⟨rfl, by simp⟩
  | cons k l ih =>
    intro hl
    have e : findCut first second cur (k :: l)
        = if f ((k : Int) + 1) + g ((k : Int) + 1) = cur then .ok (some ((k : Int) + 1))
          else findCut first second cur l := by
      show (do
        let a ← first ((k : Int) + 1)
        let b ← second ((k : Int) + 1)
        if a + b = cur then .ok (some ((k : Int) + 1)) else findCut first second cur l) = _
      rw [hf k (hl k (by simp)), hg k (hl k (by simp))]
      rfl
    rw [e]
    by_cases h : f ((k : Int) + 1) + g ((k : Int) + 1) = cur
    · rw [if_pos h]
      exact .inl ⟨k, by simp, rfl, h⟩
    · rw [if_neg h]
      rcases ih (fun k hk => hl k (by simp [hk])) with ⟨j, hj, e1, e2⟩ | ⟨e1, e2⟩
      · exact .inl ⟨j, by simp [hj], e1, e2⟩
      · refine .inr ⟨e1, fun j hj => ?_⟩
        rcases List.mem_cons.mp hj with rfl | hj
        · exact h
        · exact e2 j hj

end

/-! ### The recursion -/

/-- The table is right, as `dpTable_ok` says. -/
structure DpOk (inst : Instance) (W H : Int) (tbl : List ℚ) : Prop where
  table : IsTable W H tbl
  best : ∀ a b, 0 < a → a ≤ W → 0 < b → b ≤ H →
    Best inst.itemTypes inst.parameters.cutThickness a b (entry 0 W tbl a b)

/-- The calls for the box `w × h` fill a leaf of its place with the items of a pattern of the
profit of its entry. -/
def DpRebuilds (inst : Instance) (bt : BinType) (b : Nat) (o : CutOrientation) (W : Int)
    (tbl : List ℚ) (w h depth x y : Int) : Prop :=
  ∃ ops N copies p, (∀ fuel, N ≤ fuel →
      dpOps inst.itemTypes tbl W inst.parameters.cutThickness o fuel w h depth x y = .ok ops)
    ∧ Pattern.Fits inst.itemTypes inst.parameters.cutThickness p w h
    ∧ Pattern.profit inst.itemTypes p = entry 0 W tbl w h
    ∧ (∀ i, sparseCount copies i = (p.count i : Int))
    ∧ Fills inst bt b o ops depth ⟨x, x + w, y, y + h⟩ copies (entry 0 W tbl w h)

section
variable {inst : Instance} {bt : BinType} {b : Nat} {o : CutOrientation} {W H : Int}
  {tbl : List ℚ} {w h : Int}

theorem findItem_some {i : Nat} {items : List ItemType} {cur : ℚ}
    (e : findItem items w h cur = some i) :
    ∃ it, items[i]? = some it ∧ FillsBox it w h ∧ it.profit = cur := by
  unfold findItem at e
  rw [List.findIdx?_eq_some_iff_getElem] at e
  obtain ⟨hi, h1, -⟩ := e
  rw [Bool.and_eq_true, decide_eq_true_iff] at h1
  exact ⟨items[i], List.getElem?_eq_getElem hi, fillsBox_iff.mp h1.1, h1.2⟩

theorem findItem_none {items : List ItemType} {cur : ℚ} (e : findItem items w h cur = none) :
    ¬ ∃ it ∈ items, FillsBox it w h ∧ cur = it.profit := by
  rintro ⟨it, hm, h1, h2⟩
  unfold findItem at e
  rw [List.findIdx?_eq_none_iff] at e
  have := e it hm
  rw [fillsBox_iff.mpr h1, h2] at this
  simp at this

/-- One step of the recursion on a box of positive entry without item. -/
theorem dpRebuilds_cut (ho : o ≠ .any) (hd : DpOk inst W H tbl)
    (ht : 0 ≤ inst.parameters.cutThickness) (hw : 0 < w) (hwW : w ≤ W) (hh : 0 < h) (hhH : h ≤ H)
    {depth x y : Int} (hdep : 1 ≤ depth)
    (hne : entry 0 W tbl w h ≠ 0) (hni : findItem inst.itemTypes w h (entry 0 W tbl w h) = none)
    (ihx : ∀ c, 0 < c → c < w → ∀ depth x y, 1 ≤ depth →
      DpRebuilds inst bt b o W tbl c h depth x y)
    (ihy : ∀ c, 0 < c → c < h → ∀ depth x y, 1 ≤ depth →
      DpRebuilds inst bt b o W tbl w c depth x y)
    (next : (cutIsVertical o depth = true → ∀ c, 0 < c →
        2 * c + inst.parameters.cutThickness ≤ w →
        entry 0 W tbl c h + entry 0 W tbl (w - c - inst.parameters.cutThickness) h
          ≠ entry 0 W tbl w h) →
      (cutIsVertical o depth = false → ∀ c, 0 < c →
        2 * c + inst.parameters.cutThickness ≤ h →
        entry 0 W tbl w c + entry 0 W tbl w (h - c - inst.parameters.cutThickness)
          ≠ entry 0 W tbl w h) →
      DpRebuilds inst bt b o W tbl w h (depth + 1) x y) :
    DpRebuilds inst bt b o W tbl w h depth x y := by
  have hread : ∀ {a c}, 0 < a → a ≤ W → 0 < c → c ≤ H →
      tableRead tbl W a c = .ok (entry 0 W tbl a c) :=
    fun h1 h2 h3 h4 => read_ok 0 hd.table ⟨h1.le, h2, h3.le, h4⟩
  have start : ∀ fuel, dpOps inst.itemTypes tbl W inst.parameters.cutThickness o (fuel + 1) w h
      depth x y = (do
        if cutIsVertical o depth then do
          match ← findCut (fun c => tableRead tbl W c h)
              (fun c => tableRead tbl W (w - c - inst.parameters.cutThickness) h)
              (entry 0 W tbl w h) (List.range (halfCuts w inst.parameters.cutThickness)) with
          | some c => do
            let l1 ← dpOps inst.itemTypes tbl W inst.parameters.cutThickness o fuel c h (depth + 1) x y
            let l2 ← dpOps inst.itemTypes tbl W inst.parameters.cutThickness o fuel
              (w - c - inst.parameters.cutThickness) h (depth + 1)
              (x + c + inst.parameters.cutThickness) y
            .ok (.addNode depth (x + c) :: l1 ++ .addNode depth (x + w) :: l2)
          | none => do
            let l ← dpOps inst.itemTypes tbl W inst.parameters.cutThickness o fuel w h (depth + 1) x y
            .ok (.addNode depth (x + w) :: l)
        else do
          match ← findCut (fun c => tableRead tbl W w c)
              (fun c => tableRead tbl W w (h - c - inst.parameters.cutThickness))
              (entry 0 W tbl w h) (List.range (halfCuts h inst.parameters.cutThickness)) with
          | some c => do
            let l1 ← dpOps inst.itemTypes tbl W inst.parameters.cutThickness o fuel w c (depth + 1) x y
            let l2 ← dpOps inst.itemTypes tbl W inst.parameters.cutThickness o fuel w
              (h - c - inst.parameters.cutThickness) (depth + 1) x
              (y + c + inst.parameters.cutThickness)
            .ok (.addNode depth (y + c) :: l1 ++ .addNode depth (y + h) :: l2)
          | none => do
            let l ← dpOps inst.itemTypes tbl W inst.parameters.cutThickness o fuel w h (depth + 1) x y
            .ok (.addNode depth (y + h) :: l)) := by
    intro fuel
    rw [dpOps, hread hw hwW hh hhH]
    show (if entry 0 W tbl w h = 0 then _ else _) = _
    rw [if_neg hne, hni]
    rfl
  by_cases hv : cutIsVertical o depth = true
  · replace start := fun fuel => (start fuel).trans (if_pos hv)
    rcases findCut_spec (n := halfCuts w inst.parameters.cutThickness)
      (first := fun c => tableRead tbl W c h)
      (second := fun c => tableRead tbl W (w - c - inst.parameters.cutThickness) h)
      (f := fun c => entry 0 W tbl c h)
      (g := fun c => entry 0 W tbl (w - c - inst.parameters.cutThickness) h)
      (cur := entry 0 W tbl w h)
      (fun k hk => hread (by omega) (by have := halfCuts_iff.mp hk; omega) hh hhH)
      (fun k hk => hread (by have := halfCuts_iff.mp hk; omega) (by omega) hh hhH)
      (List.range (halfCuts w inst.parameters.cutThickness))
      (fun k hk => List.mem_range.mp hk) with ⟨k, hk, e, sum⟩ | ⟨e, none⟩
    · have hk2 := halfCuts_iff.mp (List.mem_range.mp hk)
      obtain ⟨ops1, N1, c1, p1, e1, f1, s1, n1, r1⟩ :=
        ihx ((k : Int) + 1) (by omega) (by omega) (depth + 1) x y (by omega)
      obtain ⟨ops2, N2, c2, p2, e2, f2, s2, n2, r2⟩ :=
        ihx (w - ((k : Int) + 1) - inst.parameters.cutThickness) (by omega) (by omega) (depth + 1)
          (x + ((k : Int) + 1) + inst.parameters.cutThickness) y (by omega)
      refine ⟨.addNode depth (x + ((k : Int) + 1)) :: ops1 ++ .addNode depth (x + w) :: ops2,
        max N1 N2 + 1, mergeCopies c1 c2, .vertical ((k : Int) + 1) p1 p2, ?_,
        ⟨by omega, by omega, f1, .inl ⟨by omega, f2⟩⟩, ?_, ?_, ?_⟩
      · intro fuel hf
        obtain ⟨m, rfl⟩ : ∃ m, fuel = m + 1 := ⟨fuel - 1, by omega⟩
        rw [start, e]
        dsimp only [bind, Except.bind]
        rw [e1 m (by omega)]
        dsimp only
        rw [e2 m (by omega)]
      · rw [Pattern.profit, s1, s2]; exact sum
      · intro i; rw [sparseCount_merge, n1, n2]; simp [Pattern.count]
      · rw [← sum]
        exact fills_pair ho hdep ht (.inl ⟨hv, rfl, by omega, rfl, rfl, rfl, by omega, by omega, rfl,
          rfl⟩) r1 r2
    · obtain ⟨ops, N, c, p, e1, f1, s1, n1, r1⟩ := next
        (fun _ c hc hc2 => by
          have := none (c - 1).toNat (List.mem_range.mpr (halfCuts_iff.mpr (by omega)))
          rwa [show (((c - 1).toNat : Nat) : Int) + 1 = c by omega] at this)
        (fun hv' => by rw [hv] at hv'; cases hv')
      refine ⟨.addNode depth (x + w) :: ops, N + 1, c, p, ?_, f1, s1, n1, ?_⟩
      · intro fuel hf
        obtain ⟨m, rfl⟩ : ∃ m, fuel = m + 1 := ⟨fuel - 1, by omega⟩
        rw [start, e]
        show (do
          let l ← dpOps inst.itemTypes tbl W inst.parameters.cutThickness o m w h (depth + 1) x y
          .ok _) = _
        rw [e1 m (by omega)]
        rfl
      · exact fills_step ho hdep r1 (.inl ⟨hv, rfl, hw, le_refl _, rfl⟩)
  · have hv' : cutIsVertical o depth = false := by simpa using hv
    replace start := fun fuel => (start fuel).trans (if_neg hv)
    rcases findCut_spec (n := halfCuts h inst.parameters.cutThickness)
      (first := fun c => tableRead tbl W w c)
      (second := fun c => tableRead tbl W w (h - c - inst.parameters.cutThickness))
      (f := fun c => entry 0 W tbl w c)
      (g := fun c => entry 0 W tbl w (h - c - inst.parameters.cutThickness))
      (cur := entry 0 W tbl w h)
      (fun k hk => hread hw hwW (by omega) (by have := halfCuts_iff.mp hk; omega))
      (fun k hk => hread hw hwW (by have := halfCuts_iff.mp hk; omega) (by omega))
      (List.range (halfCuts h inst.parameters.cutThickness))
      (fun k hk => List.mem_range.mp hk) with ⟨k, hk, e, sum⟩ | ⟨e, none⟩
    · have hk2 := halfCuts_iff.mp (List.mem_range.mp hk)
      obtain ⟨ops1, N1, c1, p1, e1, f1, s1, n1, r1⟩ :=
        ihy ((k : Int) + 1) (by omega) (by omega) (depth + 1) x y (by omega)
      obtain ⟨ops2, N2, c2, p2, e2, f2, s2, n2, r2⟩ :=
        ihy (h - ((k : Int) + 1) - inst.parameters.cutThickness) (by omega) (by omega) (depth + 1)
          x (y + ((k : Int) + 1) + inst.parameters.cutThickness) (by omega)
      refine ⟨.addNode depth (y + ((k : Int) + 1)) :: ops1 ++ .addNode depth (y + h) :: ops2,
        max N1 N2 + 1, mergeCopies c1 c2, .horizontal ((k : Int) + 1) p1 p2, ?_,
        ⟨by omega, by omega, f1, .inl ⟨by omega, f2⟩⟩, ?_, ?_, ?_⟩
      · intro fuel hf
        obtain ⟨m, rfl⟩ : ∃ m, fuel = m + 1 := ⟨fuel - 1, by omega⟩
        rw [start, e]
        dsimp only [bind, Except.bind]
        rw [e1 m (by omega)]
        dsimp only
        rw [e2 m (by omega)]
      · rw [Pattern.profit, s1, s2]; exact sum
      · intro i; rw [sparseCount_merge, n1, n2]; simp [Pattern.count]
      · rw [← sum]
        exact fills_pair ho hdep ht (.inr ⟨hv', rfl, by omega, rfl, rfl, rfl, by omega, by omega,
          rfl, rfl⟩) r1 r2
    · obtain ⟨ops, N, c, p, e1, f1, s1, n1, r1⟩ := next
        (fun hv'' => by rw [hv'] at hv''; cases hv'')
        (fun _ c hc hc2 => by
          have := none (c - 1).toNat (List.mem_range.mpr (halfCuts_iff.mpr (by omega)))
          rwa [show (((c - 1).toNat : Nat) : Int) + 1 = c by omega] at this)
      refine ⟨.addNode depth (y + h) :: ops, N + 1, c, p, ?_, f1, s1, n1, ?_⟩
      · intro fuel hf
        obtain ⟨m, rfl⟩ : ∃ m, fuel = m + 1 := ⟨fuel - 1, by omega⟩
        rw [start, e]
        show (do
          let l ← dpOps inst.itemTypes tbl W inst.parameters.cutThickness o m w h (depth + 1) x y
          .ok _) = _
        rw [e1 m (by omega)]
        rfl
      · exact fills_step ho hdep r1 (.inr ⟨hv', rfl, hh, le_refl _, rfl⟩)

/-- The recursion ends and fills the leaf. -/
theorem dpRebuilds (ho : o ≠ .any) (hd : DpOk inst W H tbl)
    (ht : 0 ≤ inst.parameters.cutThickness) (n : Nat) : ∀ {w h : Int}, w + h ≤ n →
    0 < w → w ≤ W → 0 < h → h ≤ H → ∀ depth x y, 1 ≤ depth →
      DpRebuilds inst bt b o W tbl w h depth x y := by
  induction n with
  | zero => intro w h h1 h2 _ h3; omega
  | succ n ih =>
    intro w h hn hw hwW hh hhH depth x y hdep
    have hread : tableRead tbl W w h = .ok (entry 0 W tbl w h) :=
      read_ok 0 hd.table ⟨hw.le, hwW, hh.le, hhH⟩
    by_cases h0 : entry 0 W tbl w h = 0
    · refine ⟨[], 1, [], .waste, ?_, trivial, h0.symm, fun i => by simp [sparseCount, Pattern.count], ?_⟩
      · intro fuel hf
        obtain ⟨m, rfl⟩ : ∃ m, fuel = m + 1 := ⟨fuel - 1, by omega⟩
        rw [dpOps, hread]
        show (if entry 0 W tbl w h = 0 then _ else _) = _
        rw [if_pos h0]
      · rw [h0]; exact fills_nothing
    cases hni : findItem inst.itemTypes w h (entry 0 W tbl w h) with
    | some i =>
      obtain ⟨it, hit, hf, hp⟩ := findItem_some hni
      have hops : ∀ fuel, 1 ≤ fuel → dpOps inst.itemTypes tbl W inst.parameters.cutThickness o fuel
          w h depth x y = .ok [.setItem i] := by
        intro fuel hf
        obtain ⟨m, rfl⟩ : ∃ m, fuel = m + 1 := ⟨fuel - 1, by omega⟩
        rw [dpOps, hread]
        show (if entry 0 W tbl w h = 0 then _ else _) = _
        rw [if_neg h0, hni]
      have hd' : inst.itemTypes.getD i default = it := by
        rw [List.getD_eq_getElem?_getD, hit]; rfl
      have hcount : ∀ (rot : Bool) (j : Nat),
          sparseCount [(i, 1)] j = ((Pattern.item i rot).count j : Int) := by
        intro rot j
        rw [sparseCount_cons]
        by_cases hij : i = j
        · simp [hij, sparseCount, Pattern.count]
        · simp [hij, sparseCount, Pattern.count]
      rcases hf with ⟨g1, g2⟩ | ⟨g1, g2, g3⟩
      · refine ⟨_, 1, [(i, 1)], .item i false, hops, ⟨it, hit, by simpa using ⟨g1, g2⟩⟩, ?_,
          hcount false, ?_⟩
        · rw [Pattern.profit, hd', hp]
        · rw [← hp]; exact fills_item (rot := false) hit g1.symm g2.symm
      · refine ⟨_, 1, [(i, 1)], .item i true, hops, ⟨it, hit, by simpa using ⟨g1, g2, g3⟩⟩, ?_,
          hcount true, ?_⟩
        · rw [Pattern.profit, hd', hp]
        · rw [← hp]; exact fills_item (rot := true) hit g2.symm g3.symm
    | none =>
      have ihx : ∀ c, 0 < c → c < w → ∀ depth x y, 1 ≤ depth →
          DpRebuilds inst bt b o W tbl c h depth x y :=
        fun c h1 h2 => ih (by omega) h1 (by omega) hh hhH
      have ihy : ∀ c, 0 < c → c < h → ∀ depth x y, 1 ≤ depth →
          DpRebuilds inst bt b o W tbl w c depth x y :=
        fun c h1 h2 => ih (by omega) hw hwW h1 (by omega)
      have cand := candidate_of_best (w := w) (h := h) ht (f := entry 0 W tbl)
        (fun a h1 h2 => hd.best a h h1 (by omega) hh hhH)
        (fun c h1 h2 => hd.best w c hw hwW h1 (by omega)) (hd.best w h hw hwW hh hhH)
      have cand' : (∃ c, 0 < c ∧ 2 * c + inst.parameters.cutThickness ≤ w
            ∧ entry 0 W tbl c h + entry 0 W tbl (w - c - inst.parameters.cutThickness) h
              = entry 0 W tbl w h)
          ∨ ∃ c, 0 < c ∧ 2 * c + inst.parameters.cutThickness ≤ h
            ∧ entry 0 W tbl w c + entry 0 W tbl w (h - c - inst.parameters.cutThickness)
              = entry 0 W tbl w h := by
        rcases cand with c | c | ⟨c, c1, c2, c3⟩ | ⟨c, c1, c2, c3⟩
        · exact absurd c h0
        · exact absurd c (findItem_none hni)
        · exact .inl ⟨c, c1, c2, c3.symm⟩
        · exact .inr ⟨c, c1, c2, c3.symm⟩
      refine dpRebuilds_cut ho hd ht hw hwW hh hhH hdep h0 hni ihx ihy ?_
      intro n1 n2
      refine dpRebuilds_cut ho hd ht hw hwW hh hhH (by omega) h0 hni ihx ihy ?_
      intro n3 n4
      exfalso
      rw [cutIsVertical_succ ho hdep] at n3 n4
      cases hv : cutIsVertical o depth with
      | true =>
        rw [hv] at n1 n4
        rcases cand' with ⟨c, c1, c2, c3⟩ | ⟨c, c1, c2, c3⟩
        · exact n1 rfl c c1 c2 c3
        · exact n4 rfl c c1 c2 c3
      | false =>
        rw [hv] at n2 n3
        rcases cand' with ⟨c, c1, c2, c3⟩ | ⟨c, c1, c2, c3⟩
        · exact n3 rfl c c1 c2 c3
        · exact n2 rfl c c1 c2 c3

end

end PackingSolver.Guil
