import Verif.Lemmas.Guil.PostGroups
import Verif.Lemmas.Guil.PostBuild

/-!
# Lemmas: items cut by a guillotine pattern are rebuilt
-/

namespace PackingSolver.Guil.PostProcess

open Guil.Spec
open Spaces (OpenLeaf)
open PackingSolver.Spec (IsSortOf)

/-- No call adds a node deeper than `D`. -/
def Shallow (D : Int) (ops : List Op) : Prop := ∀ d p, Op.addNode d p ∈ ops → d ≤ D

theorem Shallow.append {D : Int} {l m : List Op} (h1 : Shallow D l) (h2 : Shallow D m) :
    Shallow D (l ++ m) := by
  intro d p h
  rcases List.mem_append.mp h with h | h
  · exact h1 d p h
  · exact h2 d p h

theorem Shallow.mono {D D' : Int} {l : List Op} (h : Shallow D l) (hD : D ≤ D') :
    Shallow D' l := fun d p hm => le_trans (h d p hm) hD

section
variable {inst : Instance} {bt : BinType} {b : Nat} {o : CutOrientation}
  {σ : Bool → List ItemPlacement → List ItemPlacement}

theorem groups_complete {rec : Int → Int → Int → Int → List ItemPlacement → Calls} {d : Int}
    (hct : inst.parameters.cutThickness = 0) (hd : 0 ≤ d) {R : Region} {D : Int} (hD : d + 1 ≤ D) :
    ∀ (gs : List CutGroup) (prev : Int) (nodes : List Node) (k : Nat),
    (∀ g ∈ gs, GroupOk (vert o d) 0 g) → Ordered (vert o d) 0 gs →
    (∀ g ∈ gs, prev ≤ groupStart (vert o d) g) → (∀ g ∈ gs, g.cutPosition ≤ R.high (vert o d)) →
    (∀ g ∈ gs, groupStart (vert o d) g < g.cutPosition) →
    (∀ g ∈ gs, ∀ nodes, FreeLeaf inst bt b nodes (d + 1 + 1)
        (strip (vert o d) R (groupStart (vert o d) g) g.cutPosition) →
      ∃ ops nodes' P, rec (strip (vert o d) R (groupStart (vert o d) g) g.cutPosition).l
          (strip (vert o d) R (groupStart (vert o d) g) g.cutPosition).r
          (strip (vert o d) R (groupStart (vert o d) g) g.cutPosition).b
          (strip (vert o d) R (groupStart (vert o d) g) g.cutPosition).t g.items = ⟨ops, true⟩
        ∧ nodesRun inst o nodes ops = some nodes' ∧ Shallow D ops
        ∧ Added inst bt b nodes nodes' (nodes.length - 1) P) →
    At inst bt b o nodes k d R prev →
    ∃ ops nodes', groupsOps rec (vert o d) inst.parameters.cutThickness R.l R.r R.b R.t (d + 1) gs prev
        = ⟨ops, true⟩ ∧ nodesRun inst o nodes ops = some nodes' ∧ Shallow D ops := by
  intro gs
  induction gs with
  | nil =>
    intro prev nodes k _ _ _ _ _ _ _
    exact ⟨[], nodes, rfl, rfl, by intro d p h; cases h⟩
  | cons g gs ih =>
    intro prev nodes k hok hord hstart hcut hpos hrec ha
    obtain ⟨ho1, ho2⟩ := List.pairwise_cons.mp hord
    have hs := hstart g (by simp)
    have hc := hcut g (by simp)
    have hp := hpos g (by simp)
    -- the leading waste
    obtain ⟨n0, pre, hpre, hrun0, hsh0, at0⟩ : ∃ n0 pre, pre = (if decide (groupStart (vert o d) g - inst.parameters.cutThickness > prev) = true then [Op.addNode (d + 1) (groupStart (vert o d) g - inst.parameters.cutThickness)] else [])
        ∧ nodesRun inst o nodes pre = some n0 ∧ Shallow D pre
        ∧ At inst bt b o n0 k d R (groupStart (vert o d) g) := by
      by_cases hg : decide (groupStart (vert o d) g - inst.parameters.cutThickness > prev) = true
      · have hg' := of_decide_eq_true hg
        rw [hct] at hg'
        obtain ⟨n1, e, hcut1⟩ := ha.cut hd (pos := groupStart (vert o d) g - inst.parameters.cutThickness)
          (by rw [hct]; omega) (by rw [hct]; omega)
        refine ⟨n1, _, rfl, ?_, ?_, ?_⟩
        · rw [if_pos hg, nodesRun_addNode, if_neg (by omega), e]
          rfl
        · rw [if_pos hg]
          intro d' p' hm
          rw [List.mem_singleton] at hm
          cases hm
          exact hD
        · have h1 := hcut1.after
          rwa [show groupStart (vert o d) g - inst.parameters.cutThickness
            + inst.parameters.cutThickness = groupStart (vert o d) g by ring] at h1
      · refine ⟨nodes, _, rfl, ?_, ?_, ?_⟩
        · rw [if_neg hg]; rfl
        · rw [if_neg hg]
          intro d' p' hm
          cases hm
        · have hn : ¬ groupStart (vert o d) g - inst.parameters.cutThickness > prev :=
            fun h => hg (decide_eq_true h)
          rw [hct] at hn
          rw [show groupStart (vert o d) g = prev by omega]
          exact ha
    have hprev : (if decide (groupStart (vert o d) g - inst.parameters.cutThickness > prev) = true
        then groupStart (vert o d) g else prev) = groupStart (vert o d) g := by
      split_ifs with hg
      · rfl
      · have hn : ¬ groupStart (vert o d) g - inst.parameters.cutThickness > prev :=
          fun h => hg (decide_eq_true h)
        rw [hct] at hn
        omega
    obtain ⟨n1, e1, hcut1⟩ := at0.cut hd hp hc
    obtain ⟨so, n2, P, hsub, hrun2, hsh2, hadd⟩ := hrec g (by simp) n1 hcut1.leaf
    obtain ⟨at2, -⟩ := hcut1.filled hadd
    obtain ⟨ro, n3, hrest, hrun3, hsh3⟩ := ih (g.cutPosition + inst.parameters.cutThickness) n2 k
      (fun g' h => hok g' (by simp [h])) ho2
      (fun g' h => by rw [hct]; exact ho1 g' h) (fun g' h => hcut g' (by simp [h]))
      (fun g' h => hpos g' (by simp [h])) (fun g' h => hrec g' (by simp [h])) at2
    rw [← strip_eq] at hsub
    refine ⟨pre ++ [Op.addNode (d + 1) g.cutPosition] ++ so ++ ro, n3, ?_, ?_, ?_⟩
    · unfold groupsOps
      dsimp only at hsub ⊢
      rw [hprev, hsub, hrest, ← hpre]
      rfl
    · rw [List.append_assoc, List.append_assoc, nodesRun_append, hrun0]
      show nodesRun inst o n0 (Op.addNode (d + 1) g.cutPosition :: (so ++ ro)) = _
      rw [nodesRun_addNode, if_neg (by omega), e1]
      dsimp only
      rw [nodesRun_append, hrun2]
      exact hrun3
    · refine ((hsh0.append ?_).append hsh2).append hsh3
      intro d' p' hm
      rw [List.mem_singleton] at hm
      cases hm
      exact hD

theorem region_low_lt {v : Bool} {R : Region} (h : R.Nonempty) : R.low v < R.high v := by
  cases v
  · exact h.2
  · exact h.1

theorem inside_low {v : Bool} {P R : Region} (h : P.Inside R) :
    R.low v ≤ P.low v ∧ P.high v ≤ R.high v := by
  obtain ⟨h1, h2, h3, h4⟩ := h
  cases v
  · exact ⟨h3, h4⟩
  · exact ⟨h1, h2⟩

theorem inside_of {v : Bool} {P R : Region} (h1 : R.low v ≤ P.low v) (h2 : P.high v ≤ R.high v)
    (h3 : R.low (!v) ≤ P.low (!v)) (h4 : P.high (!v) ≤ R.high (!v)) : P.Inside R := by
  cases v
  · exact ⟨h3, h4, h1, h2⟩
  · exact ⟨h1, h2, h3, h4⟩

theorem strip_other (v : Bool) (R : Region) (x y : Int) :
    (strip v R x y).low (!v) = R.low (!v) ∧ (strip v R x y).high (!v) = R.high (!v) := by
  cases v <;> exact ⟨rfl, rfl⟩

/-- The recursion rebuilds what a pattern cuts. -/
theorem region_complete (hct : inst.parameters.cutThickness = 0)
    (hσ : ∀ v l, IsSortOf (startsBefore v) l (σ v l)) (ho : o ≠ .any) : ∀ (fuel k : Nat)
    (R S : Region) (L : List Region) (items : List ItemPlacement) (d : Int) (nodes : List Node),
    k + 1 ≤ fuel → 0 ≤ d → (d = 0 → 0 < k) → 0 ≤ R.l → 0 ≤ R.b →
    Cuts 0 k (vert o d) S L → (items.map reg).Subperm L → R.Inside S →
    (∀ p ∈ items, (reg p).Inside R) → (∀ p ∈ items, Fits inst p) →
    OpenLeaf inst bt b nodes d R → (0 < d → FreeLeaf inst bt b nodes (d + 1) R) →
    ∃ ops nodes', regionOps σ inst.parameters.cutThickness o fuel R.l R.r R.b R.t items (d + 1)
        = ⟨ops, true⟩ ∧ nodesRun inst o nodes ops = some nodes' ∧ Shallow (d + k) ops := by
  intro fuel
  induction fuel with
  | zero => intro k R S L items d nodes hk; omega
  | succ fuel ih =>
    intro k R S L items d nodes hk hd hdk hRl hRb hcuts hsub hRS hin hfit hl hf
    unfold regionOps
    by_cases hne : items.isEmpty = true
    · rw [if_pos hne]
      exact ⟨[], nodes, rfl, rfl, by intro d p h; cases h⟩
    · rw [if_neg hne]
      have hne' : items ≠ [] := fun h => hne (List.isEmpty_iff.mpr h)
      cases hfr : (if d + 1 > 1 then fillsRegion R.l R.r R.b R.t items else none) with
      | some i =>
        dsimp only
        have hd1 : d + 1 > 1 := by
          by_contra hc
          rw [if_neg hc] at hfr; cases hfr
        rw [if_pos hd1] at hfr
        unfold fillsRegion at hfr
        split at hfr
        · rename_i p
          split_ifs at hfr with hp
          cases hfr
          obtain ⟨h1, h2, h3, h4⟩ := hp
          obtain ⟨f1, f2⟩ := hfit p (by simp)
          rw [h1, h2, h3, h4] at f2
          obtain ⟨nodes', hrun⟩ := leaf_item_run (o := o) (hf (by omega)) f1 f2
          refine ⟨_, nodes', rfl, hrun, ?_⟩
          intro d' p' hm
          simp at hm
        · cases hfr
      | none =>
        dsimp only
        have hinS := cuts_inside (le_refl _) hcuts
        have hnon : ∀ p ∈ items, (reg p).Nonempty :=
          fun p hp => (hinS _ (hsub.subset (List.mem_map_of_mem hp))).2
        cases k with
        | zero =>
          exfalso
          obtain ⟨rfl, -⟩ := cuts_zero hcuts rfl
          obtain ⟨p, hp⟩ : ∃ p, items = [p] := by
            have hlen := hsub.length_le
            rw [List.length_map] at hlen
            rw [← List.length_eq_one_iff]
            have : 0 < items.length := List.length_pos_iff.mpr hne'
            have : items.length ≤ 1 := hlen
            omega
          subst hp
          have hmem : reg p ∈ [S] := hsub.subset (by simp)
          rw [List.mem_singleton] at hmem
          have hpR := hin p (by simp)
          rw [hmem] at hpR
          have hd1 : d + 1 > 1 := by
            rcases eq_or_lt_of_le hd with h | h
            · exact absurd (hdk h.symm) (by omega)
            · omega
          rw [if_pos hd1] at hfr
          unfold fillsRegion at hfr
          dsimp only at hfr
          unfold reg at hmem
          obtain ⟨a1, a2, a3, a4⟩ := hpR
          obtain ⟨c1, c2, c3, c4⟩ := hRS
          rw [if_pos (by
            rw [← hmem] at a1 a2 a3 a4 c1 c2 c3 c4
            dsimp only at a1 a2 a3 a4 c1 c2 c3 c4
            refine ⟨?_, ?_, ?_, ?_⟩ <;> omega)] at hfr
          cases hfr
        | succ k =>
          rw [isVerticalCut_eq ho, show d + 1 - 1 = d by omega]
          have hRlow : (if vert o d = true then R.l else R.b) = R.low (vert o d) := rfl
          rw [hRlow]
          have hR0 : 0 ≤ R.low (vert o d) := by
            unfold Region.low
            split_ifs <;> assumption
          have hlow : ∀ p ∈ items, R.low (vert o d) ≤ itemStart (vert o d) p
              ∧ itemEnd (vert o d) p ≤ R.high (vert o d)
              ∧ itemStart (vert o d) p < itemEnd (vert o d) p := by
            intro p hp
            rw [itemStart_eq, itemEnd_eq]
            exact ⟨(inside_low (hin p hp)).1, (inside_low (hin p hp)).2, region_low_lt (hnon p hp)⟩
          obtain ⟨hgok, hgord⟩ := findGroups_ok (v := vert o d) (ct := 0) hσ (items := items)
            (fun p hp => by obtain ⟨q1, q2, q3⟩ := hlow p hp; omega)
          have hflat : ∀ g ∈ findGroups σ items (vert o d) 0, g.items.Sublist (σ (vert o d) items) := by
            intro g hg
            rw [← findGroups_flat (σ := σ) (v := vert o d) (ct := 0)]
            rw [List.flatMap_def]
            exact List.sublist_flatten_of_mem (List.mem_map_of_mem hg)
          have hmem : ∀ g ∈ findGroups σ items (vert o d) 0, ∀ p ∈ g.items, p ∈ items :=
            fun g hg p hp => (hσ _ _).perm.mem_iff.mp ((hflat g hg).subset hp)
          have hgroup : ∀ g ∈ findGroups σ items (vert o d) 0,
              R.low (vert o d) ≤ groupStart (vert o d) g ∧ g.cutPosition ≤ R.high (vert o d)
                ∧ groupStart (vert o d) g < g.cutPosition := by
            intro g hg
            have hok := hgok g hg
            obtain ⟨q, hq, he⟩ := hok.begun
            obtain ⟨q', hq', he'⟩ := hok.reached
            obtain ⟨a1, a2, a3⟩ := hlow q (hmem g hg q hq)
            obtain ⟨b1, b2, b3⟩ := hlow q' (hmem g hg q' hq')
            have := hok.starts q' hq'
            refine ⟨by omega, by omega, by omega⟩
          have key := groups_complete (inst := inst) (bt := bt) (b := b) (o := o)
            (rec := fun l r b t items => regionOps σ inst.parameters.cutThickness o fuel l r b t items
              (d + 1 + 1)) hct hd (R := R) (D := d + ((k + 1 : Nat) : Int)) (by push_cast; omega)
            (findGroups σ items (vert o d) 0) (R.low (vert o d)) nodes (nodes.length - 1) hgok hgord
            (fun g hg => (hgroup g hg).1) (fun g hg => (hgroup g hg).2.1)
            (fun g hg => (hgroup g hg).2.2) ?_ (OpenLeaf.at hl)
          · obtain ⟨ops, nodes', e1, e2, e3⟩ := key
            refine ⟨ops, nodes', ?_, e2, e3⟩
            rw [← e1, hct]
          · intro g hg n hfl
            have hok := hgok g hg
            have hsubg : (g.items.map reg).Subperm L := by
              have h1 : (g.items.map reg).Sublist ((σ (vert o d) items).map reg) :=
                (hflat g hg).map reg
              exact (h1.subperm.trans ((hσ _ _).perm.map reg).subperm).trans hsub
            obtain ⟨S', L', s1, s2, s3, s4⟩ := group_strip hcuts rfl hok.nonempty hok.whole hsubg
            have hinS' := cuts_inside (le_refl _) s1
            have hS' : ∀ p ∈ g.items, S'.low (vert o d) ≤ itemStart (vert o d) p
                ∧ itemEnd (vert o d) p ≤ S'.high (vert o d) := by
              intro p hp
              have := inside_low (v := vert o d) (hinS' _ (s2.subset (List.mem_map_of_mem hp))).1
              rw [itemStart_eq, itemEnd_eq]
              exact this
            obtain ⟨q, hq, he⟩ := hok.begun
            obtain ⟨q', hq', he'⟩ := hok.reached
            have ho1 := strip_other (vert o d) R (groupStart (vert o d) g) g.cutPosition
            have hl1 := strip_low (vert o d) R (groupStart (vert o d) g) g.cutPosition
            have hh1 := strip_high (vert o d) R (groupStart (vert o d) g) g.cutPosition
            have hg3 := hgroup g hg
            generalize hT : strip (vert o d) R (groupStart (vert o d) g) g.cutPosition = T at *
            have hTR : T.Inside R := by
              refine inside_of (v := vert o d) ?_ ?_ ?_ ?_
              · rw [hl1]; exact hg3.1
              · rw [hh1]; exact hg3.2.1
              · rw [ho1.1]
              · rw [ho1.2]
            have hvs : vert o (d + 1) = !vert o d := vert_succ ho hd
            have hRS1 := inside_low (v := !vert o d) hRS
            have hdone := ih k T S' L' g.items (d + 1) n (by omega) (by omega) (fun h => by omega)
              (by obtain ⟨t1, -, -, -⟩ := hTR; omega) (by obtain ⟨-, -, t3, -⟩ := hTR; omega)
              (by rw [hvs]; exact s1) s2 ?_ ?_ (fun p hp => hfit p (hmem g hg p hp)) hfl.openLeaf
              (fun _ => hfl)
            · obtain ⟨ops, n', e1, e2, e3⟩ := hdone
              refine ⟨ops, n', g.items.map placeOf, e1, e2,
                e3.mono (by push_cast; omega), ?_⟩
              exact region_sound (fun v l => (hσ v l).perm) ho fuel T.l T.r T.b T.t g.items (d + 1)
                ops n n' (by omega) e1 hfl.openLeaf (fun _ => hfl) e2
            · refine inside_of (v := vert o d) ?_ ?_ ?_ ?_
              · rw [hl1, ← he]; exact (hS' q hq).1
              · rw [hh1, ← he']; exact (hS' q' hq').2
              · rw [s3, ho1.1]; exact hRS1.1
              · rw [s4, ho1.2]; exact hRS1.2
            · intro p hp
              refine inside_of (v := vert o d) ?_ ?_ ?_ ?_
              · rw [hl1, ← itemStart_eq]; exact hok.starts p hp
              · rw [hh1, ← itemEnd_eq]; exact hok.ends p hp
              · rw [ho1.1]; exact (inside_low (hin p (hmem g hg p hp))).1
              · rw [ho1.2]; exact (inside_low (hin p (hmem g hg p hp))).2

end

end PackingSolver.Guil.PostProcess
