import Verif.Lemmas.Guil.DpTable

/-!
# Lemmas about the table of best completions
-/

namespace PackingSolver.Guil

open Guil.Spec

section
variable {items : List ItemType} {t W H w h : Int} {dp : List ℚ} {tbl : List (WithBot ℚ)}

theorem completion_le (ht0 : 0 ≤ t) {q : ℚ} (hc : Completion items t W H w h q) :
    w ≤ W ∧ h ≤ H := by
  induction hc with
  | whole => exact ⟨le_refl _, le_refl _⟩
  | beside hc _ _ _ ih => omega
  | above hc _ _ _ ih => omega

/-- The values considered for the completion of the box `w × h`. -/
def RCandidate (dp : Int → Int → ℚ) (t W H : Int) (r : Int → Int → WithBot ℚ) (w h : Int)
    (v : WithBot ℚ) : Prop :=
  (∃ c, 0 < c ∧ w + t + c ≤ W ∧ v = r (w + t + c) h + (dp c h : WithBot ℚ))
  ∨ ∃ c, 0 < c ∧ h + t + c ≤ H ∧ v = r w (h + t + c) + (dp w c : WithBot ℚ)

theorem rdpCell_raised (hdp : IsTable W H dp) (ht : IsTable W H tbl) (hw : 0 < w) (hwW : w ≤ W)
    (hh : 0 < h) (hhH : h ≤ H) (ht0 : 0 ≤ t) (hne : ¬ (w = W ∧ h = H)) :
    ∃ tbl', rdpCell dp W H t w h tbl = .ok tbl'
      ∧ RaisedBy ⊥ W H w h (RCandidate (entry 0 W dp) t W H (entry ⊥ W tbl) w h) tbl tbl' := by
  have hin : InTable W H w h := ⟨by omega, hwW, by omega, hhH⟩
  unfold rdpCell
  rw [if_neg hne]
  have key1 := raisedBy_loop (d := (⊥ : WithBot ℚ)) (W := W) (H := H) (w := w) (h := h) (t0 := tbl)
    (n := (W - (w + t)).toNat) (step := rdpSplitX dp W t w h)
    (fun k => entry ⊥ W tbl (w + t + 1 + (k : Int)) h
      + ((entry 0 W dp (w + t + 1 + (k : Int) - w - t) h : ℚ) : WithBot ℚ)) ht ?_
  swap
  · intro k t1 S hk h1
    have i1 : InTable W H (w + t + 1 + (k : Int)) h := ⟨by omega, by omega, by omega, hhH⟩
    have i2 : InTable W H (w + t + 1 + (k : Int) - w - t) h := ⟨by omega, by omega, by omega, hhH⟩
    refine ⟨_, ?_, RaisedBy.raise h1.table hin _⟩
    unfold rdpSplitX
    rw [read_ok ⊥ h1.table i1, read_ok 0 hdp i2]
    rw [h1.other _ _ i1 (by omega)]
    rfl
  obtain ⟨t1, e1, h1⟩ := key1
  rw [e1]
  have key2 := raisedBy_loop (d := (⊥ : WithBot ℚ)) (W := W) (H := H) (w := w) (h := h) (t0 := t1)
    (n := (H - (h + t)).toNat) (step := rdpSplitY dp W t w h)
    (fun k => entry ⊥ W tbl w (h + t + 1 + (k : Int))
      + ((entry 0 W dp w (h + t + 1 + (k : Int) - h - t) : ℚ) : WithBot ℚ)) h1.table ?_
  swap
  · intro k t2 S hk h2
    have i1 : InTable W H w (h + t + 1 + (k : Int)) := ⟨by omega, by omega, by omega, by omega⟩
    have i2 : InTable W H w (h + t + 1 + (k : Int) - h - t) :=
      ⟨by omega, by omega, by omega, by omega⟩
    refine ⟨_, ?_, RaisedBy.raise h2.table hin _⟩
    unfold rdpSplitY
    rw [read_ok ⊥ h2.table i1, read_ok 0 hdp i2]
    rw [h2.other _ _ i1 (by omega), h1.other _ _ i1 (by omega)]
    rfl
  obtain ⟨t2, e2, h2⟩ := key2
  refine ⟨t2, e2, (h1.trans h2).congr fun v => ?_⟩
  unfold RCandidate
  constructor
  · rintro (⟨k, hk, e⟩ | ⟨k, hk, e⟩)
    · refine Or.inl ⟨(k : Int) + 1, by omega, by omega, ?_⟩
      rw [e]
      have a1 : w + t + 1 + (k : Int) = w + t + ((k : Int) + 1) := by omega
      have a2 : w + t + ((k : Int) + 1) - w - t = (k : Int) + 1 := by omega
      rw [a1, a2]
    · refine Or.inr ⟨(k : Int) + 1, by omega, by omega, ?_⟩
      rw [e]
      have a1 : h + t + 1 + (k : Int) = h + t + ((k : Int) + 1) := by omega
      have a2 : h + t + ((k : Int) + 1) - h - t = (k : Int) + 1 := by omega
      rw [a1, a2]
  · rintro (⟨c, hc, hc2, e⟩ | ⟨c, hc, hc2, e⟩)
    · refine Or.inl ⟨(c - 1).toNat, by omega, ?_⟩
      rw [e]
      have a1 : w + t + 1 + (((c - 1).toNat : Nat) : Int) = w + t + c := by omega
      have a2 : w + t + c - w - t = c := by omega
      rw [a1, a2]
    · refine Or.inr ⟨(c - 1).toNat, by omega, ?_⟩
      rw [e]
      have a1 : h + t + 1 + (((c - 1).toNat : Nat) : Int) = h + t + c := by omega
      have a2 : h + t + c - h - t = c := by omega
      rw [a1, a2]

theorem completion_of_candidates (hw : 0 < w) (hwW : w ≤ W) (hh : 0 < h) (hhH : h ≤ H)
    (ht0 : 0 ≤ t) (hne : ¬ (w = W ∧ h = H))
    {f : Int → Int → ℚ} {r : Int → Int → WithBot ℚ} {v : WithBot ℚ}
    (hdp : ∀ a b, 0 < a → a ≤ W → 0 < b → b ≤ H → Best items t a b (f a b))
    (hx : ∀ a, w < a → a ≤ W → IsBestCompletion items t W H a h (r a h))
    (hy : ∀ b, h < b → b ≤ H → IsBestCompletion items t W H w b (r w b))
    (hge : ∀ u, RCandidate f t W H r w h u → u ≤ v)
    (hatt : v = ⊥ ∨ RCandidate f t W H r w h v) : IsBestCompletion items t W H w h v := by
  constructor
  · intro q hq
    cases hq with
    | whole => exact absurd ⟨rfl, rfl⟩ hne
    | beside hc hp hp2 h1 =>
      rename_i c q' p
      have hle := completion_le ht0 h1
      have u1 := (hx _ (by omega) hle.1).1 _ h1
      have u2 := (hdp c h hc (by omega) hh hhH).2 p ⟨hp, hp2⟩
      refine le_trans ?_ (hge _ (Or.inl ⟨c, hc, hle.1, rfl⟩))
      rw [WithBot.coe_add]
      exact add_le_add u1 (WithBot.coe_le_coe.mpr u2)
    | above hc hp hp2 h1 =>
      rename_i c q' p
      have hle := completion_le ht0 h1
      have u1 := (hy _ (by omega) hle.2).1 _ h1
      have u2 := (hdp w c hw hwW hc (by omega)).2 p ⟨hp, hp2⟩
      refine le_trans ?_ (hge _ (Or.inr ⟨c, hc, hle.2, rfl⟩))
      rw [WithBot.coe_add]
      exact add_le_add u1 (WithBot.coe_le_coe.mpr u2)
  · intro q e
    rcases hatt with hb | ⟨c, hc, hc2, ec⟩ | ⟨c, hc, hc2, ec⟩
    · rw [hb] at e
      exact absurd e.symm (WithBot.coe_ne_bot)
    · rw [e] at ec
      rcases hr : r (w + t + c) h with _ | q'
      · rw [hr] at ec
        exact absurd (ec.trans (WithBot.bot_add _)) WithBot.coe_ne_bot
      · rw [hr] at ec
        have e1 : q = q' + f c h := by
          have : ((q : ℚ) : WithBot ℚ) = ((q' + f c h : ℚ) : WithBot ℚ) := ec
          exact WithBot.coe_inj.mp this
        obtain ⟨p, ⟨hp, hp2⟩, ep⟩ := (hdp c h hc (by omega) hh hhH).1
        have h1 := (hx _ (by omega) hc2).2 q' hr
        rw [e1, ← ep]
        exact Completion.beside hc hp hp2 h1
    · rw [e] at ec
      rcases hr : r w (h + t + c) with _ | q'
      · rw [hr] at ec
        exact absurd (ec.trans (WithBot.bot_add _)) WithBot.coe_ne_bot
      · rw [hr] at ec
        have e1 : q = q' + f w c := by
          have : ((q : ℚ) : WithBot ℚ) = ((q' + f w c : ℚ) : WithBot ℚ) := ec
          exact WithBot.coe_inj.mp this
        obtain ⟨p, ⟨hp, hp2⟩, ep⟩ := (hdp w c hw hwW hc (by omega)).1
        have h1 := (hy _ (by omega) hc2).2 q' hr
        rw [e1, ← ep]
        exact Completion.above hc hp hp2 h1

theorem completion_whole (ht0 : 0 ≤ t) : IsBestCompletion items t W H W H ((0 : ℚ) : WithBot ℚ) := by
  constructor
  · intro q hq
    cases hq with
    | whole => exact le_refl _
    | beside hc hp hp2 h1 => have := completion_le ht0 h1; omega
    | above hc hp hp2 h1 => have := completion_le ht0 h1; omega
  · intro q e
    rw [← WithBot.coe_inj.mp e]
    exact Completion.whole

/-- Everything after column `w`, and the last `j` boxes of column `w`, is computed; the rest is
`-∞`, except the whole. -/
structure RdpDone (items : List ItemType) (t W H w : Int) (j : Nat) (tbl : List (WithBot ℚ)) :
    Prop where
  table : IsTable W H tbl
  whole : entry ⊥ W tbl W H = ((0 : ℚ) : WithBot ℚ)
  done : ∀ a b, 0 < a → a ≤ W → 0 < b → b ≤ H → (w < a ∨ (a = w ∧ H - j < b)) →
    IsBestCompletion items t W H a b (entry ⊥ W tbl a b)
  todo : ∀ a b, 0 < a → a ≤ W → 0 < b → b ≤ H → ¬ (w < a ∨ (a = w ∧ H - j < b)) →
    ¬ (a = W ∧ b = H) → entry ⊥ W tbl a b = ⊥

theorem rdpDone_step (hdp : IsTable W H dp)
    (hbest : ∀ a b, 0 < a → a ≤ W → 0 < b → b ≤ H → Best items t a b (entry 0 W dp a b))
    (hw : 0 < w) (hwW : w ≤ W) (ht0 : 0 ≤ t) {j : Nat} (hj : (j : Int) < H)
    (hd : RdpDone items t W H w j tbl) :
    ∃ tbl', rdpCell dp W H t w (H - (j : Int)) tbl = .ok tbl'
      ∧ RdpDone items t W H w (j + 1) tbl' := by
  by_cases hlast : w = W ∧ H - (j : Int) = H
  · refine ⟨tbl, by unfold rdpCell; rw [if_pos hlast], hd.table, hd.whole, ?_, ?_⟩
    · intro a b ha haW hb hbH hlt
      by_cases hab : a = W ∧ b = H
      · rw [hab.1, hab.2, hd.whole]
        exact completion_whole ht0
      · exact hd.done a b ha haW hb hbH (by omega)
    · intro a b ha haW hb hbH hlt hn
      exact hd.todo a b ha haW hb hbH (by omega) hn
  · obtain ⟨tbl', e, hr⟩ := rdpCell_raised (h := H - (j : Int)) hdp hd.table hw hwW (by omega)
      (by omega) ht0 hlast
    refine ⟨tbl', e, hr.table, ?_, ?_, ?_⟩
    · rw [hr.other W H ⟨by omega, le_refl _, by omega, le_refl _⟩ hlast]
      exact hd.whole
    · intro a b ha haW hb hbH hlt
      by_cases hab : w = a ∧ H - (j : Int) = b
      · obtain ⟨rfl, rfl⟩ := hab
        have hz : entry ⊥ W tbl w (H - (j : Int)) = ⊥ :=
          hd.todo _ _ ha haW hb hbH (by omega) hlast
        refine completion_of_candidates ha haW hb hbH ht0 hlast (f := entry 0 W dp)
          (r := entry ⊥ W tbl) hbest ?_ ?_ hr.ge ?_
        · intro a ha' haw
          exact hd.done a _ (by omega) (by omega) (by omega) (by omega) (Or.inl ha')
        · intro b hb' hbj
          exact hd.done w b hw hwW (by omega) (by omega) (Or.inr ⟨rfl, by omega⟩)
        · rcases hr.attained with h | h
          · exact Or.inl (h.trans hz)
          · exact Or.inr h
      · rw [hr.other a b ⟨by omega, haW, by omega, hbH⟩ hab]
        exact hd.done a b ha haW hb hbH (by omega)
    · intro a b ha haW hb hbH hlt hn
      rw [hr.other a b ⟨by omega, haW, by omega, hbH⟩ (by omega)]
      exact hd.todo a b ha haW hb hbH (by omega) hn

theorem computeRdp_ok (hW : 0 < W) (hH : 0 < H) (ht0 : 0 ≤ t) (hdp : IsTable W H dp)
    (hbest : ∀ a b, 0 < a → a ≤ W → 0 < b → b ≤ H → Best items t a b (entry 0 W dp a b)) :
    ∃ tbl, computeRdp dp W H t = .ok tbl ∧ IsTable W H tbl
      ∧ ∀ a b, 0 < a → a ≤ W → 0 < b → b ≤ H →
        IsBestCompletion items t W H a b (entry ⊥ W tbl a b) := by
  unfold computeRdp
  have hpos : 0 ≤ (W + 1) * (H + 1) := mul_nonneg (by omega) (by omega)
  rw [if_neg (by omega)]
  dsimp only
  have hWH : InTable W H W H := ⟨by omega, le_refl _, by omega, le_refl _⟩
  have key := foldlM_range_ok (n := W.toNat)
    (f := fun tbl (i : Nat) => rdpColumn dp W H t (W - (i : Int)) tbl)
    (s := (List.replicate ((W + 1) * (H + 1)).toNat (⊥ : WithBot ℚ)).set
      (cellIndex W W H).toNat ((0 : ℚ) : WithBot ℚ))
    (P := fun i tbl => RdpDone items t W H (W - (i : Int)) 0 tbl) ?_ ?_
  · obtain ⟨tbl, e, hd⟩ := key
    exact ⟨tbl, e, hd.table, fun a b h1 h2 h3 h4 => hd.done a b h1 h2 h3 h4 (Or.inl (by omega))⟩
  · have hlen := cell_range hWH
    refine ⟨by simp [IsTable], ?_, fun a b h1 h2 h3 h4 h5 => by omega,
      fun a b h1 h2 h3 h4 h5 hn => ?_⟩
    · unfold entry
      rw [List.getD_eq_getElem?_getD, List.getElem?_set_self (by simp; omega)]
      rfl
    · unfold entry
      have hne : (cellIndex W W H).toNat ≠ (cellIndex W a b).toNat := by
        intro e
        have := cell_inj hWH ⟨by omega, h2, by omega, h4⟩ e
        exact hn ⟨this.1.symm, this.2.symm⟩
      rw [List.getD_eq_getElem?_getD, List.getElem?_set_ne hne, List.getElem?_replicate]
      split <;> rfl
  · intro i tbl hi hd
    unfold rdpColumn
    have key := foldlM_range_ok (n := H.toNat)
      (f := fun tbl (j : Nat) => rdpCell dp W H t (W - (i : Int)) (H - (j : Int)) tbl)
      (s := tbl) (P := fun j tbl => RdpDone items t W H (W - (i : Int)) j tbl) hd
      (fun j tbl hj hdj => by
        obtain ⟨tbl', e, h'⟩ := rdpDone_step hdp hbest (by omega) (by omega) ht0 (by omega) hdj
        exact ⟨tbl', e, h'⟩)
    obtain ⟨tbl', e, hd'⟩ := key
    refine ⟨tbl', e, hd'.table, hd'.whole, ?_, ?_⟩
    · intro a b h1 h2 h3 h4 h5
      exact hd'.done a b h1 h2 h3 h4 (by push_cast at h5 ⊢; omega)
    · intro a b h1 h2 h3 h4 h5 hn
      exact hd'.todo a b h1 h2 h3 h4 (by push_cast at h5 ⊢; omega) hn

end

end PackingSolver.Guil
