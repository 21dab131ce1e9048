import Verif.Lemmas.Guil.BlockSound

/-!
# The block search misses nothing when cuts have no thickness
-/

namespace PackingSolver.Guil

open Guil.Spec

/-- What the search relies on in its queue: priorities up to the initial bound are at most the
threshold of their bucket, and larger ones come first. -/
structure Bucketing.Valid (bk : Bucketing) (init : ℚ) : Prop where
  index_lt : ∀ p, bk.index p < bk.count
  le_threshold : ∀ p, 0 < p → p ≤ init → p ≤ bk.threshold (bk.index p)
  index_anti : ∀ p q, 0 < p → p ≤ q → q ≤ init → bk.index q ≤ bk.index p
  threshold_anti : ∀ j k, j ≤ k → bk.threshold k ≤ bk.threshold j

/-- What the search relies on in its tables. -/
structure CtxFull (c : HyperContext) (init : ℚ) (F : Int → Int → ℚ) : Prop extends CtxOk c where
  thin : c.t = 0
  step_x : ∀ w a h, 0 < w → 0 < a → w + a ≤ c.effW → 0 < h → h ≤ c.effH →
    c.R (w + a) h + (F a h : WithBot ℚ) ≤ c.R w h
  step_y : ∀ w a h, 0 < w → w ≤ c.effW → 0 < h → 0 < a → h + a ≤ c.effH →
    c.R w (h + a) + (F w a : WithBot ℚ) ≤ c.R w h
  fits : ∀ (p : Pattern) w h, 0 < w → w ≤ c.effW → 0 < h → h ≤ c.effH →
    p.Fits c.inst.itemTypes 0 w h → p.profit c.inst.itemTypes ≤ F w h
  top : ∀ (p : Pattern) w h, 0 < w → w ≤ c.effW → 0 < h → h ≤ c.effH →
    p.Fits c.inst.itemTypes 0 w h →
    (p.profit c.inst.itemTypes : WithBot ℚ) + c.R w h ≤ (init : WithBot ℚ)
  whole : c.R c.effW c.effH = ((0 : ℚ) : WithBot ℚ)
  valid : c.bk.Valid init

section
variable {c : HyperContext} {init : ℚ} {F : Int → Int → ℚ} {s s' : Search} {b e : Block}

theorem F_nonneg (hc : CtxFull c init F) {w h : Int} (hw : 0 < w) (hwW : w ≤ c.effW) (hh : 0 < h)
    (hhH : h ≤ c.effH) : 0 ≤ F w h := by
  have := hc.fits .waste w h hw hwW hh hhH trivial
  simpa [Pattern.profit] using this

theorem le_add_coe {x : WithBot ℚ} {q : ℚ} (hq : 0 ≤ q) : x ≤ x + (q : WithBot ℚ) := by
  cases x with
  | bot => exact bot_le
  | coe v => exact WithBot.coe_le_coe.mpr (by linarith)

theorem R_anti (hc : CtxFull c init F) {w h w' h' : Int} (hw : 0 < w) (hww : w ≤ w')
    (hwW : w' ≤ c.effW) (hh : 0 < h) (hhh : h ≤ h') (hhH : h' ≤ c.effH) :
    c.R w' h' ≤ c.R w h := by
  have h1 : c.R w' h' ≤ c.R w h' := by
    rcases eq_or_lt_of_le hww with rfl | hlt
    · exact le_refl _
    · have := hc.step_x w (w' - w) h' hw (by omega) (by omega) (by omega) hhH
      rw [show w + (w' - w) = w' by omega] at this
      exact le_trans (le_add_coe (F_nonneg hc (by omega) (by omega) (by omega) hhH)) this
  refine le_trans h1 ?_
  rcases eq_or_lt_of_le hhh with rfl | hlt
  · exact le_refl _
  · have := hc.step_y w (h' - h) h hw (by omega) hh (by omega) (by omega)
    rw [show h + (h' - h) = h' by omega] at this
    exact le_trans (le_add_coe (F_nonneg hc (by omega) (by omega) (by omega) (by omega))) this

theorem block_fits (hc : CtxFull c init F) {ret : List Block} (hb : BlockOk c ret b) {w h : Int}
    (hw : b.w ≤ w) (hh : b.h ≤ h) :
    ∃ p : Pattern, p.Fits c.inst.itemTypes 0 w h ∧ p.profit c.inst.itemTypes = b.profit := by
  have pos := hb.1.pos hc.items hc.thickness
  obtain ⟨p, f, e, -⟩ := hb.1.pattern hc.items hc.thickness
  obtain ⟨p', f', e', -⟩ := fits_enlarge hc.thickness pos.1 pos.2 hw hh f
  rw [hc.thin] at f'
  exact ⟨p', f', e'.trans e⟩

/-- A combination has at most the priority of its parts. -/
theorem vertical_le (hc : CtxFull c init F) {ret : List Block} (hb : BlockOk c ret b)
    (he : BlockOk c ret e) (hW : b.w + e.w ≤ c.effW) :
    ((b.profit + e.profit : ℚ) : WithBot ℚ) + c.R (b.w + e.w) (max b.h e.h)
      ≤ (b.profit : WithBot ℚ) + c.R b.w b.h := by
  have posb := hb.1.pos hc.items hc.thickness
  have pose := he.1.pos hc.items hc.thickness
  have hm : max b.h e.h ≤ c.effH := max_le hb.2.2 he.2.2
  have hm0 : 0 < max b.h e.h := lt_max_of_lt_left posb.2
  obtain ⟨p, f, ep⟩ := block_fits hc he (le_refl e.w) (le_max_right b.h e.h)
  have h1 := hc.fits p e.w _ pose.1 (by omega) hm0 hm f
  rw [ep] at h1
  have h2 := hc.step_x b.w e.w _ posb.1 pose.1 hW hm0 hm
  have h3 := R_anti hc posb.1 (le_refl _) hb.2.1 posb.2 (le_max_left b.h e.h) hm
  have h4 : c.R (b.w + e.w) (max b.h e.h) + (e.profit : WithBot ℚ) ≤ c.R b.w b.h :=
    le_trans (le_trans (add_le_add le_rfl (WithBot.coe_le_coe.mpr h1)) h2) h3
  rw [WithBot.coe_add, add_assoc, add_comm (e.profit : WithBot ℚ)]
  exact add_le_add le_rfl h4

theorem horizontal_le (hc : CtxFull c init F) {ret : List Block} (hb : BlockOk c ret b)
    (he : BlockOk c ret e) (hH : b.h + e.h ≤ c.effH) :
    ((b.profit + e.profit : ℚ) : WithBot ℚ) + c.R (max b.w e.w) (b.h + e.h)
      ≤ (b.profit : WithBot ℚ) + c.R b.w b.h := by
  have posb := hb.1.pos hc.items hc.thickness
  have pose := he.1.pos hc.items hc.thickness
  have hm : max b.w e.w ≤ c.effW := max_le hb.2.1 he.2.1
  have hm0 : 0 < max b.w e.w := lt_max_of_lt_left posb.1
  obtain ⟨p, f, ep⟩ := block_fits hc he (le_max_right b.w e.w) (le_refl e.h)
  have h1 := hc.fits p _ e.h hm0 hm pose.2 (by omega) f
  rw [ep] at h1
  have h2 := hc.step_y _ e.h b.h hm0 hm posb.2 pose.2 hH
  have h3 := R_anti hc posb.1 (le_max_left b.w e.w) hm posb.2 (le_refl _) hb.2.2
  have h4 : c.R (max b.w e.w) (b.h + e.h) + (e.profit : WithBot ℚ) ≤ c.R b.w b.h :=
    le_trans (le_trans (add_le_add le_rfl (WithBot.coe_le_coe.mpr h1)) h2) h3
  rw [WithBot.coe_add, add_assoc, add_comm (e.profit : WithBot ℚ)]
  exact add_le_add le_rfl h4

/-! ## Keys that have been dealt with -/

/-- A block with this key and priority need not be queued any more. -/
def Cov (s : Search) (κ : BlockKey) (p : WithBot ℚ) : Prop :=
  p ≤ (s.best : WithBot ℚ) ∨ κ ∈ s.seen
    ∨ ∃ x, Waiting s x ∧ x.key = κ ∧ (x.priority : WithBot ℚ) = p

/-- The search has only gained blocks. -/
structure Grows (s s' : Search) : Prop where
  best : s.best ≤ s'.best
  seen : s'.seen = s.seen
  waiting : ∀ x, Waiting s x → Waiting s' x
  returned : s'.returned = s.returned

theorem Grows.refl (s : Search) : Grows s s := ⟨le_refl _, rfl, fun _ h => h, rfl⟩

theorem Grows.trans {s'' : Search} (h : Grows s s') (h' : Grows s' s'') : Grows s s'' :=
  ⟨le_trans h.best h'.best, h'.seen.trans h.seen, fun x hx => h'.waiting x (h.waiting x hx),
    h'.returned.trans h.returned⟩

theorem Cov.grow (hg : Grows s s') {κ : BlockKey} {p : WithBot ℚ} (h : Cov s κ p) : Cov s' κ p := by
  rcases h with h | h | ⟨x, h1, h2⟩
  · exact Or.inl (le_trans h (WithBot.coe_le_coe.mpr hg.best))
  · exact Or.inr (Or.inl (by rw [hg.seen]; exact h))
  · exact Or.inr (Or.inr ⟨x, hg.waiting x h1, h2⟩)

theorem grows_report (s : Search) (b : Block) : Grows s (s.report b) := by
  have := report_fields s b
  refine ⟨this.2.2.2.1, this.2.1, ?_, this.2.2.1⟩
  rintro x ⟨k, hx⟩
  exact ⟨k, by rw [this.1]; exact hx⟩

theorem grows_push (s : Search) (b : Block) : Grows s (s.push c.bk b) :=
  ⟨le_refl _, rfl, fun _ ⟨k, hx⟩ => ⟨k, mem_push_old s b hx⟩, rfl⟩

/-- What holds of the blocks in the queue. -/
structure QInv (c : HyperContext) (init : ℚ) (s : Search) : Prop where
  waiting : ∀ k b, b ∈ s.buckets.getD k [] → k = c.bk.index b.priority
    ∧ (b.priority : WithBot ℚ) = (b.profit : WithBot ℚ) + c.R b.w b.h
    ∧ 0 < b.priority ∧ b.priority ≤ init ∧ b.profit ≤ s.best
  returned : ∀ b ∈ s.returned, b.profit ≤ s.best
  seen : ∀ κ ∈ s.seen, ∃ b ∈ s.returned, b.key = κ

/-- The blocks of the first `k` buckets are not good enough any more. -/
def Low (s : Search) (k : Nat) : Prop :=
  ∀ j < k, ∀ b ∈ s.buckets.getD j [], b.priority ≤ s.best

/-- A block that may be queued. -/
structure Queueable (c : HyperContext) (init : ℚ) (b : Block) (k : Nat) : Prop where
  priority : (b.priority : WithBot ℚ) = (b.profit : WithBot ℚ) + c.R b.w b.h
  pos : 0 < b.priority
  le_init : b.priority ≤ init
  later : k ≤ c.bk.index b.priority

theorem qinv_report (h : QInv c init s) (b : Block) : QInv c init (s.report b) := by
  have f := report_fields s b
  refine ⟨?_, ?_, ?_⟩
  · intro k x hx
    rw [f.1] at hx
    have := h.waiting k x hx
    exact ⟨this.1, this.2.1, this.2.2.1, this.2.2.2.1, le_trans this.2.2.2.2 f.2.2.2.1⟩
  · intro x hx
    rw [f.2.2.1] at hx
    exact le_trans (h.returned x hx) f.2.2.2.1
  · rw [f.2.1, f.2.2.1]; exact h.seen

theorem low_report {k : Nat} (h : Low s k) (b : Block) : Low (s.report b) k := by
  have f := report_fields s b
  intro j hj x hx
  rw [f.1] at hx
  exact le_trans (h j hj x hx) f.2.2.2.1

theorem qinv_push (h : QInv c init s) {k : Nat} (hq : Queueable c init b k)
    (hb : b.profit ≤ s.best) : QInv c init (s.push c.bk b) := by
  refine ⟨?_, h.returned, h.seen⟩
  intro j x hx
  rcases mem_push s b hx with hx | ⟨rfl, e⟩
  · exact h.waiting j x hx
  · exact ⟨e, hq.priority, hq.pos, hq.le_init, hb⟩

theorem low_push {k : Nat} (h : Low s k) (hq : Queueable c init b k) : Low (s.push c.bk b) k := by
  intro j hj x hx
  rcases mem_push s b hx with hx | ⟨rfl, e⟩
  · exact h j hj x hx
  · have := hq.later
    omega

theorem waiting_push (hs : SInv c s) (hv : c.bk.Valid init) (b : Block) :
    Waiting (s.push c.bk b) b :=
  ⟨_, mem_push_new s b (by rw [hs.size]; exact hv.index_lt _)⟩

/-! ## Combinations -/

theorem addCombined_all (hs : SInv c s) (hv : c.bk.Valid init) (hq : QInv c init s) {k : Nat}
    (hl : Low s k) {mk : ℚ → Block} {p : WithBot ℚ} {κ : BlockKey}
    (hmk : ∀ q : ℚ, p = q → s.best < q → BlockOk c s.returned (mk q) ∧ (mk q).priority = q
      ∧ (mk q).key = κ ∧ Queueable c init (mk q) k) :
    SInv c (addCombined c s mk p) ∧ QInv c init (addCombined c s mk p)
      ∧ Low (addCombined c s mk p) k ∧ Grows s (addCombined c s mk p)
      ∧ Cov (addCombined c s mk p) κ p := by
  refine ⟨sinv_addCombined hs fun q e hlt => (hmk q e hlt).1, ?_⟩
  rcases addCombined_cases (c := c) s mk p with ⟨hp, e⟩ | ⟨q, e1, hlt, e⟩
  · rw [e]; exact ⟨hq, hl, Grows.refl _, Or.inl hp⟩
  · rw [e]
    obtain ⟨h1, h2, h3, h4⟩ := hmk q e1 hlt
    refine ⟨qinv_push (qinv_report hq _) h4 (report_fields s _).2.2.2.2.1,
      low_push (low_report hl _) h4, (grows_report s _).trans (grows_push _ _), ?_⟩
    exact Or.inr (Or.inr ⟨mk q, waiting_push (sinv_report hs h1) hv _, h3, by rw [h2, e1]⟩)

def vkey (c : HyperContext) (b e : Block) : BlockKey :=
  ⟨b.w + e.w + c.t, max b.h e.h, mergeCopies b.itemCopies e.itemCopies, .vertical⟩

def hkey (c : HyperContext) (b e : Block) : BlockKey :=
  ⟨max b.w e.w, b.h + e.h + c.t, mergeCopies b.itemCopies e.itemCopies, .horizontal⟩

def vprio (c : HyperContext) (b e : Block) : WithBot ℚ :=
  c.prio (b.profit + e.profit) (b.w + e.w + c.t) (max b.h e.h)

def hprio (c : HyperContext) (b e : Block) : WithBot ℚ :=
  c.prio (b.profit + e.profit) (max b.w e.w) (b.h + e.h + c.t)

/-- The combinations of the two blocks have been dealt with. -/
def PairCov (c : HyperContext) (s : Search) (b e : Block) : Prop :=
  validCopies c.inst b.itemCopies e.itemCopies = true →
    Cov s (vkey c b e) (vprio c b e) ∧ Cov s (hkey c b e) (hprio c b e)

theorem PairCov.grow (hg : Grows s s') (h : PairCov c s b e) : PairCov c s' b e :=
  fun hv => ⟨(h hv).1.grow hg, (h hv).2.grow hg⟩

theorem PairCov.symm (hb : Canonical b.itemCopies) (he : Canonical e.itemCopies)
    (h : PairCov c s b e) : PairCov c s e b := by
  intro hv
  rw [validCopies_eq, mergeCopies_comm he hb, ← validCopies_eq] at hv
  have := h hv
  unfold vkey hkey vprio hprio at *
  rw [mergeCopies_comm he hb, add_comm e.w, add_comm e.h, add_comm e.profit, max_comm e.h,
    max_comm e.w]
  exact this

theorem prio_eq {profit : ℚ} {w h : Int} {q : ℚ} (h0 : 0 ≤ s.best)
    (hq : c.prio profit w h = q) (hlt : s.best < q) :
    (q : WithBot ℚ) = (profit : WithBot ℚ) + c.R w h := by
  have hf := prio_gt h0 hq hlt
  rw [← hq]
  unfold HyperContext.prio
  rw [if_pos hf]

theorem block_le_init (hc : CtxFull c init F) {ret : List Block} (hb : BlockOk c ret b) {q : ℚ}
    (hq : (q : WithBot ℚ) = (b.profit : WithBot ℚ) + c.R b.w b.h) : q ≤ init := by
  have pos := hb.1.pos hc.items hc.thickness
  obtain ⟨p, f, ep⟩ := block_fits hc hb (le_refl _) (le_refl _)
  have := hc.top p _ _ pos.1 hb.2.1 pos.2 hb.2.2 f
  rw [ep, ← hq] at this
  exact WithBot.coe_le_coe.mp this

theorem addBoth_all (hc : CtxFull c init F) (hs : SInv c s) (hq : QInv c init s) {k i j : Nat}
    (hl : Low s k) (hb : s.returned[i]? = some b) (he : s.returned[j]? = some e)
    (hbp : (b.priority : WithBot ℚ) = (b.profit : WithBot ℚ) + c.R b.w b.h)
    (hk : k = c.bk.index b.priority)
    (hv : validCopies c.inst b.itemCopies e.itemCopies = true) :
    SInv c (addBoth c b e i j s) ∧ QInv c init (addBoth c b e i j s)
      ∧ Low (addBoth c b e i j s) k ∧ Grows s (addBoth c b e i j s)
      ∧ PairCov c (addBoth c b e i j s) b e := by
  have ob := hs.returned b (List.mem_of_getElem? hb)
  have oe := hs.returned e (List.mem_of_getElem? he)
  have hv' : (mergeCopies b.itemCopies e.itemCopies).all (copiesOk c.inst) = true := by
    rw [← validCopies_eq]; exact hv
  have ht := hc.thin
  have hbi := block_le_init hc ob hbp
  unfold addBoth
  have key1 := addCombined_all (mk := verticalBlock c.t b e i j) (p := vprio c b e)
    (κ := vkey c b e) hs hc.valid hq hl ?_
  swap
  · intro q e1 hlt
    have hfit := prio_gt hs.best_nonneg e1 hlt
    have heq := prio_eq hs.best_nonneg e1 hlt
    have hok : BlockOk c s.returned (verticalBlock c.t b e i j q) :=
      ⟨.pair rfl hb he ob.1 oe.1 (Or.inl ⟨rfl, rfl, rfl⟩) rfl rfl hv', hfit⟩
    have hpos : 0 < q := lt_of_le_of_lt hs.best_nonneg hlt
    refine ⟨hok, rfl, rfl, heq, hpos, block_le_init hc hok heq, ?_⟩
    rw [hk]
    refine hc.valid.index_anti q b.priority hpos ?_ hbi
    rw [ht, add_zero] at heq hfit
    have := vertical_le hc ob oe hfit.1
    rw [← heq, ← hbp] at this
    exact WithBot.coe_le_coe.mp this
  obtain ⟨s1, q1, l1, g1, c1⟩ := key1
  have key2 := addCombined_all (mk := horizontalBlock c.t b e i j) (p := hprio c b e)
    (κ := hkey c b e) s1 hc.valid q1 l1 ?_
  swap
  · intro q e1 hlt
    have hfit := prio_gt s1.best_nonneg e1 hlt
    have heq := prio_eq s1.best_nonneg e1 hlt
    have hok : BlockOk c (addCombined c s (verticalBlock c.t b e i j) (vprio c b e)).returned
        (horizontalBlock c.t b e i j q) := by
      rw [g1.returned]
      exact ⟨.pair rfl hb he ob.1 oe.1 (Or.inr ⟨rfl, rfl, rfl⟩) rfl rfl hv', hfit⟩
    have hpos : 0 < q := lt_of_le_of_lt s1.best_nonneg hlt
    refine ⟨hok, rfl, rfl, heq, hpos, block_le_init hc hok heq, ?_⟩
    rw [hk]
    refine hc.valid.index_anti q b.priority hpos ?_ hbi
    rw [ht, add_zero] at heq hfit
    have := horizontal_le hc ob oe hfit.2
    rw [← heq, ← hbp] at this
    exact WithBot.coe_le_coe.mp this
  obtain ⟨s2, q2, l2, g2, c2⟩ := key2
  exact ⟨s2, q2, l2, g1.trans g2, fun _ => ⟨c1.grow g2, c2⟩⟩

theorem combine_all (hc : CtxFull c init F) (hs : SInv c s) (hq : QInv c init s) {k i n : Nat}
    (hl : Low s k) (hb : s.returned[i]? = some b) (hn : n ≤ s.returned.length)
    (hbp : (b.priority : WithBot ℚ) = (b.profit : WithBot ℚ) + c.R b.w b.h)
    (hk : k = c.bk.index b.priority) :
    ∃ s', (List.range n).foldlM (combineWith c b i) s = .ok s'
      ∧ (SInv c s' ∧ QInv c init s' ∧ Low s' k ∧ Grows s s'
        ∧ ∀ j < n, ∀ e, s.returned[j]? = some e → PairCov c s' b e) := by
  refine foldlM_range_ok (P := fun m s' => SInv c s' ∧ QInv c init s' ∧ Low s' k ∧ Grows s s'
        ∧ ∀ j < m, ∀ e, s.returned[j]? = some e → PairCov c s' b e)
      ⟨hs, hq, hl, Grows.refl _, by intro j hj; omega⟩ ?_
  rintro m a hm ⟨as, aq, al, ag, ap⟩
  have hlt : m < s.returned.length := by omega
  have he : s.returned[m]? = some s.returned[m] := List.getElem?_eq_getElem hlt
  generalize s.returned[m] = e at he
  have he' : a.returned[m]? = some e := by rw [ag.returned]; exact he
  have hb' : a.returned[i]? = some b := by rw [ag.returned]; exact hb
  have ob := as.returned b (List.mem_of_getElem? hb')
  have oe := as.returned e (List.mem_of_getElem? he')
  refine ⟨_, combineWith_eq (b := b) (i := i) hc.toCtxOk he' (ob.1.pos hc.items hc.thickness)
    (oe.1.pos hc.items hc.thickness), ?_⟩
  by_cases hv : validCopies c.inst b.itemCopies e.itemCopies = true
  · rw [if_pos hv]
    obtain ⟨h1, h2, h3, h4, h5⟩ := addBoth_all hc as aq al hb' he' hbp hk hv
    refine ⟨h1, h2, h3, ag.trans h4, ?_⟩
    intro j hj e' hje
    rcases Nat.lt_succ_iff_lt_or_eq.mp hj with hj | rfl
    · exact (ap j hj e' hje).grow h4
    · rw [he] at hje; cases hje; exact h5
  · rw [if_neg hv]
    refine ⟨as, aq, al, ag, ?_⟩
    intro j hj e' hje
    rcases Nat.lt_succ_iff_lt_or_eq.mp hj with hj | rfl
    · exact ap j hj e' hje
    · rw [he] at hje; cases hje; exact fun h => absurd h hv

/-! ## The main loop -/

/-- The key of a seed. -/
def seedKey (it : ItemType) (id : Nat) (rotate : Bool) : BlockKey :=
  ⟨if rotate then it.h else it.w, if rotate then it.w else it.h, [(id, 1)], .vertical⟩

def seedPrio (c : HyperContext) (it : ItemType) (rotate : Bool) : WithBot ℚ :=
  (it.profit : WithBot ℚ)
    + c.R (if rotate then it.h else it.w) (if rotate then it.w else it.h)

/-- The seeds of the first `n` item types have been dealt with. -/
def SeedCov (c : HyperContext) (s : Search) (n : Nat) : Prop :=
  ∀ id < n, ∀ it, c.inst.itemTypes[id]? = some it → 1 ≤ it.copies → ∀ rotate,
    SeedFits c it rotate → Cov s (seedKey it id rotate) (seedPrio c it rotate)

/-- What holds between two iterations of the main loop. -/
structure Full (c : HyperContext) (init : ℚ) (s : Search) : Prop where
  sound : SInv c s
  queue : QInv c init s
  pairs : ∀ b ∈ s.returned, ∀ e ∈ s.returned, PairCov c s b e
  seeds : SeedCov c s c.inst.numberOfItemTypes

/-- Changes that keep what has been dealt with. -/
def Keeps (s s' : Search) : Prop := ∀ κ p, Cov s κ p → Cov s' κ p

theorem Keeps.pair (h : Keeps s s') (hp : PairCov c s b e) : PairCov c s' b e :=
  fun hv => ⟨h _ _ (hp hv).1, h _ _ (hp hv).2⟩

theorem Keeps.seed (h : Keeps s s') {n : Nat} (hp : SeedCov c s n) : SeedCov c s' n :=
  fun id hid it hit hco r hf => h _ _ (hp id hid it hit hco r hf)

theorem full_tick (h : Full c init s) : Full c init s.tick :=
  ⟨sinv_tick h.sound, ⟨h.queue.waiting, h.queue.returned, h.queue.seen⟩, h.pairs, h.seeds⟩

theorem qinv_pop (h : QInv c init s) (k : Nat) : QInv c init (s.pop k) :=
  ⟨fun j x hx => h.waiting j x (mem_pop s hx), h.returned, h.seen⟩

theorem low_pop {k j : Nat} (h : Low s k) : Low (s.pop j) k :=
  fun i hi x hx => h i hi x (mem_pop s hx)

theorem keeps_pop {k : Nat} {y : Block} {l : List Block} (hk : s.buckets.getD k [] = y :: l)
    (hy : y.priority ≤ s.best ∨ y.key ∈ s.seen) : Keeps s (s.pop k) := by
  rintro κ p (h | h | ⟨x, ⟨j, hx⟩, h2, h3⟩)
  · exact Or.inl h
  · exact Or.inr (Or.inl h)
  · rcases mem_pop_or s hk hx with rfl | hx
    · rcases hy with hy | hy
      · left; rw [← h3]; exact WithBot.coe_le_coe.mpr hy
      · right; left; rw [← h2]; exact hy
    · exact Or.inr (Or.inr ⟨x, ⟨j, hx⟩, h2, h3⟩)

theorem keeps_accept {k : Nat} {y : Block} {l : List Block} (hk : s.buckets.getD k [] = y :: l) :
    Keeps s ((s.pop k).accept y) := by
  rintro κ p (h | h | ⟨x, ⟨j, hx⟩, h2, h3⟩)
  · exact Or.inl h
  · exact Or.inr (Or.inl (List.mem_cons_of_mem _ h))
  · rcases mem_pop_or s hk hx with rfl | hx
    · right; left; rw [← h2]; exact List.mem_cons_self
    · exact Or.inr (Or.inr ⟨x, ⟨j, hx⟩, h2, h3⟩)

theorem full_processBucket (hc : CtxFull c init F) (ht : ∀ n, c.timer n = false) {k fuel : Nat}
    (h : Full c init s) (hl : Low s k) :
    ∃ r, processBucket c k fuel s = .ok r ∧ ∀ s', r = some s' → Full c init s' ∧ Low s' (k + 1) := by
  induction fuel generalizing s with
  | zero => exact ⟨none, rfl, fun _ h => by cases h⟩
  | succ fuel ih =>
    unfold processBucket
    cases hb : s.buckets.getD k [] with
    | nil =>
      refine ⟨some s, rfl, fun s' e => ?_⟩
      cases e
      refine ⟨h, ?_⟩
      intro j hj x hx
      rcases Nat.lt_succ_iff_lt_or_eq.mp hj with hj | rfl
      · exact hl j hj x hx
      · rw [hb] at hx; cases hx
    | cons b rest =>
      dsimp only
      rw [ht, if_neg (by simp)]
      by_cases hth : c.bk.threshold k ≤ s.best
      · rw [if_pos hth]
        refine ⟨_, rfl, fun s' e => ?_⟩
        cases e
        refine ⟨full_tick h, ?_⟩
        intro j hj x hx
        rcases Nat.lt_succ_iff_lt_or_eq.mp hj with hj | rfl
        · exact hl j hj x hx
        · have hx' := h.queue.waiting j x hx
          have := hc.valid.le_threshold _ hx'.2.2.1 hx'.2.2.2.1
          rw [← hx'.1] at this
          exact le_trans this hth
      rw [if_neg hth]
      have hbk : s.tick.buckets.getD k [] = b :: rest := hb
      have hmem : b ∈ s.buckets.getD k [] := by rw [hb]; simp
      have hw := h.queue.waiting k b hmem
      have hT := full_tick h
      have skip : b.priority ≤ s.tick.best ∨ b.key ∈ s.tick.seen →
          Full c init (s.tick.pop k) := fun hy =>
        ⟨sinv_pop hT.sound k, qinv_pop hT.queue k,
          fun x hx e he => (keeps_pop hbk hy).pair (hT.pairs x hx e he),
          (keeps_pop hbk hy).seed hT.seeds⟩
      have hlp : Low (s.tick.pop k) k := low_pop (s := s.tick) hl
      by_cases h1 : b.priority ≤ (s.tick.pop k).best
      · rw [if_pos h1]
        exact ih (skip (Or.inl h1)) hlp
      rw [if_neg h1]
      by_cases h2 : b.key ∈ (s.tick.pop k).seen
      · rw [if_pos h2]
        exact ih (skip (Or.inr h2)) hlp
      rw [if_neg h2]
      have ob : BlockOk c s.returned b := h.sound.waiting b ⟨k, hmem⟩
      have ha : SInv c ((s.tick.pop k).accept b) := sinv_accept (sinv_pop hT.sound k) ob
      have hqa : QInv c init ((s.tick.pop k).accept b) := by
        refine ⟨(qinv_pop hT.queue k).waiting, ?_, ?_⟩
        · intro x hx
          rcases List.mem_append.mp hx with hx | hx
          · exact h.queue.returned x hx
          · rw [List.mem_singleton.mp hx]; exact hw.2.2.2.2
        · intro κ hκ
          rcases List.mem_cons.mp hκ with rfl | hκ
          · exact ⟨b, List.mem_append.mpr (Or.inr (by simp)), rfl⟩
          · obtain ⟨x, hx, ex⟩ := h.queue.seen κ hκ
            exact ⟨x, List.mem_append.mpr (Or.inl hx), ex⟩
      have hlen : ((s.tick.pop k).accept b).returned.length
          = (s.tick.pop k).returned.length + 1 := by
        show (_ ++ [b]).length = _
        simp
      have hget : ((s.tick.pop k).accept b).returned[(s.tick.pop k).returned.length]? = some b := by
        show ((s.tick.pop k).returned ++ [b])[(s.tick.pop k).returned.length]? = some b
        simp
      obtain ⟨s', e1, i1, i2, i3, i4, i5⟩ := combine_all hc ha hqa (k := k) hlp hget
        (le_of_eq hlen.symm) hw.2.1 hw.1
      have hkeep : Keeps s.tick s' := fun κ p hcov => (keeps_accept hbk κ p hcov).grow i4
      have hbnew : ∀ x ∈ ((s.tick.pop k).accept b).returned, PairCov c s' b x := by
        intro x hx
        obtain ⟨j, hj⟩ := List.mem_iff_getElem?.mp hx
        have hjlt := (List.getElem?_eq_some_iff.mp hj).1
        exact i5 j (by omega) x hj
      have hcan : ∀ x ∈ ((s.tick.pop k).accept b).returned, Canonical x.itemCopies :=
        fun x hx => (ha.returned x hx).1.copies.1
      have hF : Full c init s' := by
        refine ⟨i1, i2, ?_, hkeep.seed hT.seeds⟩
        rw [i4.returned]
        intro x hx y hy
        rcases List.mem_append.mp hx with hx' | hx'
        · rcases List.mem_append.mp hy with hy' | hy'
          · exact hkeep.pair (hT.pairs x hx' y hy')
          · rw [List.mem_singleton] at hy'
            subst hy'
            exact (hbnew x hx).symm (hcan _ hy) (hcan _ hx)
        · rw [List.mem_singleton] at hx'
          subst hx'
          exact hbnew y hy
      obtain ⟨r, e2, i6⟩ := ih hF i3
      refine ⟨r, ?_, i6⟩
      rw [e1]
      exact e2

theorem low_all (hc : CtxFull c init F) (h : Full c init s) {k : Nat} (hl : Low s k)
    (hth : c.bk.threshold k ≤ s.best) (n : Nat) : Low s n := by
  intro j hj x hx
  rcases lt_or_ge j k with hjk | hjk
  · exact hl j hjk x hx
  · have hx' := h.queue.waiting j x hx
    have := hc.valid.le_threshold _ hx'.2.2.1 hx'.2.2.2.1
    rw [← hx'.1] at this
    exact le_trans this (le_trans (hc.valid.threshold_anti k j hjk) hth)

theorem full_processBuckets (hc : CtxFull c init F) (ht : ∀ n, c.timer n = false) {fuel m k : Nat}
    (h : Full c init s) (hl : Low s k) :
    ∃ r, processBuckets c fuel (List.range' k m) s = .ok r
      ∧ ∀ s', r = some s' → Full c init s' ∧ Low s' (k + m) := by
  induction m generalizing s k with
  | zero => exact ⟨some s, rfl, fun s' e => by cases e; exact ⟨h, hl⟩⟩
  | succ m ih =>
    rw [List.range'_succ]
    unfold processBuckets
    rw [ht, if_neg (by simp)]
    by_cases hth : c.bk.threshold k ≤ s.best
    · rw [if_pos hth]
      exact ⟨_, rfl, fun s' e => by cases e; exact ⟨full_tick h, low_all hc h hl hth _⟩⟩
    · rw [if_neg hth]
      obtain ⟨r, e1, i1⟩ := full_processBucket (k := k) (fuel := fuel) hc ht (full_tick h) hl
      rw [e1]
      cases r with
      | none => exact ⟨none, rfl, fun _ h => by cases h⟩
      | some s1 =>
        obtain ⟨j1, j2⟩ := i1 s1 rfl
        have := ih (k := k + 1) j1 j2
        rw [show k + 1 + m = k + (m + 1) by omega] at this
        exact this

/-! ## Seeds -/

theorem seedWith_all (hc : CtxFull c init F) (hs : SInv c s) (hq : QInv c init s) {id : Nat}
    {it : ItemType} (hit : c.inst.itemTypes[id]? = some it) {rotate : Bool}
    (hf : SeedFits c it rotate) (hco : 1 ≤ it.copies) :
    let s' := seedWith c it id rotate s
      (c.R (if rotate then it.h else it.w) (if rotate then it.w else it.h))
    SInv c s' ∧ QInv c init s' ∧ Grows s s'
      ∧ Cov s' (seedKey it id rotate) (seedPrio c it rotate) := by
  intro s'
  have hS : SInv c s' := sinv_seedWith hs (fun p => seed_ok _ hit hf hco p) _
  refine ⟨hS, ?_⟩
  show QInv c init (seedWith c it id rotate s _) ∧ Grows s (seedWith c it id rotate s _)
    ∧ Cov (seedWith c it id rotate s _) _ _
  unfold seedWith seedPrio
  cases hr : c.R (if rotate then it.h else it.w) (if rotate then it.w else it.h) with
  | bot => exact ⟨hq, Grows.refl _, Or.inl (by rw [WithBot.add_bot]; exact bot_le)⟩
  | coe v =>
    show QInv c init (if it.profit + v ≤ s.best then _ else _)
      ∧ Grows s (if it.profit + v ≤ s.best then _ else _)
      ∧ Cov (if it.profit + v ≤ s.best then _ else _) _ ((it.profit + v : ℚ) : WithBot ℚ)
    by_cases h1 : it.profit + v ≤ s.best
    · simp only [if_pos h1]
      exact ⟨hq, Grows.refl _, Or.inl (WithBot.coe_le_coe.mpr h1)⟩
    · simp only [if_neg h1]
      set block := seedBlock it id rotate (it.profit + v) with hbl
      have hbp : block.priority = it.profit + v := rfl
      have hok : BlockOk c s.returned block := seed_ok _ hit hf hco _
      have hpr : (block.priority : WithBot ℚ) = (block.profit : WithBot ℚ) + c.R block.w block.h := by
        show ((it.profit + v : ℚ) : WithBot ℚ) = (it.profit : WithBot ℚ) + c.R _ _
        rw [show c.R block.w block.h = _ from hr]
        rfl
      have hpos : 0 < block.priority := by
        rw [hbp]; exact lt_of_le_of_lt hs.best_nonneg (not_le.mp h1)
      have hQ : Queueable c init block 0 :=
        ⟨hpr, hpos, block_le_init hc hok hpr, Nat.zero_le _⟩
      by_cases h2 : block.priority > (s.report block).best
      · simp only [if_pos h2]
        refine ⟨qinv_push (qinv_report hq _) hQ (report_fields s _).2.2.2.2.1,
          (grows_report s _).trans (grows_push _ _), ?_⟩
        exact Or.inr (Or.inr ⟨block, waiting_push (sinv_report hs hok) hc.valid _, rfl, rfl⟩)
      · simp only [if_neg h2]
        exact ⟨qinv_report hq _, grows_report s _,
          Or.inl (WithBot.coe_le_coe.mpr (not_lt.mp h2))⟩

theorem seedRotation_all (hc : CtxFull c init F) (hs : SInv c s) (hq : QInv c init s) {id : Nat}
    {it : ItemType} (hit : c.inst.itemTypes[id]? = some it) (hco : 1 ≤ it.copies)
    (rotate : Bool) :
    ∃ s', seedRotation c id rotate s = .ok s' ∧ SInv c s' ∧ QInv c init s' ∧ Grows s s'
      ∧ (SeedFits c it rotate → Cov s' (seedKey it id rotate) (seedPrio c it rotate)) := by
  rcases seedRotation_eq hc.toCtxOk hit rotate s with ⟨hf, e⟩ | ⟨hn, e⟩
  · obtain ⟨h1, h2, h3, h4⟩ := seedWith_all hc hs hq hit hf hco
    exact ⟨_, e, h1, h2, h3, fun _ => h4⟩
  · exact ⟨_, e, hs, hq, Grows.refl _, fun h => absurd h hn⟩

theorem seedItem_all (hc : CtxFull c init F) (hs : SInv c s) (hq : QInv c init s) {id : Nat}
    (hid : id < c.inst.numberOfItemTypes) :
    ∃ s', seedItem c s id = .ok s' ∧ SInv c s' ∧ QInv c init s' ∧ Grows s s'
      ∧ ∀ it, c.inst.itemTypes[id]? = some it → 1 ≤ it.copies → ∀ rotate,
        SeedFits c it rotate → Cov s' (seedKey it id rotate) (seedPrio c it rotate) := by
  obtain ⟨it, hit⟩ := item_some hid
  unfold seedItem
  rw [itemType_of_some hit]
  by_cases h1 : it.copies < 1
  · rw [if_pos h1]
    refine ⟨s, rfl, hs, hq, Grows.refl _, ?_⟩
    intro it' hit' hco
    rw [hit] at hit'; cases hit'
    omega
  · rw [if_neg h1]
    obtain ⟨s1, e1, a1, b1, g1, k1⟩ := seedRotation_all hc hs hq hit (by omega) false
    obtain ⟨s2, e2, a2, b2, g2, k2⟩ := seedRotation_all hc a1 b1 hit (by omega) true
    refine ⟨s2, by rw [e1]; exact e2, a2, b2, g1.trans g2, ?_⟩
    intro it' hit' _ rotate hf
    rw [hit] at hit'; cases hit'
    cases rotate with
    | false => exact (k1 hf).grow g2
    | true => exact k2 hf

theorem seedAll_full (hc : CtxFull c init F) :
    ∃ s, seedAll c { buckets := List.replicate c.bk.count [] } = .ok s ∧ Full c init s := by
  have h0 : ∀ k, (List.replicate c.bk.count ([] : List Block)).getD k [] = [] := by
    intro k
    rw [List.getD_eq_getElem?_getD, List.getElem?_replicate]
    split <;> rfl
  have key := foldlM_range_ok (n := c.inst.numberOfItemTypes) (f := seedItem c)
    (s := ({ buckets := List.replicate c.bk.count [] } : Search))
    (P := fun n s => SInv c s ∧ QInv c init s ∧ s.returned = [] ∧ SeedCov c s n) ?_ ?_
  · obtain ⟨s, e, h1, h2, h3, h4⟩ := key
    refine ⟨s, e, h1, h2, ?_, h4⟩
    rw [h3]
    intro b hb; cases hb
  · refine ⟨sinv_init c, ⟨?_, by simp, by simp⟩, rfl, by intro id hid; omega⟩
    intro k b hb
    rw [h0] at hb
    cases hb
  · rintro k a hk ⟨h1, h2, h3, h4⟩
    obtain ⟨s', e, i1, i2, i3, i4⟩ := seedItem_all hc h1 h2 hk
    refine ⟨s', e, i1, i2, by rw [i3.returned, h3], ?_⟩
    intro id hid
    rcases Nat.lt_succ_iff_lt_or_eq.mp hid with hid | rfl
    · exact fun it hit hco r hf => (h4 id hid it hit hco r hf).grow i3
    · exact i4

theorem runSearch_full (hc : CtxFull c init F) (ht : ∀ n, c.timer n = false) {fuel : Nat}
    (he : runSearch c fuel = .ok (some s)) :
    Full c init s ∧ ∀ x, Waiting s x → x.priority ≤ s.best := by
  unfold runSearch at he
  obtain ⟨s1, e1, f1⟩ := seedAll_full hc
  rw [e1] at he
  have := full_processBuckets (m := c.bk.count) (k := 0) (fuel := fuel) hc ht f1
    (by intro j hj; omega)
  rw [← List.range_eq_range'] at this
  obtain ⟨r, e2, h2⟩ := this
  have e3 : (Except.ok r : Except Err (Option Search)) = .ok (some s) := e2.symm.trans he
  cases e3
  obtain ⟨h3, h4⟩ := h2 s rfl
  refine ⟨h3, ?_⟩
  rintro x ⟨k, hx⟩
  refine h4 k ?_ x hx
  have := (h3.queue.waiting k x hx).1
  rw [this]
  have := hc.valid.index_lt x.priority
  omega

/-! ## Every pattern is found -/

theorem count_some {items : List ItemType} {t w h : Int} {p : Pattern} (hf : p.Fits items t w h)
    {i : Nat} (hi : 0 < p.count i) : ∃ it, items[i]? = some it := by
  induction p generalizing w h with
  | waste => simp [Pattern.count] at hi
  | item id rot =>
    obtain ⟨it, hit, -⟩ := hf
    simp only [Pattern.count] at hi
    split at hi
    · subst_vars; exact ⟨it, hit⟩
    · omega
  | vertical x l r ihl ihr =>
    obtain ⟨-, -, h3, h4 | h4⟩ := hf
    · simp only [Pattern.count] at hi
      rcases Nat.eq_zero_or_pos (l.count i) with h0 | h0
      · exact ihr h4.2 (by omega)
      · exact ihl h3 h0
    · rw [h4.2] at hi
      exact ihl h3 (by simpa [Pattern.count] using hi)
  | horizontal x l r ihl ihr =>
    obtain ⟨-, -, h3, h4 | h4⟩ := hf
    · simp only [Pattern.count] at hi
      rcases Nat.eq_zero_or_pos (l.count i) with h0 | h0
      · exact ihr h4.2 (by omega)
      · exact ihl h3 h0
    · rw [h4.2] at hi
      exact ihl h3 (by simpa [Pattern.count] using hi)

/-- The pattern has no item, or its items are those of a returned block that is not larger. -/
def Found (c : HyperContext) (s : Search) (p : Pattern) (w h : Int) : Prop :=
  (p.profit c.inst.itemTypes = 0 ∧ ∀ i, p.count i = 0)
  ∨ ∃ b ∈ s.returned, b.w ≤ w ∧ b.h ≤ h ∧ b.profit = p.profit c.inst.itemTypes
    ∧ ∀ i, sparseCount b.itemCopies i = (p.count i : Int)

theorem cov_found (hF : Full c init s) (hlow : ∀ x, Waiting s x → x.priority ≤ s.best)
    {κ : BlockKey} {p : WithBot ℚ} (hcov : Cov s κ p) (hp : (s.best : WithBot ℚ) < p) :
    ∃ b ∈ s.returned, b.key = κ := by
  rcases hcov with h | h | ⟨x, h1, h2, h3⟩
  · exact absurd h (not_le.mpr hp)
  · exact hF.queue.seen κ h
  · rw [← h3] at hp
    exact absurd (WithBot.coe_le_coe.mpr (hlow x h1)) (not_le.mpr hp)

theorem found_pair (hc : CtxFull c init F) (hF : Full c init s)
    (hlow : ∀ x, Waiting s x → x.priority ≤ s.best) {l r : Pattern} {w h wl wr hl hr : Int}
    (hwW : w ≤ c.effW) (hhH : h ≤ c.effH)
    (hres : ∀ i, 0 < l.count i + r.count i →
      ((l.count i + r.count i : Nat) : Int) ≤ (c.inst.itemType i).copies)
    (hbest : (s.best : WithBot ℚ) <
      ((l.profit c.inst.itemTypes + r.profit c.inst.itemTypes : ℚ) : WithBot ℚ) + c.R w h)
    (hdim : (wl + wr = w ∧ hl = h ∧ hr = h) ∨ (wl = w ∧ wr = w ∧ hl + hr = h))
    (hl0 : 0 ≤ wl ∧ 0 ≤ wr ∧ 0 ≤ hl ∧ 0 ≤ hr)
    (fl : Found c s l wl hl) (fr : Found c s r wr hr) :
    (l.profit c.inst.itemTypes + r.profit c.inst.itemTypes = 0
        ∧ ∀ i, l.count i + r.count i = 0)
    ∨ ∃ b ∈ s.returned, b.w ≤ w ∧ b.h ≤ h
      ∧ b.profit = l.profit c.inst.itemTypes + r.profit c.inst.itemTypes
      ∧ ∀ i, sparseCount b.itemCopies i = ((l.count i + r.count i : Nat) : Int) := by
  rcases fl with ⟨pl, cl⟩ | ⟨bl, ml, wl', hl', pl, cl⟩
  · rcases fr with ⟨pr, cr⟩ | ⟨br, mr, wr', hr', pr, cr⟩
    · left; exact ⟨by rw [pl, pr, add_zero], fun i => by rw [cl, cr]⟩
    · right
      exact ⟨br, mr, by omega, by omega, by rw [pl, pr, zero_add], fun i => by rw [cr, cl, zero_add]⟩
  · rcases fr with ⟨pr, cr⟩ | ⟨br, mr, wr', hr', pr, cr⟩
    · right
      exact ⟨bl, ml, by omega, by omega, by rw [pl, pr, add_zero], fun i => by rw [cl, cr, add_zero]⟩
    · right
      have okl := hF.sound.returned bl ml
      have okr := hF.sound.returned br mr
      have posl := okl.1.pos hc.items hc.thickness
      have posr := okr.1.pos hc.items hc.thickness
      have cpl := okl.1.copies
      have cpr := okr.1.copies
      have hcnt : ∀ i, sparseCount (mergeCopies bl.itemCopies br.itemCopies) i
          = ((l.count i + r.count i : Nat) : Int) := by
        intro i; rw [sparseCount_merge, cl, cr]; push_cast; rfl
      have hv : validCopies c.inst bl.itemCopies br.itemCopies = true := by
        rw [validCopies_eq, all_copiesOk_iff _ (canonical_merge _ _ cpl.1 cpr.1)]
        intro i hi
        rw [hcnt] at hi ⊢
        exact hres i (by omega)
      have hpair := hF.pairs bl ml br mr hv
      have ht := hc.thin
      have fin : ∀ x : Block, x ∈ s.returned →
          x.itemCopies = mergeCopies bl.itemCopies br.itemCopies →
          x.profit = l.profit c.inst.itemTypes + r.profit c.inst.itemTypes
          ∧ ∀ i, sparseCount x.itemCopies i = ((l.count i + r.count i : Nat) : Int) := by
        intro x hx ex
        refine ⟨?_, fun i => by rw [ex, hcnt]⟩
        rw [(hF.sound.returned x hx).1.copies.2.1, ex, profitOf_merge, ← cpl.2.1, ← cpr.2.1, pl, pr]
      rcases hdim with ⟨e1, e2, e3⟩ | ⟨e1, e2, e3⟩
      · have hW' : bl.w + br.w ≤ w := by omega
        have hH' : max bl.h br.h ≤ h := by omega
        have hlt : (s.best : WithBot ℚ) < vprio c bl br := by
          unfold vprio HyperContext.prio
          rw [ht, add_zero, if_pos ⟨by omega, by omega⟩, pl, pr]
          exact lt_of_lt_of_le hbest (add_le_add le_rfl
            (R_anti hc (by omega) hW' hwW (by omega) hH' hhH))
        obtain ⟨x, hx, ex⟩ := cov_found hF hlow hpair.1 hlt
        obtain ⟨f1, f2⟩ := fin x hx (congrArg BlockKey.itemCopies ex)
        refine ⟨x, hx, ?_, ?_, f1, f2⟩
        · have : x.w = bl.w + br.w + c.t := congrArg BlockKey.w ex
          omega
        · have : x.h = max bl.h br.h := congrArg BlockKey.h ex
          omega
      · have hW' : max bl.w br.w ≤ w := by omega
        have hH' : bl.h + br.h ≤ h := by omega
        have hlt : (s.best : WithBot ℚ) < hprio c bl br := by
          unfold hprio HyperContext.prio
          rw [ht, add_zero, if_pos ⟨by omega, by omega⟩, pl, pr]
          exact lt_of_lt_of_le hbest (add_le_add le_rfl
            (R_anti hc (by omega) hW' hwW (by omega) hH' hhH))
        obtain ⟨x, hx, ex⟩ := cov_found hF hlow hpair.2 hlt
        obtain ⟨f1, f2⟩ := fin x hx (congrArg BlockKey.itemCopies ex)
        refine ⟨x, hx, ?_, ?_, f1, f2⟩
        · have : x.w = max bl.w br.w := congrArg BlockKey.w ex
          omega
        · have : x.h = bl.h + br.h + c.t := congrArg BlockKey.h ex
          omega

theorem lt_part {best : WithBot ℚ} {a b : ℚ} {r r' : WithBot ℚ} {f : ℚ}
    (h : best < ((a + b : ℚ) : WithBot ℚ) + r) (hb : b ≤ f) (hr : r + (f : WithBot ℚ) ≤ r') :
    best < (a : WithBot ℚ) + r' := by
  refine lt_of_lt_of_le h ?_
  rw [WithBot.coe_add, add_assoc, add_comm (b : WithBot ℚ)]
  exact add_le_add le_rfl (le_trans (add_le_add le_rfl (WithBot.coe_le_coe.mpr hb)) hr)

theorem pattern_found (hc : CtxFull c init F) (hF : Full c init s)
    (hlow : ∀ x, Waiting s x → x.priority ≤ s.best) (p : Pattern) (w h : Int)
    (hw : 0 < w) (hwW : w ≤ c.effW) (hh : 0 < h) (hhH : h ≤ c.effH)
    (hf : p.Fits c.inst.itemTypes 0 w h)
    (hres : ∀ i, 0 < p.count i → (p.count i : Int) ≤ (c.inst.itemType i).copies)
    (hbest : (s.best : WithBot ℚ) < (p.profit c.inst.itemTypes : WithBot ℚ) + c.R w h) :
    Found c s p w h := by
  induction p generalizing w h with
  | waste => exact Or.inl ⟨rfl, fun _ => rfl⟩
  | item id rot =>
    obtain ⟨it, hit, hd⟩ := hf
    have hco : 1 ≤ it.copies := by
      have := hres id (by simp [Pattern.count])
      rw [itemType_of_some hit] at this
      simpa [Pattern.count] using this
    have hpro : (Pattern.item id rot).profit c.inst.itemTypes = it.profit := by
      simp only [Pattern.profit]
      rw [List.getD_eq_getElem?_getD, hit]; rfl
    rw [hpro] at hbest
    have hid : id < c.inst.numberOfItemTypes := (List.getElem?_eq_some_iff.mp hit).1
    have hex : ∃ rot', SeedFits c it rot' ∧ (if rot' then it.h else it.w) = w
        ∧ (if rot' then it.w else it.h) = h := by
      cases rot with
      | false =>
        simp only [Bool.false_eq_true, if_false] at hd
        exact ⟨false, ⟨by simp, by simp, by simp; omega, by simp; omega⟩, by simp [hd.1],
          by simp [hd.2]⟩
      | true =>
        simp only [if_true] at hd
        by_cases hsq : it.w = it.h
        · exact ⟨false, ⟨by simp, by simp, by simp; omega, by simp; omega⟩, by simp; omega,
            by simp; omega⟩
        · exact ⟨true, ⟨by simp [hd.1], by simp [hsq], by simp; omega, by simp; omega⟩,
            by simp; omega, by simp; omega⟩
    obtain ⟨rot', hsf, ew, eh⟩ := hex
    have hcov := hF.seeds id hid it hit hco rot' hsf
    have hlt : (s.best : WithBot ℚ) < seedPrio c it rot' := by
      unfold seedPrio; rw [ew, eh]; exact hbest
    obtain ⟨b, hb, eb⟩ := cov_found hF hlow hcov hlt
    have e1 : b.w = _ := congrArg BlockKey.w eb
    have e2 : b.h = _ := congrArg BlockKey.h eb
    have e3 : b.itemCopies = [(id, 1)] := congrArg BlockKey.itemCopies eb
    refine Or.inr ⟨b, hb, by rw [e1]; exact le_of_eq ew, by rw [e2]; exact le_of_eq eh, ?_, ?_⟩
    · rw [(hF.sound.returned b hb).1.copies.2.1, e3, hpro, profitOf_cons, itemType_of_some hit]
      simp [profitOf]
    · intro i
      rw [e3]
      simp only [Pattern.count, sparseCount, List.map_cons, List.map_nil, List.sum_cons,
        List.sum_nil]
      split <;> rfl
  | vertical x l r ihl ihr =>
    obtain ⟨h1, h2, h3, h4 | h4⟩ := hf
    swap
    · omega
    rw [show w - x - 0 = w - x by omega] at h4
    have hres' : ∀ i, 0 < l.count i + r.count i →
        ((l.count i + r.count i : Nat) : Int) ≤ (c.inst.itemType i).copies := fun i hi => hres i hi
    have bl : (s.best : WithBot ℚ) < (l.profit c.inst.itemTypes : WithBot ℚ) + c.R x h := by
      refine lt_part hbest (hc.fits r (w - x) h (by omega) (by omega) hh hhH h4.2) ?_
      have := hc.step_x x (w - x) h h1 (by omega) (by omega) hh hhH
      rwa [show x + (w - x) = w by omega] at this
    have br : (s.best : WithBot ℚ) < (r.profit c.inst.itemTypes : WithBot ℚ) + c.R (w - x) h := by
      simp only [Pattern.profit] at hbest
      rw [add_comm (l.profit _)] at hbest
      refine lt_part hbest (hc.fits l x h (by omega) (by omega) hh hhH h3) ?_
      have := hc.step_x (w - x) x h (by omega) h1 (by omega) hh hhH
      rwa [show w - x + x = w by omega] at this
    have fl := ihl x h h1 (by omega) hh hhH h3
      (fun i hi => le_trans (by omega) (hres' i (by omega))) bl
    have fr := ihr (w - x) h (by omega) (by omega) hh hhH h4.2
      (fun i hi => le_trans (by omega) (hres' i (by omega))) br
    exact found_pair hc hF hlow hwW hhH hres' hbest (Or.inl ⟨by omega, rfl, rfl⟩)
      ⟨by omega, by omega, by omega, by omega⟩ fl fr
  | horizontal x l r ihl ihr =>
    obtain ⟨h1, h2, h3, h4 | h4⟩ := hf
    swap
    · omega
    rw [show h - x - 0 = h - x by omega] at h4
    have hres' : ∀ i, 0 < l.count i + r.count i →
        ((l.count i + r.count i : Nat) : Int) ≤ (c.inst.itemType i).copies := fun i hi => hres i hi
    have bl : (s.best : WithBot ℚ) < (l.profit c.inst.itemTypes : WithBot ℚ) + c.R w x := by
      refine lt_part hbest (hc.fits r w (h - x) hw hwW (by omega) (by omega) h4.2) ?_
      have := hc.step_y w (h - x) x hw hwW h1 (by omega) (by omega)
      rwa [show x + (h - x) = h by omega] at this
    have br : (s.best : WithBot ℚ) < (r.profit c.inst.itemTypes : WithBot ℚ) + c.R w (h - x) := by
      simp only [Pattern.profit] at hbest
      rw [add_comm (l.profit _)] at hbest
      refine lt_part hbest (hc.fits l w x hw hwW h1 (by omega) h3) ?_
      have := hc.step_y w x (h - x) hw hwW (by omega) h1 (by omega)
      rwa [show h - x + x = h by omega] at this
    have fl := ihl w x hw hwW h1 (by omega) h3
      (fun i hi => le_trans (by omega) (hres' i (by omega))) bl
    have fr := ihr w (h - x) hw hwW (by omega) (by omega) h4.2
      (fun i hi => le_trans (by omega) (hres' i (by omega))) br
    exact found_pair hc hF hlow hwW hhH hres' hbest (Or.inr ⟨rfl, rfl, by omega⟩)
      ⟨by omega, by omega, by omega, by omega⟩ fl fr

/-- No pattern of the plate that respects the copies is better than what the search found. -/
theorem runSearch_complete (hc : CtxFull c init F) (ht : ∀ n, c.timer n = false) {fuel : Nat}
    (he : runSearch c fuel = .ok (some s)) {p : Pattern}
    (hf : p.Fits c.inst.itemTypes 0 c.effW c.effH)
    (hres : ∀ i, 0 < p.count i → (p.count i : Int) ≤ (c.inst.itemType i).copies) :
    p.profit c.inst.itemTypes ≤ s.best := by
  obtain ⟨hF, hlow⟩ := runSearch_full hc ht he
  by_contra hn
  have hn := not_le.mp hn
  have hb : (s.best : WithBot ℚ)
      < (p.profit c.inst.itemTypes : WithBot ℚ) + c.R c.effW c.effH := by
    rw [hc.whole, ← WithBot.coe_add, add_zero]
    exact WithBot.coe_lt_coe.mpr hn
  rcases pattern_found hc hF hlow p _ _ hc.width (le_refl _) hc.height (le_refl _) hf hres hb with
    ⟨h0, -⟩ | ⟨b, hb, -, -, e, -⟩
  · rw [h0] at hn
    exact absurd hF.sound.best_nonneg (not_le.mpr hn)
  · have := hF.queue.returned b hb
    rw [e] at this
    exact absurd this (not_le.mpr hn)

end

end PackingSolver.Guil
