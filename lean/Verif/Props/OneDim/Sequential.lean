import Verif.Lemmas.OneDim.Sequential
import Verif.Props.OneDim.PostProcess
import Verif.Props.OneDim.Solution

/-!
# C34: the sequential feasibility scheme for bin packing
-/

namespace PackingSolver.OneDim

open InstanceBuilder SequentialLemmas PackingLemmas PostLemmas PackingSolver.OneDim.Spec

variable {inst sub : Instance} {k : Int} {o : Objective} {ops : List Op}

theorem FitsInFirst.mono (hk : k ≤ k') {p : Packing} (h : FitsInFirst inst k p) :
    FitsInFirst inst k' p :=
  ⟨h.typed, h.bins, h.complete, fun t ht => le_trans (h.limits t ht) (by
    unfold firstBins
    omega)⟩

/-- The sub-instance for `k` bins asks exactly for a complete packing in the first
`k` bins of the instance. -/
theorem sequential_sub_instance (hbuilt : runOps o ops = .ok inst)
    (hcopies : ∀ t ∈ inst.binTypes, 0 ≤ t.copies) (h : sequentialSubInstance inst k = .ok sub) :
    (∀ p, Admissible sub p → FitsInFirst inst k p)
    ∧ (∀ p, FitsInFirst inst k p → (∀ b ∈ p, 0 < b.copies) → Admissible sub p) := by
  have hq := (build_copies_partial hbuilt).2
  obtain ⟨m, hm, hm1, hm2, hs, hobj, hcb, -⟩ := sub_facts (fun t ht => (hq t ht).2.1) hcopies
    (build_precedenceIds hbuilt) h
  have hs' : IsSubInstance (limitBins inst k) (List.range m)
      (List.range (limitBins inst k).numberOfItemTypes) sub := hs
  have hnb : sub.numberOfBinTypes = m := by rw [hs.numberOfBinTypes]; simp
  have hni : sub.numberOfItemTypes = inst.numberOfItemTypes := by
    rw [hs.numberOfItemTypes]; simp
  have hzero : ∀ t, m ≤ t → t < inst.numberOfBinTypes → firstBins inst k t = 0 := by
    intro t h1 h2
    have e1 := hm1 (by omega)
    have e2 := binsBefore_mono hcopies h1 (le_of_lt h2)
    unfold firstBins
    omega
  have hbd : ∀ t, t < m → (sub.binType t).copies = firstBins inst k t
      ∧ (sub.binType t).copiesMin = 0 := by
    intro t ht
    have e := sub_bins hs ht
    rw [limit_binType inst k (show t < inst.binTypes.length by
      exact lt_of_lt_of_le ht hm)] at e
    exact ⟨e.copies, e.copiesMin⟩
  have hok : ∀ t l, t < m → (∀ i ∈ l, i < inst.numberOfItemTypes) →
      (BinOk sub t l ↔ BinOk inst t l) := by
    intro t l ht hl
    rw [binOk_sub hs' ht hl]
    have e := limit_binType inst k (show t < inst.binTypes.length by
      exact lt_of_lt_of_le ht hm)
    have e2 : ∀ i, (limitBins inst k).itemType i = inst.itemType i := fun i => rfl
    constructor
    · rintro ⟨a, b, c, d, f, g⟩
      refine ⟨?_, ?_, ?_, d, f, ?_⟩
      · unfold Fits at a ⊢; rw [e] at a; exact a
      · unfold WeightOk at b ⊢; rw [e] at b; exact b
      · unfold EligibleAll EligibleIn at c ⊢; rw [e] at c; exact c
      · unfold ResourcesOk at g ⊢; rw [e] at g; exact g
    · rintro ⟨a, b, c, d, f, g⟩
      refine ⟨?_, ?_, ?_, d, f, ?_⟩
      · unfold Fits at a ⊢; rw [e]; exact a
      · unfold WeightOk at b ⊢; rw [e]; exact b
      · unfold EligibleAll EligibleIn at c ⊢; rw [e]; exact c
      · unfold ResourcesOk at g ⊢; rw [e]; exact g
  have hall : ∀ p, AllPacked sub p ↔ AllPacked inst p := by
    intro p
    unfold AllPacked
    rw [hni]
    refine forall₂_congr fun i hi => ?_
    rw [(sub_items hs hi).copies]
    rfl
  refine ⟨fun p hp => ?_, fun p hp hpos => ?_⟩
  · refine ⟨fun b hb => ?_, fun b hb => ?_, ?_, fun t ht => ?_⟩
    · obtain ⟨h1, h2, h3⟩ := hp.typed b hb
      rw [hnb] at h1
      exact ⟨by omega, h2, fun i hi => hni ▸ h3 i hi⟩
    · obtain ⟨h1, h2, h3⟩ := hp.typed b hb
      exact (hok _ _ (by omega) fun i hi => hni ▸ h3 i hi).mp (hp.feasible.bins b hb)
    · exact (hall p).mp (hp.complete (by rw [hobj]; decide))
    · by_cases htm : t < m
      · have := (hp.limits t (by omega)).2
        rwa [(hbd t htm).1] at this
      · rw [hzero t (by omega) ht]
        apply le_of_eq
        unfold Spec.binCopies
        refine List.sum_eq_zero fun x hx => ?_
        obtain ⟨b, hb, rfl⟩ := List.mem_map.mp hx
        have := (hp.typed b hb).1
        rw [if_neg (by omega)]
  · have hlt : ∀ b ∈ p, b.binTypeId < m := by
      intro b hb
      by_contra hge
      have h1 := (hp.typed b hb).1
      have h2 := hp.limits _ h1
      rw [hzero _ (by omega) h1] at h2
      have h3 : b.copies ≤ Spec.binCopies p b.binTypeId := by
        unfold Spec.binCopies
        have hmem : b.copies ∈ p.map (fun b' => if b'.binTypeId = b.binTypeId then b'.copies else 0) :=
          List.mem_map.mpr ⟨b, hb, by simp⟩
        refine List.single_le_sum (fun x hx => ?_) _ hmem
        obtain ⟨b', hb', rfl⟩ := List.mem_map.mp hx
        split_ifs
        · exact (hp.typed b' hb').2.1
        · exact le_refl _
      have := hpos b hb
      omega
    have htyped : WellTyped sub p := fun b hb => by
      obtain ⟨h1, h2, h3⟩ := hp.typed b hb
      exact ⟨hnb ▸ hlt b hb, h2, fun i hi => hni.symm ▸ h3 i hi⟩
    have hcomp := (hall p).mpr hp.complete
    refine ⟨htyped, ⟨fun b hb => ?_, fun i hi => ?_, hcb p⟩, fun t ht => ?_, fun _ => hcomp,
      fun ho => by rw [hobj] at ho; cases ho⟩
    · exact (hok _ _ (hlt b hb) (hp.typed b hb).2.2).mpr (hp.bins b hb)
    · rw [hcomp i hi]
      exact ⟨((build_copies_partial h).1 _ (getD_mem _ hi)).1, le_refl _⟩
    · rw [hnb] at ht
      rw [(hbd t ht).1, (hbd t ht).2]
      exact ⟨binCopies_nonneg htyped t, hp.limits t (by omega)⟩

/-- A packing of the instance with at most `k` bins, in the order of the types, only
uses the first `k` bins. -/
theorem admissible_fitsInFirst (hobj : inst.objective = .binPacking) {p : Packing}
    (hp : Admissible inst p) (hk : numberOfBins p ≤ k) : FitsInFirst inst k p := by
  refine ⟨hp.typed, hp.feasible.bins, hp.complete (by rw [hobj]; decide), fun t ht => ?_⟩
  have h1 := (hp.limits t ht).2
  have h0 := binCopies_nonneg hp.typed t
  rcases eq_or_lt_of_le h0 with e | e
  · rw [← e]; unfold firstBins; omega
  · have hfull : ∀ u, u < t → Spec.binCopies p u = (inst.binType u).copies :=
      fun u hu => hp.order hobj u t hu ht e
    have hle : binsBefore inst t + Spec.binCopies p t ≤ numberOfBins p := by
      rw [numberOfBins_eq hp.typed]
      have e1 : binsBefore inst t = ∑ u ∈ Finset.range t, Spec.binCopies p u := by
        unfold binsBefore
        rw [sum_types _ 0 (fun u => (inst.binType u).copies)]
        simp only [List.length_range]
        refine Finset.sum_congr rfl fun u hu => ?_
        have hu' := Finset.mem_range.mp hu
        rw [getD_range hu', hfull u hu']
      rw [e1, ← Finset.sum_range_succ]
      refine Finset.sum_le_sum_of_subset_of_nonneg
        (Finset.range_subset_range.mpr (by omega)) fun u _ _ => binCopies_nonneg hp.typed u
    unfold firstBins
    omega

/-- Bins listed with zero copies can be dropped. -/
theorem fitsInFirst_filter {p : Packing} (h : FitsInFirst inst k p) :
    FitsInFirst inst k (p.filter fun b => 0 < b.copies) := by
  have hsum : ∀ (f : PackedBin → Int), (∀ b ∈ p, b.copies = 0 → f b = 0) →
      ((p.filter fun b => 0 < b.copies).map f).sum = (p.map f).sum := by
    intro f hf
    have hnn : ∀ b ∈ p, 0 ≤ b.copies := fun b hb => (h.typed b hb).2.1
    clear h
    induction p with
    | nil => rfl
    | cons b p ih =>
      have ih' := ih (fun b hb => hf b (by simp [hb])) (fun b hb => hnn b (by simp [hb]))
      by_cases hb : 0 < b.copies
      · rw [List.filter_cons_of_pos (by simpa using hb), List.map_cons, List.sum_cons, ih',
          List.map_cons, List.sum_cons]
      · have h0 := hnn b (by simp)
        rw [List.filter_cons_of_neg (by simpa using hb), ih', List.map_cons, List.sum_cons,
          hf b (by simp) (by omega), zero_add]
  refine ⟨fun b hb => h.typed b (List.mem_of_mem_filter hb),
    fun b hb => h.bins b (List.mem_of_mem_filter hb), fun i hi => ?_, fun t ht => ?_⟩
  · rw [← h.complete i hi]
    exact hsum _ fun b _ hb => by rw [hb]; simp
  · refine le_trans (le_of_eq ?_) (h.limits t ht)
    exact hsum _ fun b _ hb => by rw [hb]; simp

/-- If the sub-instance for `k` bins has no admissible packing, the instance has no
packing with at most `k` bins: fewer bins are more restrictive. -/
theorem infeasible_raises_bound (hbuilt : runOps o ops = .ok inst)
    (hcopies : ∀ t ∈ inst.binTypes, 0 ≤ t.copies) (hobj : inst.objective = .binPacking)
    (h : sequentialSubInstance inst k = .ok sub) (hno : ¬ ∃ p, Admissible sub p) :
    ∀ p, Admissible inst p → k + 1 ≤ numberOfBins p := by
  intro p hp
  by_contra hlt
  have hf := fitsInFirst_filter (admissible_fitsInFirst (k := k) hobj hp (by omega))
  exact hno ⟨_, (sequential_sub_instance hbuilt hcopies h).2 _ hf fun b hb => by
    simpa using List.of_mem_filter hb⟩

/-- What the loop maintains: the bound is valid and the solution, if any, comes from a
sub-instance whose answer was a feasible solution. -/
theorem sequential_loop (hbuilt : runOps o ops = .ok inst)
    (hcopies : ∀ t ∈ inst.binTypes, 0 ≤ t.copies) (hobj : inst.objective = .binPacking)
    (solve : Int → Instance → SubAnswer) (ends : Int → Bool)
    (ks : List Int) (htrust : ∀ k ∈ ks, ∀ sub, sequentialSubInstance inst k = .ok sub →
      TrustedSub sub (solve k sub)) : ∀ out out' : SequentialOutput,
    sequentialLoop inst solve ends ks out = .ok out' →
    (∀ p, Admissible inst p → out.bound ≤ numberOfBins p) →
    (∀ p, Admissible inst p → out'.bound ≤ numberOfBins p)
    ∧ (out'.solution = out.solution ∨ ∃ k ∈ ks, ∃ sub e s, sequentialSubInstance inst k = .ok sub
        ∧ (solve k sub).best.feasible = true ∧ enforceBinTypeOrder sub (solve k sub).best = .ok e
        ∧ (Solution.init inst).appendBins inst e [] [] = .ok s ∧ out'.solution = some s) := by
  induction ks with
  | nil =>
    intro out out' h hb
    cases h
    exact ⟨hb, .inl rfl⟩
  | cons k ks ih =>
    replace ih := ih fun k hk => htrust k (by simp [hk])
    intro out out' h hb
    unfold sequentialLoop at h
    by_cases he : ends k = true
    · rw [if_pos he] at h
      cases h
      exact ⟨hb, .inl rfl⟩
    · rw [if_neg he] at h
      obtain ⟨sub, hsub, h⟩ := bind_ok.mp h
      dsimp only at h
      by_cases hf : (solve k sub).best.feasible = true
      · rw [if_pos hf] at h
        obtain ⟨e, h1, h⟩ := bind_ok.mp h
        obtain ⟨s, h2, h⟩ := bind_ok.mp h
        cases h
        exact ⟨hb, .inr ⟨k, by simp, sub, e, s, hsub, hf, h1, h2, rfl⟩⟩
      · rw [if_neg hf] at h
        by_cases hi : (solve k sub).isProvenInfeasible = true
        · rw [if_pos hi] at h
          have hk := infeasible_raises_bound hbuilt hcopies hobj hsub
            ((htrust k (by simp) sub hsub).infeasible hi)
          obtain ⟨q1, q2⟩ := ih _ _ h fun p hp => max_le (hb p hp) (hk p hp)
          refine ⟨q1, q2.imp id ?_⟩
          rintro ⟨k', hk', r⟩
          exact ⟨k', by simp [hk'], r⟩
        · rw [if_neg hi] at h
          obtain ⟨q1, q2⟩ := ih _ _ h hb
          refine ⟨q1, q2.imp id ?_⟩
          rintro ⟨k', hk', r⟩
          exact ⟨k', by simp [hk'], r⟩

/-- **C34** (bound): whatever starting bound the caller passes, and whichever
candidates were inconclusive, the reported bound is at most the number of bins of
every admissible packing, if it was before and the infeasibility proofs of the
sub-problems are right. -/
theorem sequential_bound_valid (hbuilt : runOps o ops = .ok inst)
    (hcopies : ∀ t ∈ inst.binTypes, 0 ≤ t.copies) (hobj : inst.objective = .binPacking)
    (solve : Int → Instance → SubAnswer) (ends : Int → Bool) (bound lowerBound : Int)
    (htrust : ∀ k ∈ sequentialCandidates inst (max bound lowerBound), ∀ sub,
      sequentialSubInstance inst k = .ok sub → TrustedSub sub (solve k sub))
    {out : SequentialOutput} (h : sequentialFeasibility inst solve ends bound lowerBound = .ok out)
    (hb : ∀ p, Admissible inst p → bound ≤ numberOfBins p) :
    ∀ p, Admissible inst p → out.bound ≤ numberOfBins p :=
  (sequential_loop hbuilt hcopies hobj solve ends _ htrust _ _ h hb).1

/-- The number of bins among the first `k` is at most `k`. -/
theorem sum_firstBins (hcopies : ∀ t ∈ inst.binTypes, 0 ≤ t.copies) (n : Nat)
    (hn : n ≤ inst.binTypes.length) :
    ∑ t ∈ Finset.range n, firstBins inst k t ≤ max 0 (min k (binsBefore inst n)) := by
  induction n with
  | zero => simp [binsBefore]
  | succ n ih =>
    have ih' := ih (by omega)
    have h0 : 0 ≤ (inst.binType n).copies := hcopies _ (getD_mem _ (by omega))
    have h1 : 0 ≤ binsBefore inst n := binsBefore_mono hcopies (Nat.zero_le n) (by omega)
    rw [Finset.sum_range_succ, binsBefore_succ]
    have : firstBins inst k n = max 0 (min (inst.binType n).copies (k - binsBefore inst n)) := rfl
    omega

theorem capacities_sub (hcap : CapacitiesNonneg inst) {m : Nat} (hm : m ≤ inst.numberOfBinTypes)
    (hs : IsSubInstance (limitBins inst k) (List.range m) (List.range inst.numberOfItemTypes) sub) :
    CapacitiesNonneg sub := by
  intro b hb r hr
  obtain ⟨t, ht, rfl⟩ := List.getElem_of_mem hb
  have ht' : t < m := by
    have := hs.numberOfBinTypes
    rw [List.length_range] at this
    exact this ▸ ht
  have e := hs.resources t (by simpa using ht')
  rw [getD_range ht', limit_resources] at e
  have hbt : sub.binType t = sub.binTypes[t] := by
    unfold Instance.binType
    rw [List.getD_eq_getElem _ _ ht]
  rw [hbt] at e
  have hmem : (r.capacity, r.penalize, r.penalty) ∈ (inst.binType t).resources.map
      (fun r => (r.capacity, r.penalize, r.penalty)) := by
    rw [← e]
    exact List.mem_map.mpr ⟨r, hr, rfl⟩
  obtain ⟨r', hr', he⟩ := List.mem_map.mp hmem
  simp only [Prod.mk.injEq] at he
  rw [← he.1]
  exact hcap _ (getD_mem _ (lt_of_lt_of_le ht' hm)) r' hr'

/-- The solution made from the answer for `k` bins packs all the items in at most `k`
bins, in the order of the types, and is admissible if the callback of the instance
accepts it. -/
theorem sequential_found (hbuilt : runOps o ops = .ok inst)
    (hcopies : ∀ t ∈ inst.binTypes, 0 ≤ t.copies) (hobj : inst.objective = .binPacking)
    (hcap : CapacitiesNonneg inst) (hitems : ∀ t ∈ inst.itemTypes, 0 ≤ t.copies)
    {a : SubAnswer} {e s : Solution}
    (hsub : sequentialSubInstance inst k = .ok sub) (ha : TrustedSub sub a)
    (hf : a.best.feasible = true) (he : enforceBinTypeOrder sub a.best = .ok e)
    (hs : (Solution.init inst).appendBins inst e [] [] = .ok s) :
    Reachable inst s ∧ FitsInFirst inst k (packingOf s) ∧ OrderOk inst (packingOf s)
      ∧ numberOfBins (packingOf s) ≤ max 0 k
      ∧ (inst.callback (packingOf s) = true → Admissible inst (packingOf s)) := by
  have hq := (build_copies_partial hbuilt).2
  obtain ⟨m, hm, hm1, hm2, hS, hobjS, hcb, hmin⟩ := sub_facts (fun t ht => (hq t ht).2.1) hcopies
    (build_precedenceIds hbuilt) hsub
  have hnb : sub.numberOfBinTypes = m := by rw [hS.numberOfBinTypes]; simp
  have hni : sub.numberOfItemTypes = inst.numberOfItemTypes := by
    rw [hS.numberOfItemTypes]; simp
  have hbd : ∀ t, t < m → (sub.binType t).copies = firstBins inst k t
      ∧ (sub.binType t).copiesMin = 0 := by
    intro t ht
    have e := sub_bins hS ht
    rw [limit_binType inst k (show t < inst.binTypes.length by
      exact lt_of_lt_of_le ht hm)] at e
    exact ⟨e.copies, e.copiesMin⟩
  have hcapS := capacities_sub hcap hm hS
  have hcopS : ∀ i, i < sub.numberOfItemTypes → 0 ≤ (sub.itemType i).copies := by
    intro i hi
    rw [hni] at hi
    rw [(sub_items hS hi).copies]
    exact hitems _ (getD_mem _ hi)
  have hres : ResourceIdsOk sub := (build_aggregates hsub).resourceIds
  have hR := ha.reachable
  have hF := (feasible_iff hR hres hcapS hcopS fun _ => hcb _).mp hf
  have hnn : ∀ t, t < sub.numberOfBinTypes → 0 ≤ (sub.binType t).copies := by
    intro t ht
    rw [(hbd t (by omega)).1]
    unfold firstBins
    omega
  have hlim := ha.limits hf
  have hcompl : AllPacked sub (packingOf a.best) := by
    intro i hi
    have h1 := hF.copies i hi
    have h2 := hmin _ (getD_mem (l := sub.itemTypes) default hi)
    have h3 : sub.itemTypes.getD i default = sub.itemType i := rfl
    rw [h3] at h2
    omega
  -- the enforced solution
  have hbins := enforce_bin_type_order_bins hR hnn he
  have hall : Reachable sub e ∧ OrderOk sub (packingOf e)
      ∧ (∀ t, t < sub.numberOfBinTypes →
          Spec.binCopies (packingOf e) t ≤ (sub.binType t).copies)
      ∧ ∀ i, Spec.itemCopies (packingOf e) i = Spec.itemCopies (packingOf a.best) i := by
    have hcor := enforce_bin_type_order_correct hR hnn
    by_cases hemp : a.best.bins = []
    · rw [hcor.1 hemp] at he
      cases he
      refine ⟨hR, fun t u _ _ hpos => ?_, fun t ht => (hlim t ht).2, fun i => rfl⟩
      have : packingOf a.best = [] := by unfold packingOf; rw [hemp]; rfl
      rw [this] at hpos
      exact absurd hpos (by simp [Spec.binCopies])
    · obtain ⟨s', last, h1, h2, -, h4, ⟨b0, hb0, hb0l⟩, -, h7, h8, h9, h10⟩ := hcor.2 hemp
      rw [h1] at he
      cases he
      have hlast : last < sub.numberOfBinTypes := by
        rw [← hb0l]
        exact (hR.good.typed b0 hb0).1
      refine ⟨h2, h4, fun t ht => ?_, (h10 fun t ht => (hlim t ht).2).2⟩
      rcases Nat.lt_trichotomy t last with hlt | heq | hgt
      · rw [h7 t hlt]
      · rw [heq, h8]
        exact (hlim last hlast).2
      · rw [h9 t hgt]
        exact hnn t ht
  obtain ⟨hRe, hord, hlime, hice⟩ := hall
  have hce : ∀ b ∈ e.bins, 0 ≤ b.copies := fun b hb =>
    (hRe.good.typed ⟨b.binTypeId, b.copies, b.items.map (·.itemTypeId)⟩
      (List.mem_map.mpr ⟨b, hb, rfl⟩)).2.1
  have hadm : Admissible sub (packingOf e) := by
    have htyped : WellTyped sub (packingOf e) := hRe.good.typed
    have hcomp : AllPacked sub (packingOf e) := fun i hi => by rw [hice, hcompl i hi]
    refine ⟨htyped, ⟨fun b hb => ?_, fun i hi => ?_, hcb _⟩, fun t ht => ?_, fun _ => hcomp,
      fun ho => by rw [hobjS] at ho; cases ho⟩
    · rcases hbins b hb with h | ⟨b', hb', h1, h2⟩
      · rw [h]
        refine ⟨fun p hp hne => absurd (List.prefix_nil.mp hp) hne,
          fun p hp hne => absurd (List.prefix_nil.mp hp) hne, fun i hi => by simp at hi,
          fun i hi => by simp at hi,
          fun p i q hp => absurd (List.prefix_nil.mp hp) (by simp), fun r hr _ p hp => ?_⟩
        rw [List.prefix_nil.mp hp]
        have : consumption sub r [] = 0 := by simp [consumption]
        rw [this]
        exact hcapS _ (getD_mem _ (htyped b hb).1) r hr
      · rw [← h1, ← h2]
        exact hF.bins b' hb'
    · rw [hcomp i hi]
      exact ⟨((build_copies_partial hsub).1 _ (getD_mem _ hi)).1, le_refl _⟩
    · refine ⟨?_, hlime t ht⟩
      rw [(hbd t (by omega)).2]
      exact binCopies_nonneg htyped t
  have hps : packingOf s = packingOf e := by
    rw [appendBins_packing .init hce hs]
    have : packingOf (Solution.init inst) = [] := rfl
    rw [this, List.nil_append]
    conv_rhs => rw [← List.map_id (packingOf e)]
    exact List.map_congr_left fun b _ => relabelBin_nil b
  have hfit := (sequential_sub_instance hbuilt hcopies hsub).1 _ hadm
  have hordI : OrderOk inst (packingOf e) := by
    intro t u htu hu hpos
    have hum : u < m := by
      by_contra hge
      have h1 := hfit.limits u hu
      have e1 := hm1 (by omega)
      have e2 := binsBefore_mono hcopies (show m ≤ u by omega) (le_of_lt hu)
      unfold firstBins at h1
      omega
    have h1 := hord t u htu (by omega) hpos
    rw [h1, (hbd t (by omega)).1]
    have h2 := hm2 u hum
    have h3 := binsBefore_mono hcopies (show t + 1 ≤ u by omega) (le_of_lt hu)
    rw [binsBefore_succ] at h3
    have h4 : 0 ≤ (inst.binType t).copies :=
      hcopies _ (getD_mem _ (show t < inst.binTypes.length by exact lt_trans htu hu))
    unfold firstBins
    omega
  rw [hps]
  refine ⟨.appendBins _ _ _ _ _ .init hce hs, hfit, hordI, ?_, fun hcall =>
    ⟨hfit.typed, ⟨hfit.bins, fun i hi => ?_, hcall⟩, fun t ht => ?_, fun _ => hfit.complete,
      fun _ => hordI⟩⟩
  · rw [numberOfBins_eq hfit.typed]
    refine le_trans (Finset.sum_le_sum fun t ht => hfit.limits t (Finset.mem_range.mp ht)) ?_
    have := sum_firstBins (k := k) hcopies inst.numberOfBinTypes (le_refl _)
    omega
  · rw [hfit.complete i hi]
    exact ⟨((build_copies_partial hbuilt).1 _ (getD_mem _ hi)).1, le_refl _⟩
  · refine ⟨?_, le_trans (hfit.limits t ht) ?_⟩
    · have e0 : (inst.binType t).copiesMin = 0 := (hq _ (getD_mem _ ht)).2.2.2.2 hobj
      rw [e0]
      exact binCopies_nonneg hfit.typed t
    · have h4 : 0 ≤ (inst.binType t).copies := hcopies _ (getD_mem _ ht)
      unfold firstBins
      omega

/-- **C34** (solution): a solution reported by the scheme packs all the items in the
first bins, in the order of the bin types, and is admissible if the callback of the
instance accepts it. -/
theorem sequential_solution_admissible (hbuilt : runOps o ops = .ok inst)
    (hcopies : ∀ t ∈ inst.binTypes, 0 ≤ t.copies) (hobj : inst.objective = .binPacking)
    (hcap : CapacitiesNonneg inst) (hitems : ∀ t ∈ inst.itemTypes, 0 ≤ t.copies)
    (solve : Int → Instance → SubAnswer) (ends : Int → Bool) (bound lowerBound : Int)
    (htrust : ∀ k ∈ sequentialCandidates inst (max bound lowerBound), ∀ sub,
      sequentialSubInstance inst k = .ok sub → TrustedSub sub (solve k sub))
    {out : SequentialOutput} {s : Solution}
    (h : sequentialFeasibility inst solve ends bound lowerBound = .ok out)
    (hb : ∀ p, Admissible inst p → bound ≤ numberOfBins p)
    (hs : out.solution = some s) :
    Reachable inst s ∧ AllPacked inst (packingOf s) ∧ OrderOk inst (packingOf s)
      ∧ (inst.callback (packingOf s) = true → Admissible inst (packingOf s)) := by
  rcases (sequential_loop hbuilt hcopies hobj solve ends _ htrust _ _ h hb).2 with h1 | h1
  · rw [hs] at h1; cases h1
  · obtain ⟨k, hk, sub, e, s', h1, h2, h3, h4, h5⟩ := h1
    rw [hs] at h5
    cases h5
    obtain ⟨q1, q2, q3, -, q5⟩ := sequential_found hbuilt hcopies hobj hcap hitems h1
      (htrust k hk sub h1) h2 h3 h4
    exact ⟨q1, q2.complete, q3, q5⟩

theorem sequential_minimal (hbuilt : runOps o ops = .ok inst)
    (hcopies : ∀ t ∈ inst.binTypes, 0 ≤ t.copies) (hobj : inst.objective = .binPacking)
    (hcap : CapacitiesNonneg inst) (hitems : ∀ t ∈ inst.itemTypes, 0 ≤ t.copies)
    (hcb : ∀ p, inst.callback p = true) (solve : Int → Instance → SubAnswer) (n : Nat) :
    ∀ (c : Int) (out out' : SequentialOutput),
    (∀ k ∈ (List.range n).map fun (d : Nat) => c + (d : Int), ∀ sub,
      sequentialSubInstance inst k = .ok sub → TrustedSub sub (solve k sub)
        ∧ ((solve k sub).best.feasible = true ∨ (solve k sub).isProvenInfeasible = true)) →
    (∀ p, Admissible inst p → c ≤ numberOfBins p) →
    (∃ p, Admissible inst p ∧ numberOfBins p < c + n) →
    sequentialLoop inst solve (fun _ => false) ((List.range n).map fun (d : Nat) => c + (d : Int))
      out = .ok out' →
    ∃ s, out'.solution = some s ∧ Admissible inst (packingOf s)
      ∧ ∀ p, Admissible inst p → numberOfBins (packingOf s) ≤ numberOfBins p := by
  induction n with
  | zero =>
    intro c out out' _ hc hp _
    obtain ⟨p, hp, hlt⟩ := hp
    have := hc p hp
    omega
  | succ n ih =>
    intro c out out' htr hc hp h
    have hmap : (List.range (n + 1)).map (fun (d : Nat) => c + (d : Int))
        = c :: (List.range n).map fun (d : Nat) => (c + 1) + (d : Int) := by
      rw [List.range_succ_eq_map, List.map_cons, List.map_map]
      congr 1
      · simp
      · apply List.map_congr_left
        intro d _
        simp only [Function.comp, Nat.cast_succ]
        omega
    rw [hmap] at h htr
    unfold sequentialLoop at h
    rw [if_neg (by simp)] at h
    obtain ⟨sub, hsub, h⟩ := bind_ok.mp h
    obtain ⟨ht, hans⟩ := htr c (by simp) sub hsub
    dsimp only at h
    by_cases hf : (solve c sub).best.feasible = true
    · rw [if_pos hf] at h
      obtain ⟨e, h1, h⟩ := bind_ok.mp h
      obtain ⟨s, h2, h⟩ := bind_ok.mp h
      cases h
      obtain ⟨-, -, -, q4, q5⟩ := sequential_found hbuilt hcopies hobj hcap hitems hsub ht hf h1 h2
      refine ⟨s, rfl, q5 (hcb _), fun p hp => ?_⟩
      have := hc p hp
      have := numberOfBins_nonneg hp.typed
      omega
    · rw [if_neg hf] at h
      have hi : (solve c sub).isProvenInfeasible = true := hans.resolve_left hf
      rw [if_pos hi] at h
      have hk := infeasible_raises_bound hbuilt hcopies hobj hsub (ht.infeasible hi)
      refine ih (c + 1) _ _ (fun k hk => htr k (by simp [hk])) hk ?_ h
      obtain ⟨p, hp, hlt⟩ := hp
      exact ⟨p, hp, by push_cast at hlt; omega⟩

/-- **C34** (optimality): when every sub-problem is decided, the time does not run out,
the starting bounds are valid and the instance has an admissible packing, the scheme
reports an admissible solution with the smallest possible number of bins.  Missing:
instances with a callback, which the sub-instances ignore
(`sequential_ignores_callback`). -/
theorem sequential_optimal_partial (hbuilt : runOps o ops = .ok inst)
    (hcopies : ∀ t ∈ inst.binTypes, 0 ≤ t.copies) (hobj : inst.objective = .binPacking)
    (hcap : CapacitiesNonneg inst) (hitems : ∀ t ∈ inst.itemTypes, 0 ≤ t.copies)
    (hcb : ∀ p, inst.callback p = true) (solve : Int → Instance → SubAnswer)
    (bound lowerBound : Int)
    (htrust : ∀ k ∈ sequentialCandidates inst (max bound lowerBound), ∀ sub,
      sequentialSubInstance inst k = .ok sub → TrustedSub sub (solve k sub)
        ∧ ((solve k sub).best.feasible = true ∨ (solve k sub).isProvenInfeasible = true))
    (hb : ∀ p, Admissible inst p → max bound lowerBound ≤ numberOfBins p)
    (hex : ∃ p, Admissible inst p) {out : SequentialOutput}
    (h : sequentialFeasibility inst solve (fun _ => false) bound lowerBound = .ok out) :
    ∃ s, out.solution = some s ∧ Admissible inst (packingOf s)
      ∧ ∀ p, Admissible inst p → numberOfBins (packingOf s) ≤ numberOfBins p := by
  refine sequential_minimal hbuilt hcopies hobj hcap hitems hcb solve _ _ _ _ htrust hb ?_ h
  obtain ⟨p, hp⟩ := hex
  refine ⟨p, hp, ?_⟩
  have h1 := numberOfBins_le (build_aggregates hbuilt).binTypeIds hcopies hp.typed hp.limits
  unfold Instance.numberOfBins at h1
  rw [(build_aggregates hbuilt).binTypeIds, binPositions_length _ hcopies] at h1
  have h2 := hb p hp
  omega

/-! ### A concrete run -/

/-- Two bins of length 10 and two of length 6; three items of length 5. -/
def seqOps : List Op := [.addBinType 10, .setBinTypeCopies 0 1, .addBinType 6,
  .setBinTypeCopies 1 2, .addItemType 5, .setItemTypeCopies 0 3]

/-- Answers: one bin is not enough, two bins are. -/
def seqSolve (k : Int) (sub : Instance) : SubAnswer :=
  if k ≤ 1 then ⟨Solution.init sub, true⟩
  else ⟨Examples.okD {} (SolutionBuilder.runOps sub
    [.addBin 1 1, .addItem 0 0, .addBin 0 1, .addItem 1 0, .addItem 1 0]), false⟩

/-- The scheme starts at 0, finds 0 and 1 bins infeasible, then reports the solution
with two bins and the bound 2. -/
example : (match runOps .binPacking seqOps with
    | .error _ => false
    | .ok inst => match sequentialFeasibility inst seqSolve (fun _ => false) 0 0 with
      | .error _ => false
      | .ok out => decide (out.bound = 2) && (match out.solution with
        | none => false
        | some s => s.feasible && decide (s.numberOfBins = 2) && s.binTypeOrderFeasible)) = true := by
  decide +kernel

theorem okD_ok {α : Type} {e : Except Err α} {d : α}
    (h : (match e with | .ok _ => true | .error _ => false) = true) :
    e = .ok (Examples.okD d e) := by
  cases e with
  | error _ => cases h
  | ok a => rfl

def seqInst : Instance := Examples.okD { objective := .binPacking, itemTypes := [], binTypes := [] }
  (runOps .binPacking seqOps)

theorem seqInst_built : runOps .binPacking seqOps = .ok seqInst := okD_ok (by decide +kernel)

/-- One bin cannot hold the three items. -/
theorem seq_infeasible {p : Packing} {k : Int} (hk : k ≤ 1) (hp : FitsInFirst seqInst k p) : False := by
  have hlen : ∀ i, i < seqInst.numberOfItemTypes → (seqInst.itemType i).length = 5
      ∧ (seqInst.itemType i).nestingLength = 0 := by decide +kernel
  have hbl : ∀ t, t < seqInst.numberOfBinTypes → (seqInst.binType t).length ≤ 10 := by
    decide +kernel
  have hcnt : ∀ b ∈ p, (b.items.count 0 : Int) ≤ 2 := by
    intro b hb
    obtain ⟨h1, -, h3⟩ := hp.typed b hb
    by_cases he : b.items = []
    · rw [he]; simp
    have hfit := (hp.bins b hb).fits b.items (List.prefix_refl _) he
    have e1 : b.items.map (fun i => (seqInst.itemType i).length) = b.items.map fun _ => (5 : Int) :=
      List.map_congr_left fun i hi => (hlen i (h3 i hi)).1
    have e2 : b.items.tail.map (fun i => (seqInst.itemType i).nestingLength)
        = b.items.tail.map fun _ => (0 : Int) :=
      List.map_congr_left fun i hi => (hlen i (h3 i (List.mem_of_mem_tail hi))).2
    unfold binEnd at hfit
    rw [e1, e2] at hfit
    simp at hfit
    have := hbl _ h1
    have hc := List.count_le_length (a := 0) (l := b.items)
    omega
  have hnb : numberOfBins p ≤ 1 := by
    rw [numberOfBins_eq hp.typed]
    have hcop : ∀ t ∈ seqInst.binTypes, 0 ≤ t.copies := by decide +kernel
    refine le_trans (Finset.sum_le_sum fun t ht => hp.limits t (Finset.mem_range.mp ht)) ?_
    have := sum_firstBins (k := k) hcop seqInst.numberOfBinTypes (le_refl _)
    omega
  have hle : Spec.itemCopies p 0 ≤ 2 * numberOfBins p := by
    have hty := hp.typed
    clear hp hnb
    unfold Spec.itemCopies numberOfBins
    induction p with
    | nil => simp
    | cons b p ih =>
      have ih' := ih (fun b hb => hcnt b (by simp [hb])) (fun b hb => hty b (by simp [hb]))
      have h1 := hcnt b (by simp)
      have h2 := (hty b (by simp)).2.1
      simp only [List.map_cons, List.sum_cons]
      have := mul_le_mul_of_nonneg_left h1 h2
      omega
  have hall := hp.complete 0 (by decide +kernel)
  have h3 : (seqInst.itemType 0).copies = 3 := by decide +kernel
  omega

theorem seq_trusted (k : Int) (hk : k ∈ sequentialCandidates seqInst (max 0 0)) (sub : Instance)
    (hsub : sequentialSubInstance seqInst k = .ok sub) : TrustedSub sub (seqSolve k sub)
      ∧ ((seqSolve k sub).best.feasible = true ∨ (seqSolve k sub).isProvenInfeasible = true) := by
  have hcop : ∀ t ∈ seqInst.binTypes, 0 ≤ t.copies := by decide +kernel
  have hk' : k = 0 ∨ k = 1 ∨ k = 2 ∨ k = 3 := by
    have : sequentialCandidates seqInst (max 0 0) = [0, 1, 2, 3] := by decide +kernel
    rw [this] at hk
    simpa using hk
  by_cases hle : k ≤ 1
  · have hno : ¬ ∃ p, Admissible sub p := fun ⟨p, hp⟩ =>
      seq_infeasible hle ((sequential_sub_instance seqInst_built hcop hsub).1 p hp)
    unfold seqSolve
    rw [if_pos hle]
    refine ⟨⟨.init, fun _ t ht => ?_, fun _ => hno⟩, .inr rfl⟩
    have hq := (build_copies_partial hsub).2 _ (getD_mem (l := sub.binTypes) default ht)
    obtain ⟨m, hm, -, -, hS, -⟩ := sub_facts (fun t ht => ((build_copies_partial seqInst_built).2 t ht).2.1)
      hcop (build_precedenceIds seqInst_built) hsub
    have htm : t < m := by
      have := hS.numberOfBinTypes
      rw [List.length_range] at this
      omega
    have e := sub_bins hS htm
    rw [limit_binType seqInst k (show t < seqInst.binTypes.length from lt_of_lt_of_le htm hm)] at e
    rw [e.copies, e.copiesMin]
    have : packingOf (Solution.init sub) = [] := rfl
    rw [this]
    simp [Spec.binCopies, firstBins]
  · unfold seqSolve
    rw [if_neg hle]
    have hk2 : k = 2 ∨ k = 3 := by omega
    have hsub' : sub = Examples.okD { objective := .binPacking, itemTypes := [], binTypes := [] }
        (sequentialSubInstance seqInst k) := by rw [hsub]; rfl
    rcases hk2 with rfl | rfl <;> subst hsub' <;>
      exact ⟨⟨.built [.addBin 1 1, .addItem 0 0, .addBin 0 1, .addItem 1 0, .addItem 1 0] _
        (by intro t c h; simp at h; omega) (okD_ok (d := {}) (by decide +kernel)),
        fun _ => by unfold BinLimitsOk; decide +kernel, fun h => by cases h⟩, .inl (by decide +kernel)⟩

/-- The hypotheses of the three theorems are met by this run, and the solution found
is optimal. -/
example : ∃ out s, sequentialFeasibility seqInst seqSolve (fun _ => false) 0 0 = .ok out
    ∧ out.solution = some s ∧ Admissible seqInst (packingOf s)
    ∧ (∀ p, Admissible seqInst p → numberOfBins (packingOf s) ≤ numberOfBins p)
    ∧ ∀ p, Admissible seqInst p → out.bound ≤ numberOfBins p := by
  have hcop : ∀ t ∈ seqInst.binTypes, 0 ≤ t.copies := by decide +kernel
  have hcap : CapacitiesNonneg seqInst := by unfold CapacitiesNonneg; decide +kernel
  have hitems : ∀ t ∈ seqInst.itemTypes, 0 ≤ t.copies := by decide +kernel
  have hrun : sequentialFeasibility seqInst seqSolve (fun _ => false) 0 0
      = .ok (Examples.okD ⟨0, none⟩ (sequentialFeasibility seqInst seqSolve (fun _ => false) 0 0)) :=
    okD_ok (by decide +kernel)
  have hb : ∀ p, Admissible seqInst p → max 0 0 ≤ numberOfBins p :=
    fun p hp => numberOfBins_nonneg hp.typed
  have hobj : seqInst.objective = .binPacking := by decide +kernel
  have hbound := sequential_bound_valid seqInst_built hcop hobj seqSolve _ 0 0
    (fun k hk sub h => (seq_trusted k hk sub h).1) hrun hb
  have hsol : ∃ s, (Examples.okD ⟨0, none⟩
      (sequentialFeasibility seqInst seqSolve (fun _ => false) 0 0)).solution = some s :=
    Option.isSome_iff_exists.mp (by decide +kernel)
  obtain ⟨s, hs⟩ := hsol
  have hadm := (sequential_solution_admissible seqInst_built hcop hobj hcap hitems seqSolve _ 0 0
    (fun k hk sub h => (seq_trusted k hk sub h).1) hrun hb hs).2.2.2 rfl
  obtain ⟨s', hs', h1, h2⟩ := sequential_optimal_partial seqInst_built hcop hobj hcap hitems (fun _ => rfl)
    seqSolve 0 0 seq_trusted hb ⟨_, hadm⟩ hrun
  exact ⟨_, s', hrun, hs', h1, h2, hbound⟩

theorem build_callback {b : InstanceBuilder} (hfresh : BFresh b.inst) (h : b.build = .ok inst) :
    inst.callback = b.inst.callback := by
  obtain ⟨b1, i1, st, hf, hF, hI, hB, hinst⟩ := build_pieces hfresh h
  rw [hinst]
  change st.1.callback = _
  rw [hB.callback, hI.callback, finalize_callback hf]

/-- The callback of the instance is not given to the sub-instances: the packing they
ask for may be rejected by it. -/
theorem sequential_ignores_callback : ∃ (ops : List Op) (inst sub : Instance),
    runOps .binPacking ops = .ok inst ∧ (∀ p, inst.callback p = false)
      ∧ sequentialSubInstance inst 1 = .ok sub ∧ (∀ p, sub.callback p = true)
      ∧ ∃ s, Reachable sub s ∧ s.feasible = true ∧ s.numberOfItems = 1 := by
  let ops : List Op := [.setCallback fun _ => false, .addBinType 10, .addItemType 5]
  let d : Instance := { objective := .binPacking, itemTypes := [], binTypes := [] }
  let inst := Examples.okD d (runOps .binPacking ops)
  let sub := Examples.okD d (sequentialSubInstance inst 1)
  have hb : runOps .binPacking ops = .ok inst := okD_ok (by decide +kernel)
  have hs : sequentialSubInstance inst 1 = .ok sub := okD_ok (by decide +kernel)
  have hc : inst.callback = fun _ => false := by
    have h := hb
    unfold runOps at h
    obtain ⟨b, h1, h⟩ := bind_ok.mp h
    rw [build_callback (fresh_ops h1) h]
    have h2 : ops.foldlM step (new .binPacking)
        = .ok (Examples.okD {} (ops.foldlM step (new .binPacking))) := rfl
    rw [h2] at h1
    cases h1
    rfl
  obtain ⟨-, -, -, -, -, -, hcs, -⟩ := sub_facts
    (fun t ht => ((build_copies_partial hb).2 t ht).2.1)
    (by decide +kernel) (build_precedenceIds hb) hs
  refine ⟨ops, inst, sub, hb, fun p => by rw [hc], hs, hcs,
    Examples.okD {} (SolutionBuilder.runOps sub [.addBin 0 1, .addItem 0 0]),
    .built [.addBin 0 1, .addItem 0 0] _ (by intro t c h; simp at h; omega)
      (okD_ok (by decide +kernel)), by decide +kernel, by decide +kernel⟩

end PackingSolver.OneDim
