import Verif.Lemmas.Rect.ReduceGeom

/-!
# Geometry of the reduction: bins that are set aside
-/

namespace PackingSolver.Rect.Reduction.Tab

open PackingSolver.Rect.Spec

variable {T T' : Tab} {W H : Int} {b : List PlacedItem} {bins : List (List PlacedItem)}

/-- Number of items with a given property of their type. -/
def number (E : Nat → Prop) [DecidablePred E] (l : List PlacedItem) : Nat :=
  l.countP fun p => decide (E p.itemTypeId)

theorem number_append (E : Nat → Prop) [DecidablePred E] (a b : List PlacedItem) :
    number E (a ++ b) = number E a + number E b := by
  unfold number; rw [List.countP_append]

/-- **Setting bins aside.**  An item of `E` shares its bin only with items of `R`.  Without the
items of `E` and `R`, as many bins fewer as there are items of `E` are needed. -/
theorem Packs.capture (hp : T.Packs W H bins) (hP : T.Pos) (E R : Nat → Prop) [DecidablePred E]
    [DecidablePred R] (hER : ∀ i, E i → ¬ R i)
    (hX : ∀ b, T.Good W H b → ∀ p ∈ b, ∀ q ∈ b, p ≠ q → E p.itemTypeId → R q.itemTypeId)
    (hn : T'.n = T.n)
    (he : ∀ i, i < T.n → ¬ E i → ¬ R i → T'.w i = T.w i ∧ T'.h i = T.h i ∧ T'.o i = T.o i)
    (hc : ∀ i, i < T.n → T'.c i = if E i ∨ R i then 0 else T.c i) :
    ∃ bins', T'.Packs W H bins' ∧ bins'.length + number E bins.flatten = bins.length := by
  classical
  -- bins with an item of `E`
  have hone : ∀ b ∈ bins, (∃ p ∈ b, E p.itemTypeId) → number E b = 1
      ∧ ∀ q ∈ b, E q.itemTypeId ∨ R q.itemTypeId := by
    rintro b hb ⟨p, hpb, hpe⟩
    have hg := hp.each b hb
    have hall : ∀ q ∈ b, q ≠ p → R q.itemTypeId := fun q hq hne =>
      hX b hg p hpb q hq (fun h => hne h.symm) hpe
    refine ⟨?_, fun q hq => ?_⟩
    · have hperm := List.perm_cons_erase hpb
      unfold number
      rw [hperm.countP_eq, List.countP_cons, if_pos (by simpa using hpe)]
      rw [List.countP_eq_zero.mpr]
      intro q hq
      have hnd := hg.nodup hP
      have hq' := (List.Nodup.mem_erase_iff hnd).mp hq
      have hr := hall q hq'.2 hq'.1
      simp only [decide_eq_true_eq]
      exact fun h => hER _ h hr
    · by_cases h : q = p
      · left; rw [h]; exact hpe
      · right; exact hall q hq h
  set keep : List PlacedItem → Bool := fun b => b.all fun p => decide (¬ E p.itemTypeId) with hkeep
  have hkeep_iff : ∀ b, keep b = true ↔ ¬ ∃ p ∈ b, E p.itemTypeId := by
    intro b; simp [hkeep]
  have hlen : (bins.filter keep).length + number E bins.flatten = bins.length := by
    have hone' : ∀ b ∈ bins, keep b = false → number E b = 1 := by
      intro b hb hk
      apply (hone b hb ?_).1
      by_contra h
      rw [(hkeep_iff b).mpr h] at hk
      exact absurd hk (by simp)
    clear hone
    have hz : ∀ b, keep b = true → number E b = 0 := by
      intro b hk
      unfold number
      rw [List.countP_eq_zero]
      intro p hpb
      have := (hkeep_iff b).mp hk
      simp only [decide_eq_true_eq]
      exact fun h => this ⟨p, hpb, h⟩
    clear hp
    induction bins with
    | nil => rfl
    | cons b bs ih =>
      have ih := ih (fun c hc => hone' c (List.mem_cons_of_mem _ hc))
      rw [List.flatten_cons, number_append, List.length_cons]
      by_cases hk : keep b = true
      · rw [List.filter_cons_of_pos hk, List.length_cons, hz b hk]; omega
      · rw [List.filter_cons_of_neg hk, hone' b (List.mem_cons_self) (by simpa using hk)]; omega
  refine ⟨(bins.filter keep).map fun b => b.filter fun p => decide (¬ R p.itemTypeId), ⟨?_, ?_⟩,
    by rw [List.length_map]; exact hlen⟩
  · intro b' hb'
    obtain ⟨b, hb, rfl⟩ := List.mem_map.mp hb'
    have hbb := List.mem_of_mem_filter hb
    have hk := (hkeep_iff b).mp (List.of_mem_filter hb)
    have hg := (hp.each b hbb).sublist (b' := b.filter fun p => decide (¬ R p.itemTypeId))
      List.filter_sublist
    have hst : ∀ p ∈ b.filter fun p => decide (¬ R p.itemTypeId),
        T'.occ p = T.occ p ∧ T'.o p.itemTypeId = T.o p.itemTypeId := by
      intro p hpf
      have hnr : ¬ R p.itemTypeId := by simpa using List.of_mem_filter hpf
      have hne : ¬ E p.itemTypeId := fun h => hk ⟨p, List.mem_of_mem_filter hpf, h⟩
      obtain ⟨h1, h2, h3⟩ := he _ (hg.exist p hpf) hne hnr
      refine ⟨?_, h3⟩
      unfold occ wd ht
      rw [h1, h2]
    refine ⟨fun p hpf => hn ▸ hg.exist p hpf, fun p hpf hr => ?_, fun p hpf => ?_, ?_⟩
    · rw [(hst p hpf).2]; exact hg.rotation p hpf hr
    · rw [(hst p hpf).1]; exact hg.inside p hpf
    · refine List.Pairwise.imp_of_mem ?_ hg.separated
      intro p q hpf hqf h
      rw [(hst p hpf).1, (hst q hqf).1]; exact h
  · intro i hi
    rw [hn] at hi
    rw [hc i hi]
    rw [← List.filter_flatten]
    split_ifs with h
    · rw [count_zero_iff]
      intro p hpf hpi
      have hnr : ¬ R p.itemTypeId := by simpa using List.of_mem_filter hpf
      obtain ⟨b, hb, hpb⟩ := List.mem_flatten.mp (List.mem_of_mem_filter hpf)
      have hk := (hkeep_iff b).mp (List.of_mem_filter hb)
      rw [hpi] at hnr
      rcases h with h | h
      · exact hk ⟨p, hpb, hpi ▸ h⟩
      · exact hnr h
    · rw [← hp.all i hi]
      have h1 : count ((bins.filter keep).flatten.filter fun p => decide (¬ R p.itemTypeId)) i
          = count (bins.filter keep).flatten i := by
        unfold count
        rw [List.countP_filter]
        congr 1
        apply List.countP_congr
        intro p _
        simp only [Bool.and_eq_true, decide_eq_true_eq, and_iff_left_iff_imp]
        intro hpi; rw [hpi]; exact fun hr => h (Or.inr hr)
      rw [h1]
      have hz : ∀ b ∈ bins, keep b = false → count b i = 0 := by
        intro b hb hk
        rw [count_zero_iff]
        intro p hpb hpi
        have hex : ∃ p ∈ b, E p.itemTypeId := by
          by_contra hne
          rw [(hkeep_iff b).mpr hne] at hk
          exact absurd hk (by simp)
        have := (hone b hb hex).2 p hpb
        rw [hpi] at this
        exact h this
      clear hone hlen h1 hp
      induction bins with
      | nil => rfl
      | cons b bs ih =>
        have ih := ih (fun c hc => hz c (List.mem_cons_of_mem _ hc))
        rw [List.flatten_cons, count_append]
        by_cases hk : keep b = true
        · rw [List.filter_cons_of_pos hk, List.flatten_cons, count_append, ih]
        · rw [List.filter_cons_of_neg hk, hz b List.mem_cons_self (by simpa using hk), ih]; omega

/-- The number of items of `E` is the total number of copies of the types of `E`. -/
theorem Packs.number_eq (hp : T.Packs W H bins) (ids : List Nat) (hnd : ids.Nodup)
    (hids : ∀ i ∈ ids, i < T.n) :
    (number (fun i => i ∈ ids) bins.flatten : Int) = (ids.map T.c).sum := by
  classical
  induction ids with
  | nil =>
    have : number (fun i => i ∈ ([] : List Nat)) bins.flatten = 0 := by
      unfold number; rw [List.countP_eq_zero]; intro p _; simp
    rw [this]; rfl
  | cons i is ih =>
    have hnd' := List.nodup_cons.mp hnd
    have ih := ih hnd'.2 (fun j hj => hids j (List.mem_cons_of_mem _ hj))
    rw [List.map_cons, List.sum_cons, ← ih, ← hp.all i (hids i List.mem_cons_self)]
    unfold number count
    have : ∀ l : List PlacedItem, l.countP (fun p => decide (p.itemTypeId ∈ i :: is))
        = l.countP (fun p => decide (p.itemTypeId = i))
          + l.countP (fun p => decide (p.itemTypeId ∈ is)) := by
      intro l
      induction l with
      | nil => rfl
      | cons p l ihl =>
        rw [List.countP_cons, List.countP_cons, List.countP_cons, ihl]
        by_cases h1 : p.itemTypeId = i
        · have h2 : p.itemTypeId ∉ is := h1 ▸ hnd'.1
          simp [h1, hnd'.1]; omega
        · simp [h1]; omega
    rw [this]; push_cast; rfl

/-! ## Pairs -/

theorem Good.cons_iff {p : PlacedItem} : T.Good W H (p :: b) ↔
    (p.itemTypeId < T.n ∧ (p.rotate = true → T.o p.itemTypeId = false) ∧ Inside W H (T.occ p)
      ∧ ∀ q ∈ b, Separated (T.occ p) (T.occ q)) ∧ T.Good W H b := by
  constructor
  · intro hg
    refine ⟨⟨hg.exist p List.mem_cons_self, hg.rotation p List.mem_cons_self,
      hg.inside p List.mem_cons_self, (List.pairwise_cons.mp hg.separated).1⟩, ?_⟩
    exact hg.sublist (List.sublist_cons_self p b)
  · rintro ⟨⟨h1, h2, h3, h4⟩, hg⟩
    refine ⟨?_, ?_, ?_, List.pairwise_cons.mpr ⟨h4, hg.separated⟩⟩
    · intro q hq; rcases List.mem_cons.mp hq with rfl | h
      · exact h1
      · exact hg.exist q h
    · intro q hq; rcases List.mem_cons.mp hq with rfl | h
      · exact h2
      · exact hg.rotation q h
    · intro q hq; rcases List.mem_cons.mp hq with rfl | h
      · exact h3
      · exact hg.inside q h

/-- Move an item to the right by `d`. -/
def shift (d : Int) (p : PlacedItem) : PlacedItem := { p with x := p.x + d }

theorem occ_shift (T : Tab) (d : Int) (p : PlacedItem) :
    T.occ (shift d p) = ⟨p.x + d, p.y, T.wd p, T.ht p⟩ := rfl

theorem count_map_id (f : PlacedItem → PlacedItem) (hf : ∀ p, (f p).itemTypeId = p.itemTypeId)
    (a : List PlacedItem) (i : Nat) : count (a.map f) i = count a i := by
  unfold count
  rw [List.countP_map]
  congr 1
  apply List.countP_congr
  intro p _
  simp [Function.comp, hf]

/-- Without an item of full height, the other items of its bin fit in the remaining width. -/
theorem Good.close (hP : T.Pos) {p : PlacedItem} (hg : T.Good W H (p :: b)) (hf : T.ht p = H) :
    T.Good (W - T.wd p) H (b.map fun q => if p.x ≤ q.x then shift (- T.wd p) q else q) := by
  obtain ⟨⟨hp1, -, hp3, hp4⟩, hgb⟩ := Good.cons_iff.mp hg
  have hwp := hP.wd_pos hp1
  set f : PlacedItem → PlacedItem := fun q => if p.x ≤ q.x then shift (- T.wd p) q else q with hfdef
  have hid : ∀ q, (f q).itemTypeId = q.itemTypeId := by
    intro q; simp only [hfdef]; split_ifs <;> rfl
  have hrt : ∀ q, (f q).rotate = q.rotate := by
    intro q; simp only [hfdef]; split_ifs <;> rfl
  have hy : ∀ q, (f q).y = q.y := by
    intro q; simp only [hfdef]; split_ifs <;> rfl
  have hwd : ∀ q, T.wd (f q) = T.wd q := by intro q; unfold wd; rw [hid, hrt]
  have hht : ∀ q, T.ht (f q) = T.ht q := by intro q; unfold ht; rw [hid, hrt]
  -- left of or right of the removed item
  have hside : ∀ q ∈ b, (q.x + T.wd q ≤ p.x ∧ (f q).x = q.x)
      ∨ (p.x + T.wd p ≤ q.x ∧ (f q).x = q.x - T.wd p) := by
    intro q hq
    have hs := hp4 q hq
    have hqi := hgb.inside q hq
    have hqh := hP.ht_pos (hgb.exist q hq)
    have hqw := hP.wd_pos (hgb.exist q hq)
    unfold Separated at hs
    unfold Inside at hp3 hqi
    unfold occ at hs hp3 hqi
    simp only at hs hp3 hqi
    by_cases hle : p.x ≤ q.x
    · right
      refine ⟨by omega, ?_⟩
      simp only [hfdef, if_pos hle, shift]; omega
    · left
      refine ⟨by omega, ?_⟩
      simp only [hfdef, if_neg hle]
  refine ⟨?_, ?_, ?_, ?_⟩
  · intro q' hq'
    obtain ⟨q, hq, rfl⟩ := List.mem_map.mp hq'
    rw [hid]; exact hgb.exist q hq
  · intro q' hq' hr
    obtain ⟨q, hq, rfl⟩ := List.mem_map.mp hq'
    change (f q).rotate = _ at hr
    rw [hid]; rw [hrt] at hr; exact hgb.rotation q hq hr
  · intro q' hq'
    obtain ⟨q, hq, rfl⟩ := List.mem_map.mp hq'
    have hqi := hgb.inside q hq
    have hqw := hP.wd_pos (hgb.exist q hq)
    unfold Inside occ at *
    simp only at *
    rw [hwd, hht, hy]
    rcases hside q hq with ⟨h1, h2⟩ | ⟨h1, h2⟩ <;> rw [h2] <;> omega
  · rw [List.pairwise_map]
    refine List.Pairwise.imp_of_mem ?_ hgb.separated
    intro q r hq hr hs
    have hqw := hP.wd_pos (hgb.exist q hq)
    have hrw := hP.wd_pos (hgb.exist r hr)
    unfold Separated occ at *
    simp only at *
    rw [hwd, hht, hy, hwd, hht, hy]
    rcases hside q hq with ⟨h1, h2⟩ | ⟨h1, h2⟩ <;> rcases hside r hr with ⟨h3, h4⟩ | ⟨h3, h4⟩ <;>
      rw [h2, h4] <;> omega

theorem Good.shift {d : Int} (hg : T.Good W H b) (hd : 0 ≤ d) :
    T.Good (W + d) H (b.map (shift d)) ∧ ∀ p ∈ b.map (Tab.shift d), d ≤ p.x := by
  refine ⟨⟨?_, ?_, ?_, ?_⟩, ?_⟩
  · intro q' hq'
    obtain ⟨q, hq, rfl⟩ := List.mem_map.mp hq'
    exact hg.exist q hq
  · intro q' hq' hr
    obtain ⟨q, hq, rfl⟩ := List.mem_map.mp hq'
    exact hg.rotation q hq hr
  · intro q' hq'
    obtain ⟨q, hq, rfl⟩ := List.mem_map.mp hq'
    have := hg.inside q hq
    rw [occ_shift]
    unfold Inside occ at *
    simp only at *
    omega
  · rw [List.pairwise_map]
    refine hg.separated.imp ?_
    intro p q h
    rw [occ_shift, occ_shift]
    unfold Separated occ at *
    simp only at *
    omega
  · intro q' hq'
    obtain ⟨q, hq, rfl⟩ := List.mem_map.mp hq'
    have := hg.inside q hq
    unfold Inside occ at this
    simp only at this
    change d ≤ q.x + d
    omega

/-- Two bins side by side. -/
theorem Good.beside {a c : List PlacedItem} {W1 W2 : Int} (h1 : T.Good W1 H a)
    (h2 : T.Good W2 H c) (hW1 : 0 ≤ W1) (hW2 : 0 ≤ W2) :
    T.Good (W1 + W2) H (a ++ c.map (Tab.shift W1)) := by
  obtain ⟨h3, h4⟩ := h2.shift hW1
  refine ⟨?_, ?_, ?_, ?_⟩
  · intro p hp
    rcases List.mem_append.mp hp with h | h
    · exact h1.exist p h
    · exact h3.exist p h
  · intro p hp
    rcases List.mem_append.mp hp with h | h
    · exact h1.rotation p h
    · exact h3.rotation p h
  · intro p hp
    rcases List.mem_append.mp hp with h | h
    · have := h1.inside p h
      unfold Inside at *; omega
    · have := h3.inside p h
      unfold Inside at *; omega
  · rw [List.pairwise_append]
    refine ⟨h1.separated, h3.separated, fun p hp q hq => ?_⟩
    have := h1.inside p hp
    have hq' := h4 q hq
    unfold Inside occ at this
    simp only at this
    unfold Separated occ
    simp only
    omega

/-- Two items of full height whose widths sum to that of the bin fill it. -/
theorem Good.filled (hP : T.Pos) {p q : PlacedItem} (hg : T.Good W H (p :: q :: b))
    (hp : T.ht p = H) (hq : T.ht q = H) (hw : T.wd p + T.wd q = W) : b = [] := by
  cases b with
  | nil => rfl
  | cons s b =>
    exfalso
    have hs : s ∈ p :: q :: s :: b := by simp
    have hsn := hg.exist s hs
    have h1 := hP.wd_pos hsn
    have h2 := hP.ht_pos hsn
    have hps := (List.pairwise_cons.mp hg.separated).1 s (by simp)
    have hpq := (List.pairwise_cons.mp hg.separated).1 q (by simp)
    have hqs := (List.pairwise_cons.mp (List.pairwise_cons.mp hg.separated).2).1 s (by simp)
    have i1 := hg.inside p (by simp)
    have i2 := hg.inside q (by simp)
    have i3 := hg.inside s hs
    have wp := hP.wd_pos (hg.exist p (by simp))
    have wq := hP.wd_pos (hg.exist q (by simp))
    have hp' := hP.ht_pos (hg.exist p (by simp))
    unfold Separated occ at hps hpq hqs
    unfold Inside occ at i1 i2 i3
    simp only at hps hpq hqs i1 i2 i3
    rw [hp] at hps hpq i1
    rw [hq] at hpq hqs i2
    omega

/-- The table with one copy fewer of the types `i` and `j`. -/
def less (T : Tab) (i j : Nat) (n : Int) : Tab :=
  { T with c := fun k => if k = i ∨ k = j then T.c k - n else T.c k }

/-- **One pair.** -/
theorem Packs.pairOnce (hp : T.Packs W H bins) (hP : T.Pos) {i j : Nat} (hij : i ≠ j)
    (hi : i < T.n) (hj : j < T.n) (hoi : T.o i = true) (hoj : T.o j = true)
    (hhi : T.h i = H) (hhj : T.h j = H) (hw : T.w i + T.w j = W)
    (hci : 0 < T.c i) (hcj : 0 < T.c j) :
    ∃ bins', (T.less i j 1).Packs W H bins' ∧ bins'.length + 1 = bins.length := by
  -- an item of a type that must not be rotated has its sizes
  have hsize : ∀ b, T.Good W H b → ∀ p ∈ b, ∀ k, p.itemTypeId = k → T.o k = true →
      T.wd p = T.w k ∧ T.ht p = T.h k := by
    intro b hg p hpb k hk hok
    have hr : p.rotate = false := by
      by_contra h
      have := hg.rotation p hpb (by simpa using h)
      rw [hk, hok] at this; exact absurd this (by simp)
    unfold wd ht
    rw [hr, hk]; simp
  have hfind : ∀ k, k < T.n → 0 < T.c k → ∃ b ∈ bins, ∃ p ∈ b, p.itemTypeId = k := by
    intro k hk hck
    by_contra hno
    have : count bins.flatten k = 0 := by
      rw [count_zero_iff]
      intro p hpf hpk
      obtain ⟨b, hb, hpb⟩ := List.mem_flatten.mp hpf
      exact hno ⟨b, hb, p, hpb, hpk⟩
    rw [hp.all k hk] at this
    omega
  -- same sizes in the new table
  have hgood : ∀ b, T.Good W H b → (T.less i j 1).Good W H b := fun b hg =>
    ⟨hg.exist, hg.rotation, hg.inside, hg.separated⟩
  obtain ⟨B1, hB1, p, hpB, hpi⟩ := hfind i hi hci
  have hperm1 := List.perm_cons_erase hB1
  have hpp := List.perm_cons_erase hpB
  have hg1 : T.Good W H (p :: B1.erase p) := (hp.each B1 hB1).perm hpp.symm
  obtain ⟨hwp, hhp⟩ := hsize _ hg1 p List.mem_cons_self i hpi hoi
  by_cases hq : ∃ q ∈ B1.erase p, q.itemTypeId = j
  · obtain ⟨q, hqB, hqj⟩ := hq
    have hqq := List.perm_cons_erase hqB
    have hg2 : T.Good W H (p :: q :: (B1.erase p).erase q) :=
      hg1.perm (hqq.symm.cons p)
    obtain ⟨hwq, hhq⟩ := hsize _ hg2 q (by simp) j hqj hoj
    have hnil := hg2.filled hP (by rw [hhp, hhi]) (by rw [hhq, hhj]) (by rw [hwp, hwq, hw])
    have hB : B1.Perm [p, q] := by
      have h := hqq
      rw [hnil] at h
      exact hpp.trans (h.cons p)
    refine ⟨bins.erase B1, ⟨fun b hb => hgood b (hp.each b (List.mem_of_mem_erase hb)), ?_⟩, ?_⟩
    · intro k hk
      have h1 := hp.all k hk
      rw [count_perm hperm1.flatten, List.flatten_cons, count_append, count_perm hB, count_cons,
        count_cons, count_nil, hpi, hqj] at h1
      change _ = if k = i ∨ k = j then T.c k - 1 else T.c k
      by_cases hk1 : i = k
      · subst hk1
        rw [if_pos rfl, if_neg (fun h => hij h.symm)] at h1
        rw [if_pos (Or.inl rfl)]; omega
      · by_cases hk2 : j = k
        · subst hk2
          rw [if_neg hk1, if_pos rfl] at h1
          rw [if_pos (Or.inr rfl)]; omega
        · rw [if_neg hk1, if_neg hk2] at h1
          rw [if_neg (by omega)]; omega
    · have := hperm1.length_eq
      rw [List.length_cons] at this; omega
  · -- two bins
    have hperm1' := hperm1
    obtain ⟨B2, hB2, q, hqB, hqj⟩ := hfind j hj hcj
    have hB2' : B2 ∈ bins.erase B1 := by
      by_cases hBB : B2 = B1
      · exfalso
        apply hq
        have hqB1 : q ∈ B1 := hBB ▸ hqB
        have hne : q ≠ p := by
          intro h; rw [h, hpi] at hqj; exact hij hqj
        exact ⟨q, (List.mem_erase_of_ne hne).mpr hqB1, hqj⟩
      · exact (List.mem_erase_of_ne hBB).mpr hB2
    have hperm2 := List.perm_cons_erase hB2'
    have hqq := List.perm_cons_erase hqB
    have hg2 : T.Good W H (q :: B2.erase q) := (hp.each B2 hB2).perm hqq.symm
    obtain ⟨hwq, hhq⟩ := hsize _ hg2 q (by simp) j hqj hoj
    have c1 := hg1.close hP (by rw [hhp, hhi])
    have c2 := hg2.close hP (by rw [hhq, hhj])
    have hwi := (hP i hi).1
    have hwj := (hP j hj).1
    have c := c1.beside c2 (by omega) (by omega)
    rw [hwp, hwq] at c
    have e : W - T.w i + (W - T.w j) = W := by omega
    rw [e] at c
    set f1 : PlacedItem → PlacedItem :=
      fun s => if p.x ≤ s.x then Tab.shift (- T.w i) s else s with hf1
    set f2 : PlacedItem → PlacedItem :=
      fun s => if q.x ≤ s.x then Tab.shift (- T.w j) s else s with hf2
    refine ⟨((B1.erase p).map f1 ++ ((B2.erase q).map f2).map (Tab.shift (W - T.w i)))
        :: (bins.erase B1).erase B2, ⟨?_, ?_⟩, ?_⟩
    · intro b hb
      rcases List.mem_cons.mp hb with rfl | h
      · exact hgood _ c
      · exact hgood _ (hp.each b (List.mem_of_mem_erase (List.mem_of_mem_erase h)))
    · intro k hk
      have h1 := hp.all k hk
      rw [count_perm (hperm1.trans (hperm2.cons B1)).flatten, List.flatten_cons, List.flatten_cons,
        count_append, count_append, count_perm hpp, count_perm hqq, count_cons, count_cons, hpi,
        hqj] at h1
      rw [List.flatten_cons, count_append, count_append,
        count_map_id f1 (fun s => by simp only [hf1]; split_ifs <;> rfl),
        count_map_id (Tab.shift (W - T.w i)) (fun s => rfl),
        count_map_id f2 (fun s => by simp only [hf2]; split_ifs <;> rfl)]
      change _ = if k = i ∨ k = j then T.c k - 1 else T.c k
      by_cases hk1 : i = k
      · subst hk1
        rw [if_pos rfl, if_neg (fun h => hij h.symm)] at h1
        rw [if_pos (Or.inl rfl)]; omega
      · by_cases hk2 : j = k
        · subst hk2
          rw [if_neg hk1, if_pos rfl] at h1
          rw [if_pos (Or.inr rfl)]; omega
        · rw [if_neg hk1, if_neg hk2] at h1
          rw [if_neg (by omega)]; omega
    · have h1 := hperm1.length_eq
      have h2 := hperm2.length_eq
      rw [List.length_cons] at h1 h2 ⊢; omega

/-- **Pairs**: `n` bins can be set aside for `n` pairs of items that tile a bin. -/
theorem Packs.pairs (hp : T.Packs W H bins) (hP : T.Pos) {i j : Nat} (hij : i ≠ j)
    (hi : i < T.n) (hj : j < T.n) (hoi : T.o i = true) (hoj : T.o j = true)
    (hhi : T.h i = H) (hhj : T.h j = H) (hw : T.w i + T.w j = W) (n : Nat)
    (hci : (n : Int) ≤ T.c i) (hcj : (n : Int) ≤ T.c j) :
    ∃ bins', (T.less i j n).Packs W H bins' ∧ bins'.length + n = bins.length := by
  induction n with
  | zero =>
    refine ⟨bins, hp.congr rfl ?_, rfl⟩
    intro k _
    refine ⟨rfl, rfl, ?_, rfl⟩
    change (if k = i ∨ k = j then T.c k - 0 else T.c k) = _
    split_ifs <;> omega
  | succ n ih =>
    obtain ⟨bins1, hp1, hl1⟩ := ih (by push_cast at *; omega) (by push_cast at *; omega)
    have ci : (T.less i j n).c i = T.c i - n := if_pos (Or.inl rfl)
    have cj : (T.less i j n).c j = T.c j - n := if_pos (Or.inr rfl)
    obtain ⟨bins2, hp2, hl2⟩ := hp1.pairOnce (T := T.less i j n) hP hij hi hj hoi hoj hhi hhj hw
      (by push_cast at *; omega) (by push_cast at *; omega)
    refine ⟨bins2, hp2.congr rfl ?_, by omega⟩
    intro k _
    refine ⟨rfl, rfl, ?_, rfl⟩
    change (if k = i ∨ k = j then T.c k - ((n + 1 : Nat) : Int) else T.c k)
      = if k = i ∨ k = j then (if k = i ∨ k = j then T.c k - n else T.c k) - 1
        else (if k = i ∨ k = j then T.c k - n else T.c k)
    split_ifs <;> push_cast <;> omega

end PackingSolver.Rect.Reduction.Tab
