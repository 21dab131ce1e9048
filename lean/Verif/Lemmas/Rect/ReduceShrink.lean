import Verif.Lemmas.Rect.ReduceGeom
import Verif.Model.Rect.Reduction
import Mathlib.Data.List.GetD

/-!
# Geometry of the reduction: shrinking the bins
-/

namespace PackingSolver.Rect.Reduction

namespace Tab

open PackingSolver.Rect.Spec

variable {T T' : Tab} {W H : Int} {b : List PlacedItem} {bins : List (List PlacedItem)}

/-- The largest of some values and zero. -/
theorem exists_max (g : PlacedItem → Int) (P : PlacedItem → Prop) (l : List PlacedItem) :
    ∃ m, 0 ≤ m ∧ (∀ p ∈ l, P p → g p ≤ m) ∧ (m = 0 ∨ ∃ p ∈ l, P p ∧ m = g p) := by
  classical
  induction l with
  | nil => exact ⟨0, le_refl _, by simp, Or.inl rfl⟩
  | cons q l ih =>
    obtain ⟨m, h0, h1, h2⟩ := ih
    by_cases hq : P q ∧ m < g q
    · refine ⟨g q, by omega, ?_, Or.inr ⟨q, by simp, hq.1, rfl⟩⟩
      intro p hp hP
      rcases List.mem_cons.mp hp with rfl | h
      · exact le_refl _
      · have := h1 p h hP; omega
    · refine ⟨m, h0, ?_, ?_⟩
      · intro p hp hP
        rcases List.mem_cons.mp hp with rfl | h
        · by_contra hlt; exact hq ⟨hP, by omega⟩
        · exact h1 p h hP
      · rcases h2 with h2 | ⟨p, hp, h3⟩
        · exact Or.inl h2
        · exact Or.inr ⟨p, List.mem_cons_of_mem _ hp, h3⟩

/-- Sum of the widths. -/
def widths (T : Tab) (l : List PlacedItem) : Int := (l.map T.wd).sum

theorem widths_append (T : Tab) (a c : List PlacedItem) :
    T.widths (a ++ c) = T.widths a + T.widths c := by
  unfold widths; rw [List.map_append, List.sum_append]

/-- Push the items of a sorted bin to the left. -/
theorem push_left (hP : T.Pos) (l : List PlacedItem) (hg : T.Good W H l)
    (hs : l.Pairwise fun p q => p.x ≤ q.x) :
    ∃ f : PlacedItem → Int,
      (∀ p ∈ l, 0 ≤ f p ∧ f p ≤ p.x ∧ ∃ S, S.Sublist l ∧ f p + T.wd p = T.widths S)
      ∧ l.Pairwise fun p q => Separated (T.occ { p with x := f p }) (T.occ { q with x := f q }) := by
  classical
  induction l using List.reverseRecOn with
  | nil => exact ⟨fun _ => 0, by simp, List.Pairwise.nil⟩
  | append_singleton l q ih =>
    have hgl : T.Good W H l := hg.sublist (List.sublist_append_left l [q])
    have hs' := List.pairwise_append.mp hs
    obtain ⟨f, hf, hsep⟩ := ih hgl hs'.1
    have hq : q ∈ l ++ [q] := by simp
    have hql : q ∉ l := by
      have hnd := List.nodup_append.mp (hg.nodup hP)
      intro h; exact hnd.2.2 q h q (by simp) rfl
    -- the items that overlap vertically
    obtain ⟨m, hm0, hm1, hm2⟩ := exists_max (fun p => f p + T.wd p)
      (fun p => p.y < q.y + T.ht q ∧ q.y < p.y + T.ht p) l
    have hleft : ∀ p ∈ l, (p.y < q.y + T.ht q ∧ q.y < p.y + T.ht p) → p.x + T.wd p ≤ q.x := by
      intro p hp hov
      have h1 := (List.pairwise_append.mp hg.separated).2.2 p hp q (by simp)
      have h2 := hs'.2.2 p hp q (by simp)
      have h3 := hP.wd_pos (hg.exist q hq)
      unfold Separated occ at h1
      simp only at h1
      omega
    have hiq := hg.inside q hq
    unfold Inside occ at hiq
    simp only at hiq
    have hmq : m ≤ q.x := by
      rcases hm2 with h | ⟨p, hp, hov, rfl⟩
      · omega
      · have h1 := hleft p hp hov
        have h2 := (hf p hp).2.1
        omega
    refine ⟨fun p => if p = q then m else f p, ?_, ?_⟩
    · intro p hp
      rcases List.mem_append.mp hp with h | h
      · have hne : p ≠ q := fun e => hql (e ▸ h)
        simp only [if_neg hne]
        obtain ⟨h1, h2, S, hS, hSs⟩ := hf p h
        exact ⟨h1, h2, S, hS.trans (List.sublist_append_left l [q]), hSs⟩
      · have he : p = q := by simpa using h
        subst he
        simp only [if_true]
        refine ⟨hm0, hmq, ?_⟩
        rcases hm2 with h | ⟨r, hr, -, rfl⟩
        · refine ⟨[p], List.sublist_append_right l [p], ?_⟩
          rw [h]; simp [widths]
        · obtain ⟨-, -, S, hS, hSs⟩ := hf r hr
          refine ⟨S ++ [p], hS.append (List.Sublist.refl [p]), ?_⟩
          rw [widths_append, ← hSs]; simp [widths]
    · rw [List.pairwise_append]
      refine ⟨?_, List.pairwise_singleton _ _, ?_⟩
      · refine List.Pairwise.imp_of_mem ?_ hsep
        intro p r hp hr h
        dsimp only
        rw [if_neg (fun e : p = q => hql (e ▸ hp)), if_neg (fun e : r = q => hql (e ▸ hr))]
        exact h
      · intro p hp r hr
        have he : r = q := by simpa using hr
        subst he
        dsimp only
        rw [if_neg (fun e : p = r => hql (e ▸ hp)), if_pos rfl]
        unfold Separated
        change f p + T.wd p ≤ m ∨ m + T.wd r ≤ f p ∨ p.y + T.ht p ≤ r.y ∨ r.y + T.ht r ≤ p.y
        by_cases hov : p.y < r.y + T.ht r ∧ r.y < p.y + T.ht p
        · left; exact hm1 p hp hov
        · right; right; omega

/-- **Shrinking a bin** to a width that every sum of widths of its items not larger than the bin
reaches. -/
theorem Good.shrink (hg : T.Good W H b) (hP : T.Pos) {W' : Int}
    (hW : ∀ S, S.Subperm b → T.widths S ≤ W → T.widths S ≤ W') :
    ∃ b', T.Good W' H b' ∧ ∃ f : PlacedItem → Int, b'.Perm (b.map fun p => { p with x := f p }) := by
  classical
  set l := b.insertionSort (fun p q => p.x ≤ q.x) with hl
  have hperm : l.Perm b := List.perm_insertionSort _ b
  have hsort : l.Pairwise fun p q => p.x ≤ q.x := by
    have : Std.Total fun p q : PlacedItem => p.x ≤ q.x := ⟨fun p q => by omega⟩
    have : IsTrans PlacedItem fun p q => p.x ≤ q.x := ⟨fun p q r h1 h2 => by omega⟩
    exact List.pairwise_insertionSort _ b
  have hgl : T.Good W H l := hg.perm hperm
  obtain ⟨f, hf, hsep⟩ := push_left hP l hgl hsort
  refine ⟨l.map fun p => { p with x := f p }, ⟨?_, ?_, ?_, ?_⟩, f, hperm.map _⟩
  · intro p' hp'
    obtain ⟨p, hp, rfl⟩ := List.mem_map.mp hp'
    exact hgl.exist p hp
  · intro p' hp' hr
    obtain ⟨p, hp, rfl⟩ := List.mem_map.mp hp'
    exact hgl.rotation p hp hr
  · intro p' hp'
    obtain ⟨p, hp, rfl⟩ := List.mem_map.mp hp'
    obtain ⟨h1, h2, S, hS, hSs⟩ := hf p hp
    have hi := hgl.inside p hp
    unfold Inside occ at hi ⊢
    change 0 ≤ f p ∧ f p + T.wd p ≤ W' ∧ 0 ≤ p.y ∧ p.y + T.ht p ≤ H
    simp only at hi
    have := hW S (hS.subperm.trans hperm.subperm) (by omega)
    omega
  · rw [List.pairwise_map]; exact hsep

theorem Packs.shrink (hp : T.Packs W H bins) (hP : T.Pos) {W' : Int}
    (hW : ∀ b ∈ bins, ∀ S, S.Subperm b → T.widths S ≤ W → T.widths S ≤ W') :
    ∃ bins', T.Packs W' H bins' ∧ bins'.length = bins.length := by
  classical
  obtain ⟨hall, hcnt⟩ := hp
  have : ∃ bins' : List (List PlacedItem), (∀ b ∈ bins', T.Good W' H b)
      ∧ (∀ i, count bins'.flatten i = count bins.flatten i) ∧ bins'.length = bins.length := by
    clear hcnt
    induction bins with
    | nil => exact ⟨[], by simp, fun _ => rfl, rfl⟩
    | cons b bs ih =>
      obtain ⟨bs', h1, h2, h3⟩ := ih (fun c hc => hW c (List.mem_cons_of_mem _ hc))
        (fun c hc => hall c (List.mem_cons_of_mem _ hc))
      obtain ⟨b', hg, f, hperm⟩ := (hall b (List.mem_cons_self)).shrink hP
        (hW b List.mem_cons_self)
      refine ⟨b' :: bs', ?_, ?_, by simp [h3]⟩
      · intro c hc
        rcases List.mem_cons.mp hc with rfl | h
        · exact hg
        · exact h1 c h
      · intro i
        rw [List.flatten_cons, List.flatten_cons, count_append, count_append, h2 i,
          count_perm hperm]
        congr 1
        unfold count
        rw [List.countP_map]
        rfl
  obtain ⟨bins', h1, h2, h3⟩ := this
  exact ⟨bins', ⟨h1, fun i hi => by rw [h2 i]; exact hcnt i hi⟩, h3⟩

end Tab

open PackingSolver.Rect.Spec

/-! ## The sums the code enumerates -/

/-- Sums of at most one value of each group. -/
inductive Pick : List (List Int) → Int → Prop
  | nil : Pick [] 0
  | skip {gs : List (List Int)} {s : Int} (g : List Int) : Pick gs s → Pick (gs ++ [g]) s
  | take {gs : List (List Int)} {s v : Int} {g : List Int} : Pick gs s → v ∈ g → 0 ≤ v →
      Pick (gs ++ [g]) (s + v)

theorem Pick.nonneg {gs : List (List Int)} {s : Int} (h : Pick gs s) : 0 ≤ s := by
  induction h with
  | nil => exact le_refl _
  | skip g _ ih => exact ih
  | take _ _ hv ih => omega

theorem reachable_snoc (cap : Int) (gs : List (List Int)) (g : List Int) :
    reachable cap (gs ++ [g]) = (reachable cap gs ++ (reachable cap gs).flatMap fun s =>
      (g.map (s + ·)).filter fun v => decide (v ≤ cap)).dedup := by
  unfold reachable
  rw [List.foldl_append]; rfl

theorem Pick.reachable {cap : Int} {gs : List (List Int)} {s : Int} (h : Pick gs s)
    (hs : s ≤ cap) : s ∈ reachable cap gs := by
  induction h with
  | nil => simp [Reduction.reachable]
  | skip g _ ih =>
    rw [reachable_snoc, List.mem_dedup]
    exact List.mem_append_left _ (ih hs)
  | @take gs s v g _ hv hv0 ih =>
    rw [reachable_snoc, List.mem_dedup]
    apply List.mem_append_right
    rw [List.mem_flatMap]
    refine ⟨s, ih (by omega), ?_⟩
    rw [List.mem_filter]
    exact ⟨List.mem_map.mpr ⟨v, hv, rfl⟩, by simpa using hs⟩

/-- The reachable sums are sums of at most one value of each group, not above the capacity. -/
theorem reachable_le {cap : Int} {gs : List (List Int)} (hc : 0 ≤ cap) :
    ∀ s ∈ Reduction.reachable cap gs, s ≤ cap := by
  induction gs using List.reverseRecOn with
  | nil => intro s hs; simp [Reduction.reachable] at hs; omega
  | append_singleton gs g ih =>
    intro s hs
    rw [reachable_snoc, List.mem_dedup] at hs
    rcases List.mem_append.mp hs with h | h
    · exact ih s h
    · obtain ⟨t, -, h2⟩ := List.mem_flatMap.mp h
      simpa using List.of_mem_filter h2

theorem Pick.append {a c : List (List Int)} {s t : Int} (h1 : Pick a s) (h2 : Pick c t) :
    Pick (a ++ c) (s + t) := by
  induction h2 with
  | nil => rw [List.append_nil, Int.add_zero]; exact h1
  | skip g _ ih => rw [← List.append_assoc]; exact ih.skip g
  | take _ hv h0 ih => rw [← List.append_assoc, ← Int.add_assoc]; exact ih.take hv h0

theorem Pick.replicate {g : List Int} (vs : List Int) (hv : ∀ v ∈ vs, v ∈ g ∧ 0 ≤ v) (n : Nat)
    (hn : vs.length ≤ n) : Pick (List.replicate n g) vs.sum := by
  induction n generalizing vs with
  | zero =>
    have : vs = [] := List.length_eq_zero_iff.mp (by omega)
    subst this; exact Pick.nil
  | succ n ih =>
    rw [List.replicate_succ']
    cases vs using List.reverseRecOn with
    | nil => exact (ih [] (by simp) (by simp)).skip g
    | append_singleton vs v =>
      rw [List.sum_append, List.sum_singleton]
      rw [List.length_append, List.length_singleton] at hn
      exact (ih vs (fun u hu => hv u (by simp [hu])) (by omega)).take (hv v (by simp)).1
        (hv v (by simp)).2

theorem foldl_max_ge (l : List Int) : ∀ a : Int, a ≤ l.foldl max a ∧ ∀ v ∈ l, v ≤ l.foldl max a := by
  induction l with
  | nil => intro a; simp
  | cons x l ih =>
    intro a
    obtain ⟨h1, h2⟩ := ih (max a x)
    rw [List.foldl_cons]
    refine ⟨by omega, ?_⟩
    intro v hv
    rcases List.mem_cons.mp hv with rfl | h
    · omega
    · exact h2 v h

theorem foldl_max_le (l : List Int) (c : Int) (h : ∀ v ∈ l, v ≤ c) :
    ∀ a : Int, a ≤ c → l.foldl max a ≤ c := by
  induction l with
  | nil => intro a ha; exact ha
  | cons x l ih =>
    intro a ha
    rw [List.foldl_cons]
    exact ih (fun v hv => h v (List.mem_cons_of_mem _ hv)) _
      (by have := h x List.mem_cons_self; omega)

/-- The shrunk width is not above the width. -/
theorem maxSum_le (inst : Instance) {cap : Int} (hc : 0 ≤ cap) (width : Bool) :
    maxSum inst cap width ≤ cap := by
  unfold maxSum
  exact foldl_max_le _ _ (reachable_le hc) 0 hc

/-- Every sum of sizes of items of the instance not above the capacity is at most `maxSum`. -/
theorem maxSum_ge (inst : Instance) (cap : Int) (width : Bool) (S : List PlacedItem)
    (hid : ∀ p ∈ S, p.itemTypeId < inst.numberOfItemTypes)
    (hrot : ∀ p ∈ S, p.rotate = true → (inst.itemType p.itemTypeId).oriented = false)
    (hpos : ∀ t ∈ inst.itemTypes, 0 < t.x ∧ 0 < t.y)
    (hcnt : ∀ i, i < inst.numberOfItemTypes → count S i ≤ (inst.itemType i).copies)
    (val : PlacedItem → Int)
    (hval : ∀ p, val p = if width = p.rotate then (inst.itemType p.itemTypeId).y
      else (inst.itemType p.itemTypeId).x)
    (hle : (S.map val).sum ≤ cap) : (S.map val).sum ≤ maxSum inst cap width := by
  classical
  have hmem : ∀ k, k < inst.numberOfItemTypes → inst.itemType k ∈ inst.itemTypes := by
    intro k hk
    unfold Instance.itemType
    rw [List.getD_eq_getElem _ _ hk]; exact List.getElem_mem hk
  have hvals : ∀ p ∈ S, val p ∈ presented width (inst.itemType p.itemTypeId) ∧ 0 ≤ val p := by
    intro p hp
    have hps := hpos _ (hmem _ (hid p hp))
    have hr := hrot p hp
    rw [hval]
    unfold presented
    cases width <;> cases hpr : p.rotate <;> simp only [hpr] at hr ⊢
    · refine ⟨?_, by simp; omega⟩
      simp only [if_true, Bool.false_eq_true, if_false]
      split_ifs <;> simp
    · refine ⟨?_, by simp; omega⟩
      have ho := hr trivial
      simp only [ho]
      by_cases he : (inst.itemType p.itemTypeId).x = (inst.itemType p.itemTypeId).y <;> simp [he]
    · refine ⟨?_, by simp; omega⟩
      simp only [Bool.true_eq_false, if_false, if_true]
      split_ifs <;> simp
    · refine ⟨?_, by simp; omega⟩
      have ho := hr trivial
      simp only [ho]
      by_cases he : (inst.itemType p.itemTypeId).y = (inst.itemType p.itemTypeId).x <;> simp [he]
  have key : ∀ k, k ≤ inst.numberOfItemTypes →
      Pick ((inst.itemTypes.take k).flatMap fun t =>
          List.replicate t.copies.toNat (presented width t))
        (((S.filter fun p => decide (p.itemTypeId < k)).map val).sum) := by
    intro k
    induction k with
    | zero =>
      intro _
      have : (S.filter fun p => decide (p.itemTypeId < 0)) = [] := by
        rw [List.filter_eq_nil_iff]; intro p _; simp
      rw [this]
      exact Pick.nil
    | succ k ih =>
      intro hk
      have hk' : k < inst.itemTypes.length := hk
      rw [List.take_succ_eq_append_getElem hk', List.flatMap_append]
      have hsum : ((S.filter fun p => decide (p.itemTypeId < k + 1)).map val).sum
          = ((S.filter fun p => decide (p.itemTypeId < k)).map val).sum
            + ((S.filter fun p => decide (p.itemTypeId = k)).map val).sum := by
        clear hcnt hle hvals ih hid hrot
        induction S with
        | nil => rfl
        | cons p S ihS =>
          rw [List.filter_cons, List.filter_cons, List.filter_cons]
          by_cases h1 : p.itemTypeId < k
          · rw [if_pos (by simp; omega), if_pos (by simpa using h1), if_neg (by simp; omega)]
            rw [List.map_cons, List.map_cons, List.sum_cons, List.sum_cons, ihS]; omega
          · by_cases h2 : p.itemTypeId = k
            · rw [if_pos (by simp; omega), if_neg (by simp; omega), if_pos (by simpa using h2)]
              rw [List.map_cons, List.map_cons, List.sum_cons, List.sum_cons, ihS]; omega
            · rw [if_neg (by simp; omega), if_neg (by simp; omega), if_neg (by simp; omega), ihS]
      rw [hsum]
      apply (ih (by omega)).append
      have e : inst.itemType k = inst.itemTypes[k] := by
        unfold Instance.itemType; rw [List.getD_eq_getElem _ _ hk']
      rw [List.flatMap_cons, List.flatMap_nil, List.append_nil, ← e]
      apply Pick.replicate
      · intro v hv
        obtain ⟨p, hp, rfl⟩ := List.mem_map.mp hv
        have hpk : p.itemTypeId = k := by simpa using List.of_mem_filter hp
        have := hvals p (List.mem_of_mem_filter hp)
        rw [hpk] at this; exact this
      · rw [List.length_map, ← List.countP_eq_length_filter]
        have := hcnt k hk'
        unfold count at this
        omega
  have hfull := key inst.numberOfItemTypes (le_refl _)
  have e1 : (S.filter fun p => decide (p.itemTypeId < inst.numberOfItemTypes)) = S := by
    rw [List.filter_eq_self]; intro p hp; simpa using hid p hp
  have e2 : inst.itemTypes.take inst.numberOfItemTypes = inst.itemTypes := List.take_length
  rw [e1, e2] at hfull
  unfold maxSum
  exact (foldl_max_ge _ 0).2 _ (hfull.reachable hle)

end PackingSolver.Rect.Reduction
