import Verif.Lemmas.Rect.ReduceExact

/-!
# The reduction loses no item if every item type has one copy: groups, full bins and pairs
-/

namespace PackingSolver.Rect.Reduction

open Rect.Spec

variable {env : Env} {st st' : State} {inst : Instance} {j : Nat}

/-- How many items of a group are of item type `i`. -/
def inGroup (i : Nat) (g : List GroupItem) : Nat := g.countP fun p => decide (p.itemTypeId = i)

/-! ## Capturing big items -/

/-- What every step keeps. -/
def Exact (C : Nat → Int) (n : Nat) (st : State) : Prop :=
  Single st ∧ st.items.length = n ∧ ∀ j, allUses j st = C j

theorem captureOne_exact {C : Nat → Int} {n : Nat} {acc acc' : State × Bool} {i : Nat}
    (h : captureOne env acc i = .ok acc') (hi : i < n) (hr : (acc.1.item i).removed = false)
    (hE : Exact C n acc.1) :
    Exact C n acc'.1 ∧ ∀ l, l ≠ i → acc'.1.item l = acc.1.item l := by
  obtain ⟨hS, hlen, hC⟩ := hE
  rw [← hlen] at hi
  unfold captureOne at h
  dsimp only at h
  split at h
  · cases h; exact ⟨⟨hS, hlen, hC⟩, fun _ _ => rfl⟩
  · rename_i r hro
    split_ifs at h with h1
    · cases h; exact ⟨⟨hS, hlen, hC⟩, fun _ _ => rfl⟩
    · obtain ⟨⟨e, it'⟩, h2, h⟩ := bind_ok.mp h
      cases h
      obtain ⟨q1, cs, rfl, q2⟩ := take_out (i := i) h2 hr (hS.1 i hi)
      refine ⟨⟨hS.set ⟨fun _ => q1, by simp⟩, (length_setItem _ _ _).trans hlen, fun j => ?_⟩,
        fun l hl => item_setItem_ne _ (Ne.symm hl) _⟩
      rw [← hC j]
      have g : load j i { it' with copies := 0, removed := true } = 0 := load_gone rfl q1
      have e1 : dedicatedUses j { (acc.1.setItem i { it' with copies := 0, removed := true }) with
          groups := acc.1.groups ++ [cs].map fun cs => [⟨i, 0, 0, r, cs⟩] }
          = dedicatedUses j acc.1 + ew j i cs := by
        unfold dedicatedUses
        dsimp only [State.setItem]
        rw [List.map_append, List.sum_append]
        simp only [List.map_cons, List.map_nil, List.sum_cons, List.sum_nil, groupContents,
          List.flatMap_cons, List.flatMap_nil, List.append_nil, count_place]
        omega
      unfold allUses
      change total j (acc.1.setItem i { it' with copies := 0, removed := true })
        + dedicatedUses j { (acc.1.setItem i { it' with copies := 0, removed := true }) with
          groups := acc.1.groups ++ [cs].map fun cs => [⟨i, 0, 0, r, cs⟩] } = _
      rw [e1, total_set hi, g, q2]
      omega

theorem captureAll_exact {C : Nat → Int} {n : Nat} (l : List Nat) : ∀ {acc acc' : State × Bool},
    l.foldlM (captureOne env) acc = .ok acc' → l.Nodup →
    (∀ i ∈ l, i < n ∧ (acc.1.item i).removed = false) → Exact C n acc.1 → Exact C n acc'.1 := by
  induction l with
  | nil => intro acc acc' h _ _ hE; cases h; exact hE
  | cons i l ih =>
    intro acc acc' h hnd hl hE
    obtain ⟨acc1, h1, h2⟩ := foldlM_cons_ok.mp h
    rw [List.nodup_cons] at hnd
    obtain ⟨a1, a2⟩ := captureOne_exact h1 (hl i List.mem_cons_self).1
      (hl i List.mem_cons_self).2 hE
    refine ih h2 hnd.2 (fun x hx => ?_) a1
    rw [a2 x (fun e => hnd.1 (e ▸ hx))]
    exact hl x (List.mem_cons_of_mem _ hx)

/-! ## Groups read off a check -/

/-- What one bin of the check becomes. -/
theorem readGroup_exact {bigs rs : List Nat} (hdis : ∀ i ∈ rs, i ∉ bigs) (hnd : rs.Nodup) {big : Nat}
    (hbig : big < bigs.length) :
    ∀ {items : List PlacedItem} {g : List GroupItem}, readGroup bigs rs big items = some g →
    inGroup bigs[big] g = items.countP (fun p => decide (p.itemTypeId < bigs.length))
      ∧ items.countP (fun p => decide (p.itemTypeId < bigs.length))
        = items.countP (fun p => decide (p.itemTypeId = big))
      ∧ (∀ (k : Nat) (hk : k < rs.length), inGroup rs[k] g
        = items.countP (fun p => decide (p.itemTypeId = bigs.length + k)))
      ∧ ∀ q ∈ g, q.itemTypeId ∈ bigs ++ rs := by
  intro items
  induction items with
  | nil =>
    intro g h
    unfold readGroup at h
    rw [List.mapM_nil] at h
    cases h; exact ⟨rfl, rfl, fun _ _ => rfl, by simp⟩
  | cons p items ih =>
    intro g h
    unfold readGroup at h
    rw [List.mapM_cons] at h
    obtain ⟨c, h1, h⟩ := Option.bind_eq_some_iff.mp h
    obtain ⟨g1, h2, h⟩ := Option.bind_eq_some_iff.mp h
    cases h
    obtain ⟨i1, i2, i3, i4⟩ := ih h2
    unfold inGroup at i1 i3 ⊢
    simp only [List.countP_cons]
    split_ifs at h1 with c1 c2 c3
    · cases h1
      dsimp only
      have e0 : bigs.getD big 0 = bigs[big] := List.getD_eq_getElem _ _ hbig
      refine ⟨?_, ?_, fun k hk => ?_, fun q hq => ?_⟩
      · rw [i1, e0, c1]; simp [hbig]
      · rw [i2, c1]; simp [hbig]
      · rw [i3 k hk, e0, c1]
        have : ¬ bigs[big] = rs[k] := fun e =>
          hdis _ (List.getElem_mem hk) (e ▸ List.getElem_mem hbig)
        have : ¬ big = bigs.length + k := by omega
        simp [*]
      · rcases List.mem_cons.mp hq with rfl | hq
        · dsimp only; rw [e0]; exact List.mem_append_left _ (List.getElem_mem hbig)
        · exact i4 q hq
    · cases h1
      dsimp only
      rw [List.getD_eq_getElem _ _ c3]
      refine ⟨?_, ?_, fun k hk => ?_, fun q hq => ?_⟩
      · have : ¬ rs[p.itemTypeId - bigs.length] = bigs[big] := fun e =>
          hdis _ (List.getElem_mem c3) (e ▸ List.getElem_mem hbig)
        rw [i1]; simp [this, c2]
      · rw [i2]; simp [c1, c2]
      · rw [i3 k hk]
        congr 1
        have : rs[p.itemTypeId - bigs.length] = rs[k] ↔ p.itemTypeId = bigs.length + k := by
          rw [hnd.getElem_inj_iff]; omega
        simp only [this]
      · rcases List.mem_cons.mp hq with rfl | hq
        · exact List.mem_append_right _ (List.getElem_mem c3)
        · exact i4 q hq

/-- The loop of `readCheckBoth`. -/
abbrev bothLoop (bigs rs : List Nat) (acc : List (List (List GroupItem))) (b : PackedBin) :
    Option (List (List (List GroupItem))) :=
  match (b.items.find? fun p => decide (p.itemTypeId < bigs.length)) with
  | none => some acc
  | some p => do
    let g ← readGroup bigs rs p.itemTypeId b.items
    some (acc.modify p.itemTypeId (· ++ List.replicate b.copies.toNat g))

/-- Every bin of the check either holds no big item or could be read. -/
theorem bothLoop_mem {bigs rs : List Nat} (sol : List PackedBin) :
    ∀ {acc groups : List (List (List GroupItem))}, sol.foldlM (bothLoop bigs rs) acc = some groups →
    ∀ b ∈ sol, b.items.countP (fun p => decide (p.itemTypeId < bigs.length)) = 0
      ∨ ∃ big g, big < bigs.length ∧ readGroup bigs rs big b.items = some g := by
  induction sol with
  | nil => intro acc groups _ b hb; simp at hb
  | cons c sol ih =>
    intro acc groups h b hb
    rw [List.foldlM_cons] at h
    obtain ⟨acc1, h1, h2⟩ := Option.bind_eq_some_iff.mp h
    rcases List.mem_cons.mp hb with rfl | hb
    · unfold bothLoop at h1
      split at h1
      · rename_i hf
        left
        rw [List.find?_eq_none] at hf
        exact List.countP_eq_zero.mpr hf
      · rename_i p hf
        obtain ⟨g, hg, -⟩ := Option.bind_eq_some_iff.mp h1
        have := List.find?_some hf
        exact Or.inr ⟨p.itemTypeId, g, by simpa using this, hg⟩
    · exact ih h2 b hb

theorem countP_bigs (n : Nat) (items : List PlacedItem) :
    (items.countP (fun p => decide (p.itemTypeId < n)) : Int)
      = ∑ k ∈ Finset.range n, count items k := by
  induction items with
  | nil => simp [count]
  | cons p items ih =>
    rw [List.countP_cons]
    push_cast
    rw [ih]
    have : ∀ k, count (p :: items) k = count items k + if p.itemTypeId = k then 1 else 0 := by
      intro k
      unfold count
      rw [List.countP_cons]
      push_cast
      by_cases c : p.itemTypeId = k <;> simp [c]
    simp only [this]
    rw [Finset.sum_add_distrib, Finset.sum_ite_eq]
    by_cases c : p.itemTypeId < n <;> simp [c]

/-- A sum of numbers that are not negative, and not positive in total. -/
theorem sum_zero {α : Type} {l : List α} {f : α → Int} (h0 : ∀ a ∈ l, 0 ≤ f a)
    (h : (l.map f).sum ≤ 0) : ∀ a ∈ l, f a = 0 := by
  induction l with
  | nil => simp
  | cons a l ih =>
    rw [List.map_cons, List.sum_cons] at h
    have h1 := h0 a List.mem_cons_self
    have h2 : 0 ≤ (l.map f).sum := List.sum_nonneg (by
      intro x hx
      obtain ⟨y, hy, rfl⟩ := List.mem_map.mp hx
      exact h0 y (List.mem_cons_of_mem _ hy))
    intro b hb
    rcases List.mem_cons.mp hb with rfl | hb
    · omega
    · exact ih (fun x hx => h0 x (List.mem_cons_of_mem _ hx)) (by omega) b hb

/-- If all items are packed once in at most as many bins as there are big items and every bin could
be read, every bin holds one big item. -/
theorem one_big {bigs rs : List Nat} (hdis : ∀ i ∈ rs, i ∉ bigs) (hnd : rs.Nodup)
    {sol : List PackedBin} {groups : List (List (List GroupItem))}
    (h : sol.foldlM (bothLoop bigs rs) (List.replicate bigs.length []) = some groups)
    (hpos : ∀ b ∈ sol, 0 < b.copies)
    (hone : ∀ k, k < bigs.length → itemCopies sol k = 1)
    (hbins : (sol.map fun b => b.copies).sum ≤ bigs.length) :
    ∀ b ∈ sol, b.items.countP (fun p => decide (p.itemTypeId < bigs.length)) = 1 := by
  have hle : ∀ b ∈ sol, b.items.countP (fun p => decide (p.itemTypeId < bigs.length)) ≤ 1 := by
    intro b hb
    rcases bothLoop_mem sol h b hb with e | ⟨big, g, hbig, hg⟩
    · omega
    · rw [(readGroup_exact hdis hnd hbig hg).2.1]
      have h1 := hone big hbig
      unfold itemCopies at h1
      have h2 : b.copies * count b.items big ≤ (sol.map fun b => b.copies * count b.items big).sum :=
        List.single_le_sum (by
          intro x hx
          obtain ⟨c, hc, rfl⟩ := List.mem_map.mp hx
          have := hpos c hc
          unfold count
          positivity) _ (List.mem_map_of_mem hb)
      rw [h1] at h2
      have h3 := hpos b hb
      unfold count at h2
      by_contra h4
      have h5 : (2 : Int) ≤ (b.items.countP (fun p => decide (p.itemTypeId = big)) : Nat) := by
        omega
      nlinarith
  have hsum : (sol.map fun b =>
      b.copies * (b.items.countP (fun p => decide (p.itemTypeId < bigs.length)) : Int)).sum
      = bigs.length := by
    have e : ∀ l : List PackedBin, (l.map fun b =>
        b.copies * (b.items.countP (fun p => decide (p.itemTypeId < bigs.length)) : Int)).sum
        = ∑ k ∈ Finset.range bigs.length, itemCopies l k := by
      intro l
      induction l with
      | nil => simp [itemCopies]
      | cons b l ih =>
        rw [List.map_cons, List.sum_cons, ih, countP_bigs, Finset.mul_sum, ← Finset.sum_add_distrib]
        refine Finset.sum_congr rfl fun k _ => ?_
        unfold itemCopies
        rw [List.map_cons, List.sum_cons]
    rw [e, Finset.sum_congr rfl fun k hk => hone k (Finset.mem_range.mp hk)]
    simp
  have hz := sum_zero (l := sol) (f := fun b =>
    b.copies * (1 - (b.items.countP (fun p => decide (p.itemTypeId < bigs.length)) : Int)))
    (fun b hb => mul_nonneg (hpos b hb).le (by have := hle b hb; omega)) (by
      have e : ∀ l : List PackedBin, (l.map fun b => b.copies
          * (1 - (b.items.countP (fun p => decide (p.itemTypeId < bigs.length)) : Int))).sum
          = (l.map fun b => b.copies).sum - (l.map fun b => b.copies
            * (b.items.countP (fun p => decide (p.itemTypeId < bigs.length)) : Int)).sum := by
        intro l
        induction l with
        | nil => rfl
        | cons b l ih =>
          simp only [List.map_cons, List.sum_cons]
          rw [ih, mul_sub]
          ring
      rw [e, hsum]
      omega)
  intro b hb
  have h1 := hz b hb
  have h2 := hpos b hb
  rcases mul_eq_zero.mp h1 with e | e <;> omega

/-- Copies of item type `i` in groups that belong to big items. -/
def inGroups (i : Nat) (gs : List (List (List GroupItem))) : Nat :=
  (gs.map fun l => (l.map (inGroup i)).sum).sum

theorem inGroups_modify (i : Nat) (g : List GroupItem) (n : Nat) :
    ∀ (acc : List (List (List GroupItem))) (k : Nat), k < acc.length →
    inGroups i (acc.modify k (· ++ List.replicate n g)) = inGroups i acc + n * inGroup i g := by
  intro acc
  induction acc with
  | nil => intro k hk; simp at hk
  | cons l acc ih =>
    intro k hk
    cases k with
    | zero =>
      unfold inGroups
      simp only [List.modify_zero_cons, List.map_cons, List.sum_cons, List.map_append,
        List.sum_append, List.map_replicate, List.sum_replicate, smul_eq_mul]
      omega
    | succ k =>
      have := ih k (by simpa using hk)
      unfold inGroups at this ⊢
      simp only [List.modify_succ_cons, List.map_cons, List.sum_cons]
      omega

/-- What the groups hold once all bins are read. -/
theorem bothLoop_exact {bigs rs : List Nat} (hdis : ∀ i ∈ rs, i ∉ bigs) (hnd : rs.Nodup)
    (sol : List PackedBin)
    (hb : ∀ b ∈ sol, 0 < b.copies
      ∧ b.items.countP (fun p => decide (p.itemTypeId < bigs.length)) = 1) :
    ∀ {acc groups : List (List (List GroupItem))}, sol.foldlM (bothLoop bigs rs) acc = some groups →
    acc.length = bigs.length →
    (∀ (i : Nat) (hi : i < bigs.length), ∀ g ∈ acc.getD i [],
      inGroup bigs[i] g = 1 ∧ ∀ q ∈ g, q.itemTypeId ∈ bigs ++ rs) →
    groups.length = bigs.length
      ∧ (∀ (i : Nat) (hi : i < bigs.length), ∀ g ∈ groups.getD i [],
        inGroup bigs[i] g = 1 ∧ ∀ q ∈ g, q.itemTypeId ∈ bigs ++ rs)
      ∧ (∀ i, i < bigs.length →
        ((groups.getD i []).length : Int) = (acc.getD i []).length + itemCopies sol i)
      ∧ ∀ (k : Nat) (hk : k < rs.length), (inGroups rs[k] groups : Int)
        = inGroups rs[k] acc + itemCopies sol (bigs.length + k) := by
  induction sol with
  | nil =>
    intro acc groups h hl ha; cases h
    have e0 : ∀ i, itemCopies [] i = 0 := fun _ => rfl
    exact ⟨hl, ha, fun i _ => by rw [e0]; omega, fun k _ => by rw [e0]; omega⟩
  | cons b sol ih =>
    intro acc groups h hl ha
    rw [List.foldlM_cons] at h
    obtain ⟨acc1, h1, h2⟩ := Option.bind_eq_some_iff.mp h
    obtain ⟨hp, hc⟩ := hb b List.mem_cons_self
    unfold bothLoop at h1
    split at h1
    · rename_i hf
      rw [List.find?_eq_none] at hf
      rw [List.countP_eq_zero.mpr hf] at hc
      cases hc
    · rename_i p hf
      obtain ⟨g, hg, h1⟩ := Option.bind_eq_some_iff.mp h1
      cases h1
      have hbig : p.itemTypeId < bigs.length := by simpa using List.find?_some hf
      obtain ⟨r1, r2, r3, r4⟩ := readGroup_exact hdis hnd hbig hg
      have hget : ∀ i, i < bigs.length →
          (acc.modify p.itemTypeId (· ++ List.replicate b.copies.toNat g)).getD i []
            = if p.itemTypeId = i then acc.getD i [] ++ List.replicate b.copies.toNat g
              else acc.getD i [] := by
        intro i hi
        rw [List.getD_eq_getElem?_getD, List.getElem?_modify, List.getD_eq_getElem?_getD]
        have hil : i < acc.length := by omega
        rw [List.getElem?_eq_getElem hil]
        by_cases c : p.itemTypeId = i <;> simp [c]
      obtain ⟨s1, s2, s3, s4⟩ := ih (fun c hc => hb c (List.mem_cons_of_mem _ hc)) h2
        (by rw [List.length_modify]; exact hl) (fun i hi x hx => by
          rw [hget i hi] at hx
          split_ifs at hx with c
          · rcases List.mem_append.mp hx with hx | hx
            · exact ha i hi x hx
            · rw [List.eq_of_mem_replicate hx]
              subst c
              exact ⟨by rw [r1, hc], r4⟩
          · exact ha i hi x hx)
      have hic : ∀ i, itemCopies (b :: sol) i = b.copies * count b.items i + itemCopies sol i := by
        intro i; unfold itemCopies; rw [List.map_cons, List.sum_cons]
      refine ⟨s1, s2, fun i hi => ?_, fun k hk => ?_⟩
      · rw [s3 i hi, hic, hget i hi]
        have hcnt : count b.items i = if p.itemTypeId = i then 1 else 0 := by
          unfold count
          split_ifs with c
          · subst c; rw [← r2, hc]; rfl
          · have h0 : b.items.countP (fun q => decide (q.itemTypeId = i)) = 0 := by
              rw [List.countP_eq_zero]
              intro q hq
              rw [decide_eq_true_eq]
              intro e
              -- otherwise the bin holds two big items
              have h1 : b.items.countP (fun q => decide (q.itemTypeId = p.itemTypeId))
                  + b.items.countP (fun q => decide (q.itemTypeId = i))
                  ≤ b.items.countP (fun q => decide (q.itemTypeId < bigs.length)) := by
                clear * - hbig hi c
                induction b.items with
                | nil => simp
                | cons q l ih =>
                  simp only [List.countP_cons]
                  by_cases c1 : q.itemTypeId = p.itemTypeId
                  · have : ¬ q.itemTypeId = i := by omega
                    have : q.itemTypeId < bigs.length := by omega
                    simp [*]; omega
                  · by_cases c2 : q.itemTypeId = i
                    · have : ¬ i = p.itemTypeId := fun e => c e.symm
                      simp [c2, hi, this]; omega
                    · simp [c1, c2]; omega
              have h2 : 0 < b.items.countP (fun q => decide (q.itemTypeId = i)) :=
                List.countP_pos_iff.mpr ⟨q, hq, by simpa using e⟩
              omega
            rw [h0]; rfl
        rw [hcnt]
        split_ifs
        · rw [List.length_append, List.length_replicate]
          push_cast
          omega
        · omega
      · rw [s4 k hk, hic, inGroups_modify _ _ _ _ _ (by omega), r3 k hk]
        unfold count
        push_cast
        rw [Int.toNat_of_nonneg hp.le]
        omega

/-! ## Committing the groups -/

theorem removeAll_exact (l : List Nat) :
    ∀ {acc acc' : State × List (List (List Companion))}, l.foldlM removeAll acc = .ok acc' →
    l.Nodup → (∀ i ∈ l, i < acc.1.items.length ∧ (acc.1.item i).removed = false) →
    Single acc.1 → acc.2.length = acc.1.items.length → (∀ i ∈ l, acc.2.getD i [] = []) →
    Single acc'.1
      ∧ (∀ i, (acc'.2.getD i []).length ≤ if i ∈ l then 1 else (acc.2.getD i []).length)
      ∧ ∀ next, (∀ i, next.getD i 0 = 0) → ∀ j,
        total j acc'.1 + pending j acc'.1.items.length acc'.2 next
          = total j acc.1 + pending j acc.1.items.length acc.2 next := by
  induction l with
  | nil =>
    intro acc acc' h _ _ hS _ _; cases h
    exact ⟨hS, fun i => by simp, fun _ _ _ => rfl⟩
  | cons i l ih =>
    intro acc acc' h hnd hl hS hlen he0
    obtain ⟨acc1, h1, h2⟩ := foldlM_cons_ok.mp h
    rw [List.nodup_cons] at hnd
    unfold removeAll at h1
    obtain ⟨⟨e, it'⟩, he, h1⟩ := bind_ok.mp h1
    cases h1
    obtain ⟨hi, hr⟩ := hl i List.mem_cons_self
    obtain ⟨q1, cs, rfl, q2⟩ := take_out (i := i) he hr (hS.1 i hi)
    have hset : ∀ x, x ≠ i → (acc.2.set i [cs]).getD x [] = acc.2.getD x [] := by
      intro x hx
      rw [List.getD_eq_getElem?_getD, List.getElem?_set_ne (Ne.symm hx), ← List.getD_eq_getElem?_getD]
    have hself : (acc.2.set i [cs]).getD i [] = [cs] := by
      rw [List.getD_eq_getElem?_getD, List.getElem?_set_self (by rw [hlen]; exact hi)]; rfl
    obtain ⟨a1, a2, a3⟩ := ih h2 hnd.2 (fun x hx => by
        have := hl x (List.mem_cons_of_mem _ hx)
        dsimp only
        rw [length_setItem, item_setItem_ne _ (fun e : i = x => hnd.1 (e ▸ hx))]
        exact this) (hS.set ⟨fun _ => q1, by simp⟩)
      (by dsimp only; rw [List.length_set, length_setItem]; exact hlen)
      (fun x hx => by
        dsimp only
        rw [hset x (fun e => hnd.1 (e ▸ hx))]
        exact he0 x (List.mem_cons_of_mem _ hx))
    refine ⟨a1, fun x => ?_, fun next h0 j => ?_⟩
    · refine (a2 x).trans ?_
      dsimp only
      by_cases c1 : x ∈ l
      · rw [if_pos c1, if_pos (List.mem_cons_of_mem _ c1)]
      · rw [if_neg c1]
        by_cases c2 : x = i
        · subst c2; rw [hself, if_pos List.mem_cons_self]; rfl
        · rw [hset x c2, if_neg (by rw [List.mem_cons]; tauto)]
    · rw [a3 next h0 j]
      dsimp only
      have g : load j i { it' with copies := 0, removed := true } = 0 := load_gone rfl q1
      rw [length_setItem, total_set hi, g, q2]
      unfold pending
      rw [sum_change (i := i) (fun k => ews j k ((acc.2.getD k []).drop (next.getD k 0)))
        (fun k => ews j k (((acc.2.set i [cs]).getD k []).drop (next.getD k 0))) hi
        (fun k hk => by rw [hset k hk]), hself, he0 i List.mem_cons_self, h0]
      simp only [List.drop_zero, ews_single]
      have : ews j i [] = 0 := rfl
      rw [this]; omega

theorem dressGroup_exact {big n : Nat} {cs : List Companion} {prior : List (List (List Companion))} :
    ∀ {g g' : List GroupItem} {next next' : List Nat},
    dressGroup big cs prior next g = .ok (next', g') → next.length = n →
    (∀ p ∈ g, p.itemTypeId < n) →
    next'.length = n ∧ (∀ j, count (groupContents g') j + pending j n prior next'
      = pending j n prior next + (inGroup big g : Int) * ew j big cs)
      ∧ ∀ i, i ≠ big → i < n → next'.getD i 0 = next.getD i 0 + inGroup i g := by
  intro g
  induction g with
  | nil =>
    intro g' next next' h hn _; cases h
    exact ⟨hn, fun j => by simp [groupContents, count, inGroup], fun i _ _ => by simp [inGroup]⟩
  | cons p g ih =>
    intro g' next next' h hn hg
    unfold dressGroup at h
    obtain ⟨⟨next1, p1⟩, h1, h⟩ := bind_ok.mp h
    obtain ⟨⟨next2, g2⟩, h2, h⟩ := bind_ok.mp h
    cases h
    have hp := hg p List.mem_cons_self
    have first : next1.length = n ∧ (∀ j,
        count (place p1.itemTypeId p1.x p1.y p1.rotate p1.companions) j + pending j n prior next1
          = pending j n prior next + (if p.itemTypeId = big then 1 else 0) * ew j big cs)
        ∧ ∀ i, i ≠ big → i < n →
          next1.getD i 0 = next.getD i 0 + if p.itemTypeId = i then 1 else 0 := by
      split_ifs at h1 with c1
      · cases h1
        refine ⟨hn, fun j => ?_, fun i hi _ => ?_⟩
        · dsimp only; rw [count_place, if_pos c1, c1, Int.one_mul]; omega
        · rw [if_neg (by omega)]; rfl
      · dsimp only at h1
        split at h1
        · rename_i x hx
          cases h1
          refine ⟨by rw [List.length_set]; exact hn, fun j => ?_, fun i hi hin => ?_⟩
          · rw [pending_take hp (by rw [hn]; exact hp) hx, count_place, if_neg c1]
            dsimp only
            omega
          · by_cases c : p.itemTypeId = i
            · subst c
              rw [if_pos rfl, List.getD_eq_getElem?_getD, List.getElem?_set_self (by omega)]; rfl
            · rw [if_neg c, List.getD_eq_getElem?_getD, List.getElem?_set_ne c,
                ← List.getD_eq_getElem?_getD]; rfl
        · cases h1
    obtain ⟨f1, f2, f3⟩ := first
    obtain ⟨i1, i2, i3⟩ := ih h2 f1 (fun q hq => hg q (List.mem_cons_of_mem _ hq))
    refine ⟨i1, fun j => ?_, fun i hi hin => ?_⟩
    · have a := f2 j
      have b := i2 j
      have e : count (groupContents (p1 :: g2)) j
          = count (place p1.itemTypeId p1.x p1.y p1.rotate p1.companions) j
            + count (groupContents g2) j := by
        unfold groupContents
        rw [List.flatMap_cons, count_append]
      unfold inGroup at b ⊢
      rw [e, List.countP_cons]
      by_cases c : p.itemTypeId = big
      · rw [if_pos c] at a
        simp only [c, decide_true, if_true]
        push_cast
        rw [Int.add_mul]
        omega
      · rw [if_neg c] at a
        simp only [c, decide_false, Bool.false_eq_true, if_false, Nat.add_zero]
        omega
    · rw [i3 i hi hin, f3 i hi hin]
      unfold inGroup
      rw [List.countP_cons]
      by_cases c : p.itemTypeId = i <;> simp [c]; omega

theorem dressGroups_exact {big n : Nat} {prior : List (List (List Companion))} :
    ∀ {l : List (List GroupItem × List Companion)} {next next' : List Nat}
      {gs : List (List GroupItem)}, dressGroups big prior next l = .ok (next', gs) →
    next.length = n →
    (∀ q ∈ l, (∀ p ∈ q.1, p.itemTypeId < n) ∧ inGroup big q.1 = 1) →
    next'.length = n ∧ (∀ j, (gs.map fun g => count (groupContents g) j).sum
        + pending j n prior next' = pending j n prior next + ews j big (l.map Prod.snd))
      ∧ ∀ i, i ≠ big → i < n →
        next'.getD i 0 = next.getD i 0 + ((l.map Prod.fst).map (inGroup i)).sum := by
  intro l
  induction l with
  | nil =>
    intro next next' gs h hn _; cases h
    exact ⟨hn, fun j => by simp [ews], fun i _ _ => by simp⟩
  | cons q l ih =>
    intro next next' gs h hn hl
    obtain ⟨g, cs⟩ := q
    unfold dressGroups at h
    obtain ⟨⟨next1, g1⟩, h1, h⟩ := bind_ok.mp h
    obtain ⟨⟨next2, gs2⟩, h2, h⟩ := bind_ok.mp h
    cases h
    obtain ⟨l1, l2⟩ := hl _ List.mem_cons_self
    obtain ⟨a1, a2, a3⟩ := dressGroup_exact h1 hn l1
    obtain ⟨b1, b2, b3⟩ := ih h2 a1 (fun q hq => hl q (List.mem_cons_of_mem _ hq))
    refine ⟨b1, fun j => ?_, fun i hi hin => ?_⟩
    · have a := a2 j
      have b := b2 j
      dsimp only at l2
      rw [l2] at a
      unfold ews at b ⊢
      rw [List.map_cons, List.sum_cons, List.map_cons, List.map_cons, List.sum_cons]
      dsimp only
      push_cast at a
      omega
    · rw [b3 i hi hin, a3 i hi hin]
      simp only [List.map_cons, List.sum_cons]
      omega

theorem commitAll_exact {prior : List (List (List Companion))} {n : Nat}
    (l : List (Nat × List (List GroupItem))) :
    ∀ {acc acc' : State × List Nat}, l.foldlM (commitOne prior) acc = .ok acc' →
    (l.map Prod.fst).Nodup → Single acc.1 → acc.1.items.length = n → acc.2.length = n →
    (∀ p ∈ l, p.1 < n ∧ (acc.1.item p.1).removed = false ∧ p.2.length ≤ 1 ∧ ∀ g ∈ p.2,
      (∀ q ∈ g, q.itemTypeId < n) ∧ inGroup p.1 g = 1) →
    Single acc'.1 ∧ acc'.1.items.length = n
      ∧ (∀ j, allUses j acc'.1 + pending j n prior acc'.2
        = allUses j acc.1 + pending j n prior acc.2)
      ∧ ∀ i, i < n → i ∉ l.map Prod.fst →
        acc'.2.getD i 0 = acc.2.getD i 0 + inGroups i (l.map Prod.snd) := by
  induction l with
  | nil =>
    intro acc acc' h _ hS hn _ _; cases h
    exact ⟨hS, hn, fun _ => rfl, fun i _ _ => by simp [inGroups]⟩
  | cons p l ih =>
    intro acc acc' h hnd hS hn hn2 hl
    obtain ⟨acc1, h1, h2⟩ := foldlM_cons_ok.mp h
    obtain ⟨l1, l2, l3, l4⟩ := hl p List.mem_cons_self
    rw [List.map_cons, List.nodup_cons] at hnd
    have first : Single acc1.1 ∧ acc1.1.items.length = n ∧ acc1.2.length = n
        ∧ (∀ x, x ≠ p.1 → acc1.1.item x = acc.1.item x)
        ∧ (∀ j, allUses j acc1.1 + pending j n prior acc1.2
          = allUses j acc.1 + pending j n prior acc.2)
        ∧ ∀ i, i < n → i ≠ p.1 →
          acc1.2.getD i 0 = acc.2.getD i 0 + (p.2.map (inGroup i)).sum := by
      unfold commitOne at h1
      split_ifs at h1 with he
      · cases h1
        have : p.2 = [] := by simpa using he
        exact ⟨hS, hn, hn2, fun _ _ => rfl, fun _ => rfl, fun i _ _ => by rw [this]; simp⟩
      · obtain ⟨⟨e, it'⟩, h3, h1⟩ := bind_ok.mp h1
        obtain ⟨⟨next, gs⟩, h4, h1⟩ := bind_ok.mp h1
        cases h1
        have hone : p.2.length = 1 := by
          rcases hq : p.2 with _ | ⟨a, b⟩
          · rw [hq] at he; simp at he
          · rw [hq] at l3; simp only [List.length_cons] at l3 ⊢; omega
        obtain ⟨a1, a2, a3⟩ := dressGroups_exact h4 hn2 (fun q hq =>
          l4 q.1 (List.of_mem_zip (a := q.1) (b := q.2) hq).1)
        have hel : e.length = p.2.length := (extract_ok h3).1
        rw [List.map_snd_zip (by omega)] at a2
        rw [List.map_fst_zip (by omega)] at a3
        have hOne := hS.1 p.1 (by rw [hn]; exact l1)
        have hc : (acc.1.item p.1).copies = 1 := (hOne.2 l2).1
        have h3' : extract (acc.1.item p.1) (acc.1.item p.1).copies.toNat = .ok (e, it') := by
          rw [hc]; rw [hone] at h3; exact h3
        obtain ⟨q1, cs, rfl, q2⟩ := take_out (i := p.1) h3' l2 hOne
        have hcz : (acc.1.item p.1).copies - p.2.length = 0 := by rw [hc, hone]; rfl
        dsimp only at hcz ⊢
        rw [if_pos hcz]
        set w : WorkItem :=
          { it' with copies := (acc.1.item p.1).copies - p.2.length, removed := true } with hw
        have hload : ∀ j, load j p.1 w = 0 := fun j => load_gone rfl q1
        refine ⟨hS.set ⟨fun _ => q1, by simp [hw]⟩, (length_setItem _ _ _).trans hn, a1,
          fun x hx => item_setItem_ne _ (Ne.symm hx) _, fun j => ?_,
          fun i hi hip => a3 i hip hi⟩
        have b := a2 j
        rw [ews_single] at b
        have e1 : allUses j { (acc.1.setItem p.1 w) with
            groups := (acc.1.setItem p.1 w).groups ++ gs }
            = total j (acc.1.setItem p.1 w) + (dedicatedUses j acc.1
              + (gs.map fun g => count (groupContents g) j).sum) := by
          unfold allUses dedicatedUses
          rw [total_groups]
          dsimp only [State.setItem]
          rw [List.map_append, List.sum_append]
          omega
        rw [e1, total_set (by rw [hn]; exact l1), hload, q2]
        unfold allUses
        omega
    obtain ⟨f1, f2, f3, f4, f5, f6⟩ := first
    obtain ⟨g1, g2, g3, g4⟩ := ih h2 hnd.2 f1 f2 f3 (fun q hq => by
      obtain ⟨m1, m2, m3⟩ := hl q (List.mem_cons_of_mem _ hq)
      refine ⟨m1, ?_, m3⟩
      rw [f4 q.1 (fun e => hnd.1 (e ▸ List.mem_map_of_mem hq))]
      exact m2)
    refine ⟨g1, g2, fun j => (g3 j).trans (f5 j), fun i hi hil => ?_⟩
    rw [List.map_cons, List.mem_cons, not_or] at hil
    rw [g4 i hi hil.2, f6 i hi hil.1]
    unfold inGroups
    simp only [List.map_cons, List.sum_cons]
    omega

end PackingSolver.Rect.Reduction
