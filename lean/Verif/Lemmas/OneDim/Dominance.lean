import Verif.Lemmas.OneDim.Bound

/-!
# Lemmas on the dominance rule of the one-dimensional tree search
-/

namespace PackingSolver.OneDim.Dominance

open PackingSolver.OneDim OneDim.Spec TreeSearchLemmas Scheme PackingLemmas TreeBound

variable {inst : Instance}

theorem binEnd_append (l e : List Nat) (hl : l ≠ []) :
    binEnd inst (l ++ e) = binEnd inst l
      + ((e.map fun i => (inst.itemType i).length).sum
        - (e.map fun i => (inst.itemType i).nestingLength).sum) := by
  unfold binEnd
  rw [List.tail_append_of_ne_nil hl]
  simp only [List.map_append, List.sum_append]
  ring

theorem rate_const {r : Resource} (h : ∀ s ∈ r.itemConsumptions, s.length ≤ 1) (i c : Nat) :
    r.itemConsumption i c = r.itemConsumption i 0 := by
  unfold Resource.itemConsumption
  split_ifs with h1
  · rfl
  have hm : r.itemConsumptions.getD i [] ∈ r.itemConsumptions := by
    rw [List.getD_eq_getElem _ _ (by omega)]; exact List.getElem_mem _
  have hl := h _ hm
  generalize r.itemConsumptions.getD i [] = s at *
  match s, hl with
  | [], _ => simp
  | [a], _ =>
    cases c with
    | zero => rfl
    | succ c => simp

theorem consumption_append {r : Resource} (h : ∀ s ∈ r.itemConsumptions, s.length ≤ 1)
    (l e : List Nat) : consumption inst r (l ++ e) = consumption inst r l + consumption inst r e := by
  unfold consumption
  rw [← Finset.sum_add_distrib]
  refine Finset.sum_congr rfl fun i _ => ?_
  have key : ∀ k, ∑ c ∈ Finset.range k, r.itemConsumption i c = k * r.itemConsumption i 0 := by
    intro k
    rw [Finset.sum_congr rfl fun c _ => rate_const h i c]
    simp
  rw [key, key, key, List.count_append]
  push_cast
  ring

theorem itemConsumption_nonneg {r : Resource} (h : ∀ s ∈ r.itemConsumptions, ∀ q ∈ s, 0 ≤ q)
    (i c : Nat) : 0 ≤ r.itemConsumption i c := by
  unfold Resource.itemConsumption
  split_ifs with h1
  · exact le_rfl
  have hm : r.itemConsumptions.getD i [] ∈ r.itemConsumptions := by
    rw [List.getD_eq_getElem _ _ (by omega)]; exact List.getElem_mem _
  have hs := h _ hm
  generalize r.itemConsumptions.getD i [] = s at *
  dsimp only
  split_ifs with h2 h3
  · exact le_rfl
  · rw [List.getD_eq_getElem _ _ h3]; exact hs _ (List.getElem_mem _)
  · have hne : s ≠ [] := by simpa using h2
    rw [List.getLastD_eq_getLast?, List.getLast?_eq_getLast_of_ne_nil hne]
    exact hs _ (List.getLast_mem hne)

theorem consumption_nonneg {r : Resource} (h : ∀ s ∈ r.itemConsumptions, ∀ q ∈ s, 0 ≤ q)
    (l : List Nat) : 0 ≤ consumption inst r l :=
  Finset.sum_nonneg fun i _ => Finset.sum_nonneg fun c _ => itemConsumption_nonneg h i c

theorem prefix_append_cases {α : Type} {p l e : List α} (h : p <+: l ++ e) :
    p <+: l ∨ ∃ q, q <+: e ∧ p = l ++ q := by
  rcases List.prefix_or_prefix_of_prefix h (List.prefix_append l e) with h1 | ⟨q, rfl⟩
  · exact .inl h1
  · exact .inr ⟨q, (List.prefix_append_right_inj _).mp h, rfl⟩

/-- The last bin after more items. -/
theorem binOk_append (hS : Sound inst) (hL : LengthOnly inst) {t : Nat}
    (ht : t < inst.numberOfBinTypes) {l1 l2 e : List Nat} (hl1 : l1 ≠ []) (hl2 : l2 ≠ [])
    (h1 : BinOk inst t l1) (h2 : BinOk inst t (l2 ++ e))
    (hlen : binEnd inst l1 ≤ binEnd inst l2)
    (hres : ∀ r ∈ (inst.binType t).resources, consumption inst r l1 ≤ consumption inst r l2)
    (hi : ∀ i ∈ l1 ++ e, i < inst.numberOfItemTypes)
    (hn : ((l1 ++ e).length : Int) ≤ inst.numberOfItems) : BinOk inst t (l1 ++ e) := by
  have hb := binType_mem inst ht
  refine ⟨?_, ?_, ?_, ?_, ?_, ?_⟩
  · intro p hp hne
    rcases prefix_append_cases hp with h | ⟨q, hq, rfl⟩
    · exact h1.fits p h hne
    · have := h2.fits (l2 ++ q) ((List.prefix_append_right_inj _).mpr hq) (by simp [hl2])
      rw [binEnd_append _ _ hl1]
      rw [binEnd_append _ _ hl2] at this
      omega
  · intro p _ _
    rw [hL.weight t ht]; trivial
  · intro i hi'
    rcases List.mem_append.mp hi' with h | h
    · exact h1.eligible i h
    · exact h2.eligible i (List.mem_append_right _ h)
  · intro i hi'
    exact hn.trans (hL.stack i (hi i hi'))
  · intro p i q hp
    rw [hL.weightAfter i (hi i (hp.subset (by simp)))]; trivial
  · intro r hr hpen p hp
    obtain ⟨q, hq⟩ := hp
    have h3 := h2.resources r hr hpen (l2 ++ e) (List.prefix_refl _)
    have h4 := hres r hr
    have hrate := hL.rate _ hb r hr
    have h5 := consumption_nonneg (inst := inst) (hS.consumptions _ hb r hr) q
    have h6 : consumption inst r (p ++ q) = consumption inst r (l1 ++ e) := by rw [hq]
    rw [consumption_append hrate] at h3 h6
    rw [consumption_append hrate] at h6
    linarith

theorem length_append (p q : Packing) :
    Spec.length inst (p ++ q) = if ∃ b ∈ q, b.items ≠ [] then binLength inst p + Spec.length inst q
      else Spec.length inst p := by
  induction p with
  | nil =>
    simp only [List.nil_append]
    by_cases h : ∃ b ∈ q, b.items ≠ []
    · rw [if_pos h]; simp [binLength]
    · rw [if_neg h]
      cases q with
      | nil => rfl
      | cons b q =>
        simp only [Spec.length]
        rw [if_neg fun ⟨b', hb', h'⟩ => h ⟨b', by simp [hb'], h'⟩,
          if_neg fun h' => h ⟨b, by simp, h'⟩]
  | cons a p ih =>
    rw [List.cons_append, Spec.length, ih]
    by_cases h : ∃ b ∈ q, b.items ≠ []
    · rw [if_pos h, if_pos h]
      obtain ⟨b, hb, hb'⟩ := h
      rw [if_pos ⟨b, by simp [hb], hb'⟩]
      simp only [binLength, List.map_cons, List.sum_cons]
      ring
    · rw [if_neg h, if_neg h, Spec.length]
      have : (∃ b' ∈ p ++ q, b'.items ≠ []) ↔ ∃ b' ∈ p, b'.items ≠ [] := by
        constructor
        · rintro ⟨b, hb, hb'⟩
          rcases List.mem_append.mp hb with hb | hb
          · exact ⟨b, hb, hb'⟩
          · exact absurd ⟨b, hb, hb'⟩ h
        · rintro ⟨b, hb, hb'⟩
          exact ⟨b, by simp [hb], hb'⟩
      simp only [this]

theorem completion_snoc (p : Packing) (b : PackedBin) (e : List Nat) (r : Packing) :
    completion (p ++ [b]) e r = p ++ ⟨b.binTypeId, b.copies, b.items ++ e⟩ :: r := by
  unfold completion
  rw [List.getLast?_concat]
  simp

/-- Profit without penalties, from the number of copies. -/
theorem profit_copies (hP : NoPenalties inst) {p : Packing} (hp : WellTyped inst p) :
    profit inst p = ∑ i ∈ Finset.range inst.numberOfItemTypes,
      (itemCopies p i : ℚ) * (inst.itemType i).profit := by
  have h1 := items_sum (R := ℚ) (fun i => (inst.itemType i).profit) hp
  rw [← h1]
  unfold profit
  congr 1
  refine List.map_congr_left fun b hb => ?_
  have : penalties inst b.binTypeId b.items = 0 := by
    unfold penalties
    refine List.sum_eq_zero fun x hx => ?_
    obtain ⟨r, hr, rfl⟩ := List.mem_map.mp hx
    rw [if_neg]
    rw [hP _ (binType_mem inst (hp b hb).1) r hr]
    simp
  rw [this, sub_zero]
  rfl

theorem itemCopies_append (p q : Packing) (i : Nat) :
    itemCopies (p ++ q) i = itemCopies p i + itemCopies q i := by
  simp [itemCopies]

theorem binCopies_append (p q : Packing) (t : Nat) :
    binCopies (p ++ q) t = binCopies p t + binCopies q t := by
  simp [binCopies]

theorem itemCopies_cons (b : PackedBin) (q : Packing) (i : Nat) :
    itemCopies (b :: q) i = itemCopies [b] i + itemCopies q i :=
  itemCopies_append [b] q i

theorem binCopies_cons (b : PackedBin) (q : Packing) (i : Nat) :
    binCopies (b :: q) i = binCopies [b] i + binCopies q i :=
  binCopies_append [b] q i

theorem itemCopies_grow (t : Nat) (l e : List Nat) (i : Nat) :
    itemCopies [⟨t, 1, l ++ e⟩] i = itemCopies [⟨t, 1, l⟩] i + itemCopies [⟨t, 1, e⟩] i := by
  simp [itemCopies]

end PackingSolver.OneDim.Dominance
