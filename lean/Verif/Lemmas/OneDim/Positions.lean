import Verif.Lemmas.OneDim.Reach
import Verif.Spec.OneDimPositions

/-! Helper lemmas: positions, end, weight and consumptions of each bin. -/

namespace PackingSolver.OneDim

open OneDim.Spec

/-- The data of a processed bin are those of its items. -/
structure BinExact (inst : Instance) (b : SolutionBin) : Prop where
  starts : ∀ k it, b.items[k]? = some it → it.start = itemStart inst (ids b.items) k
  endPos : b.endPos = binEnd inst (ids b.items)
  weight : b.weight = Spec.weight inst (ids b.items)
  resources : ResourceIdsOk inst → b.resourceConsumption.length
      = (inst.binType b.binTypeId).resources.length
    ∧ ∀ r, r < (inst.binType b.binTypeId).resources.length → b.resourceConsumption.getD r 0
      = consumption inst ((inst.binType b.binTypeId).resources.getD r {}) (ids b.items)

theorem runItems_start {inst : Instance} {b : Nat} {c : Int} {st : ItemLoop}
    (h : Fresh inst b st) (l : List SolutionItem) (k : Nat) (it : SolutionItem)
    (hk : (runItems inst b c st l).itemsDone[k]? = some it) :
    it.start = itemStart inst (ids l) k := by
  induction l using List.reverseRecOn generalizing it with
  | nil => simp [h.done] at hk
  | append_singleton l a ih =>
    have hn := runItems_number (c := c) h l
    have he := runItems_endPos (c := c) h l
    have hd := runItems_done (c := c) h l
    have hlen : (runItems inst b c st l).itemsDone.length = l.length := by
      have := congrArg List.length hd
      simpa [ids] using this
    have hids : ids (l ++ [a]) = ids l ++ [a.itemTypeId] := by simp [ids]
    have hstep : runItems inst b c st (l ++ [a]) = itemStep inst b c (runItems inst b c st l) a := by
      simp [runItems, List.foldl_append]
    rw [hstep] at hk
    simp only [itemStep] at hk
    rcases Nat.lt_trichotomy k l.length with hlt | heq | hgt
    · rw [List.getElem?_append_left (by omega)] at hk
      rw [ih it hk, hids]
      unfold itemStart
      have h1 : (ids l ++ [a.itemTypeId]).take k = (ids l).take k := by
        rw [List.take_append_of_le_length (by simp [ids]; omega)]
      have h2 : (ids l ++ [a.itemTypeId]).getD k 0 = (ids l).getD k 0 := by
        rw [List.getD_append _ _ _ _ (by simpa [ids] using hlt)]
      rw [h1, h2]
    · rw [List.getElem?_append_right (by omega)] at hk
      have h0 : k - (runItems inst b c st l).itemsDone.length = 0 := by omega
      rw [h0] at hk
      simp only [List.getElem?_cons_zero, Option.some.injEq] at hk
      subst hk
      rw [hids, heq]
      unfold itemStart
      have h1 : (ids l ++ [a.itemTypeId]).take l.length = ids l := by
        rw [List.take_append_of_le_length (by simp [ids]), List.take_of_length_le (by simp [ids])]
      have h2 : (ids l ++ [a.itemTypeId]).getD l.length 0 = a.itemTypeId := by
        simp [List.getD_eq_getElem?_getD, ids]
      rw [h1, h2, hn, he]
      by_cases hl : l.length = 0
      · simp [hl]
      · have : ((l.length : Nat) : Int) > 0 := by omega
        simp [hl]
    · rw [List.getElem?_eq_none] at hk
      · cases hk
      · simp [hlen]; omega

theorem newBin_exact {inst : Instance} {s : Solution} {bin : SolutionBin} (hw : bin.weight = 0)
    (hb : bin.binTypeId < inst.numberOfBinTypes) (hl : InTypes inst (ids bin.items)) :
    BinExact inst (newBin inst s bin) := by
  have hF := startLoop_fresh inst s bin hw
  have hd : ids (newBin inst s bin).items = ids bin.items :=
    runItems_done (c := bin.copies) hF bin.items
  refine ⟨?_, ?_, ?_, ?_⟩
  · intro k it hk
    rw [hd]
    exact runItems_start hF bin.items k it hk
  · rw [hd]; exact runItems_endPos hF bin.items
  · rw [hd]; exact runItems_weight hF bin.items
  · intro hR
    refine ⟨runItems_cons_length hF bin.items, fun r hr => ?_⟩
    rw [hd]
    exact runItems_cons hF hb hR bin.items hl r hr

theorem upd_exact {inst : Instance} {s : Solution} {k : Nat}
    (hr : s.inRange inst k = true) (hw : (s.bins.getD k default).weight = 0)
    (j : Nat) (hj : j = k ∨ BinExact inst (s.bins.getD j default)) :
    BinExact inst ((s.updateIndicatorsTotal inst k).bins.getD j default) := by
  simp only [Solution.inRange, Bool.and_eq_true, decide_eq_true_eq, List.all_eq_true] at hr
  rw [upd_bins]
  have hget : (s.bins.set k (newBin inst s (s.bins.getD k default))).getD j default
      = if j = k then newBin inst s (s.bins.getD k default) else s.bins.getD j default := by
    simp only [List.getD_eq_getElem?_getD, List.getElem?_set]
    by_cases h : j = k
    · subst h; simp [hr.1.1]
    · simp [h, Ne.symm h]
  rw [hget]
  split_ifs with h
  · refine newBin_exact hw hr.1.2 ?_
    intro i hi
    obtain ⟨it, hit, rfl⟩ := List.mem_map.mp hi
    exact hr.2 it hit
  · rcases hj with hj | hj
    · exact absurd hj h
    · exact hj

theorem upd_bins_length (inst : Instance) (s : Solution) (k : Nat) :
    (s.updateIndicatorsTotal inst k).bins.length = s.bins.length := by
  rw [upd_bins]; simp

/-- All bins are exact. -/
def AllExact (inst : Instance) (s : Solution) : Prop := ∀ b ∈ s.bins, BinExact inst b

theorem allExact_pushBin {inst : Instance} {s s' : Solution} {bin : SolutionBin}
    (hs : AllExact inst s) (hw : bin.weight = 0) (h : s.pushBin inst bin = .ok s') :
    AllExact inst s' := by
  unfold Solution.pushBin Solution.updateIndicators at h
  split_ifs at h with hr
  cases h
  intro b hb
  obtain ⟨j, hj, rfl⟩ := List.getElem_of_mem hb
  rw [← List.getD_eq_getElem _ default hj]
  have hj' := hj
  rw [upd_bins_length] at hj'
  simp only [List.length_append, List.length_singleton] at hj'
  refine upd_exact hr (by simp [List.getD_eq_getElem?_getD, hw]) j ?_
  by_cases hjs : j = s.bins.length
  · exact .inl hjs
  · right
    have hlt : j < s.bins.length := by omega
    change BinExact inst ((s.bins ++ [bin]).getD j default)
    rw [List.getD_append _ _ _ _ hlt, List.getD_eq_getElem _ _ hlt]
    exact hs _ (List.getElem_mem hlt)

theorem allExact_appendBin {inst : Instance} {s s' other : Solution} {pos : Nat} {copies : Int}
    {mb mi : List Nat} (hs : AllExact inst s)
    (h : s.appendBin inst other pos copies mb mi = .ok s') : AllExact inst s' := by
  unfold Solution.appendBin at h
  cases hb : other.bins[pos]? with
  | none => rw [hb] at h; simp at h
  | some bin =>
    rw [hb] at h
    simp only at h
    split at h
    · simp at h
    · split at h
      · exact allExact_pushBin hs rfl h
      · simp at h

theorem allExact_build {inst : Instance} {ops : List BuilderOp} {s : Solution}
    (h : SolutionBuilder.runOps inst ops = .ok s) : AllExact inst s := by
  unfold SolutionBuilder.runOps at h
  obtain ⟨sb, h1, h2⟩ := bind_ok.mp h
  have hr := raw_ops ops sb h1
  unfold SolutionBuilder.build at h2
  have := foldlM_range_inv (P := fun k (s : Solution) => s.bins.length = sb.sol.bins.length
      ∧ (∀ j, j < k → BinExact inst (s.bins.getD j default))
      ∧ ∀ j, k ≤ j → (s.bins.getD j default).weight = 0) ?_ ?_ h2
  · intro b hb
    obtain ⟨j, hj, rfl⟩ := List.getElem_of_mem hb
    rw [← List.getD_eq_getElem _ default hj]
    exact this.2.1 j (by omega)
  · refine ⟨rfl, by intro j hj; omega, fun j _ => ?_⟩
    by_cases hj : j < sb.sol.bins.length
    · rw [List.getD_eq_getElem _ _ hj]; exact hr.weight _ (List.getElem_mem hj)
    · rw [List.getD_eq_default _ _ (by omega)]; rfl
  · intro k a b hk ⟨hl, hex, hw⟩ hstep
    unfold Solution.updateIndicators at hstep
    split_ifs at hstep with hr'
    cases hstep
    refine ⟨by rw [upd_bins_length, hl], fun j hj => ?_, fun j hj => ?_⟩
    · refine upd_exact hr' (hw k (le_refl _)) j ?_
      by_cases hjk : j = k
      · exact .inl hjk
      · exact .inr (hex j (by omega))
    · rw [upd_bins]
      have : (a.bins.set k (newBin inst a (a.bins.getD k default))).getD j default
          = a.bins.getD j default := by
        simp only [List.getD_eq_getElem?_getD, List.getElem?_set]
        rw [if_neg (by omega)]
      rw [this]
      exact hw j (by omega)

theorem Spec.Reachable.exact {inst : Instance} {s : Solution} (h : Reachable inst s) :
    AllExact inst s := by
  induction h with
  | init => intro b hb; simp [Solution.init] at hb
  | built ops s hc h => exact allExact_build h
  | appendBin s s' other pos copies mb mi _ hc h ih => exact allExact_appendBin ih h
  | appendBins s s' other mb mi _ hc h ih =>
    exact foldlM_inv (P := AllExact inst) ih (fun x a b _ ha hb => allExact_appendBin ha hb) h
  | appendEmptyBin s s' t copies _ hc h ih => exact allExact_pushBin ih rfl h

/-- Two processed bins with the same items list them at the same positions. -/
theorem BinExact.items_eq {inst : Instance} {b b' : SolutionBin} (h : BinExact inst b)
    (h' : BinExact inst b') (hi : ids b.items = ids b'.items) : b.items = b'.items := by
  have hl : b.items.length = b'.items.length := by
    have := congrArg List.length hi
    simpa [ids] using this
  apply List.ext_getElem hl
  intro k h1 h2
  have e1 := h.starts k _ (List.getElem?_eq_getElem h1)
  have e2 := h'.starts k _ (List.getElem?_eq_getElem h2)
  have e3 : (ids b.items)[k]'(by simpa [ids] using h1) = (ids b'.items)[k]'(by simpa [ids] using h2) := by
    simp only [hi]
  simp only [ids, List.getElem_map] at e3
  rw [hi] at e1
  have : b.items[k].start = b'.items[k].start := by rw [e1, e2]
  cases hx : b.items[k]
  cases hy : b'.items[k]
  rw [hx, hy] at e3 this
  simp_all

end PackingSolver.OneDim
