import Verif.Lemmas.Box.Dff
import Verif.Lemmas.Except

/-!
# The sweep over all combinations

Lemmas: the number of bins computed by the sweep never exceeds the number of bins of a packing of
all items.
-/

namespace PackingSolver.Box.DffLemmas

open Dff _root_.PackingSolver.Box.Spec

variable {inst : Instance}

theorem count_cons (p : PlacedItem) (items : List PlacedItem) (i : Nat) :
    Spec.count (p :: items) i = Spec.count items i + if p.itemTypeId = i then 1 else 0 := by
  unfold Spec.count
  rw [List.countP_cons]
  by_cases h : p.itemTypeId = i <;> simp [h]

theorem count_append (a b : List PlacedItem) (i : Nat) :
    Spec.count (a ++ b) i = Spec.count a i + Spec.count b i := by
  unfold Spec.count
  rw [List.countP_append]
  norm_cast

theorem count_nonneg (a : List PlacedItem) (i : Nat) : 0 ≤ Spec.count a i := by
  unfold Spec.count
  exact Int.natCast_nonneg _

theorem sum_indicator (n : Nat) (f : Nat → Int) (k : Nat) (hk : k < n) :
    ((List.range n).map fun i => (if k = i then 1 else 0) * f i).sum = f k := by
  induction n with
  | zero => omega
  | succ n ih =>
    rw [List.range_succ, List.map_append, List.sum_append]
    by_cases h : k = n
    · subst h
      have h0 : ((List.range k).map fun i => (if k = i then (1 : Int) else 0) * f i).sum = 0 := by
        apply List.sum_eq_zero
        intro x hx
        obtain ⟨i, hi, rfl⟩ := List.mem_map.1 hx
        have := List.mem_range.1 hi
        rw [if_neg (by omega)]
        simp
      rw [h0]
      simp
    · rw [ih (by omega)]
      simp [h]

/-- A sum over placed items, grouped by item type. -/
theorem sum_by_type (items : List PlacedItem) (n : Nat) (f : Nat → Int)
    (h : ∀ p ∈ items, p.itemTypeId < n) :
    (items.map fun p => f p.itemTypeId).sum
      = ((List.range n).map fun i => Spec.count items i * f i).sum := by
  induction items with
  | nil =>
    symm
    apply List.sum_eq_zero
    intro x hx
    obtain ⟨i, _, rfl⟩ := List.mem_map.1 hx
    simp [Spec.count]
  | cons p items ih =>
    rw [List.map_cons, List.sum_cons, ih fun q hq => h q (List.mem_cons_of_mem _ hq)]
    have e : ((List.range n).map fun i => Spec.count (p :: items) i * f i)
        = (List.range n).map fun i => Spec.count items i * f i
          + (if p.itemTypeId = i then 1 else 0) * f i := by
      apply List.map_congr_left
      intro i _
      rw [count_cons]
      ring
    rw [e, List.sum_map_add, sum_indicator n f _ (h p List.mem_cons_self)]
    ring

theorem withinCopies_of_full {bins : List (List PlacedItem)} (hp : FullPacking inst bins)
    {items : List PlacedItem} (hi : items ∈ bins) : WithinCopies inst items := by
  intro i hin
  rw [← hp.all i hin]
  obtain ⟨a, b, rfl⟩ := List.append_of_mem hi
  rw [List.flatten_append, List.flatten_cons, count_append, count_append]
  have := count_nonneg a.flatten i
  have := count_nonneg b.flatten i
  omega

theorem coefficientSum_eq (inst : Instance) (f : Nat → Int) :
    coefficientSum inst ((List.range inst.numberOfItemTypes).map f)
      = ((List.range inst.numberOfItemTypes).map fun i => (inst.itemType i).copies * f i).sum := by
  unfold coefficientSum
  conv_lhs => rw [itemTypes_eq inst]
  rw [List.zipWith_map]
  congr 1
  generalize List.range inst.numberOfItemTypes = l
  induction l with
  | nil => rfl
  | cons a l ih => simp

theorem sum_bins_le (f : PlacedItem → Int) (B : Int) (bins : List (List PlacedItem))
    (h : ∀ items ∈ bins, (items.map f).sum ≤ B) :
    (bins.flatten.map f).sum ≤ bins.length * B := by
  induction bins with
  | nil => simp
  | cons a bins ih =>
    rw [List.flatten_cons, List.map_append, List.sum_append, List.length_cons]
    have h1 := h a List.mem_cons_self
    have h2 := ih fun items hi => h items (List.mem_cons_of_mem _ hi)
    push_cast
    linarith

theorem fullSum_le (h : Positive inst) (hb : Wide (inst.binType 0).box) {t : Triple}
    (ht : GoodTriple inst (inst.binType 0).box t) (f : Families) {bins : List (List PlacedItem)}
    (hp : FullPacking inst bins) :
    coefficientSum inst ((List.range inst.numberOfItemTypes).map
        (icoef inst (inst.binType 0).box t f))
      ≤ bins.length * bcoef inst (inst.binType 0).box t f := by
  rw [coefficientSum_eq]
  have e : ((List.range inst.numberOfItemTypes).map fun i =>
        (inst.itemType i).copies * icoef inst (inst.binType 0).box t f i)
      = (List.range inst.numberOfItemTypes).map fun i =>
        Spec.count bins.flatten i * icoef inst (inst.binType 0).box t f i := by
    apply List.map_congr_left
    intro i hi
    rw [hp.all i (List.mem_range.1 hi)]
  rw [e, ← sum_by_type bins.flatten]
  · apply sum_bins_le
    intro items hi
    exact bin_valid h hb ht f (hp.each items hi) (withinCopies_of_full hp hi)
  · intro p hpm
    obtain ⟨items, hi, hpi⟩ := List.mem_flatten.1 hpm
    exact (hp.each items hi).exist p hpi

theorem foldl_inv {α β : Type} (P : β → Prop) {f : β → α → β} {l : List α} {s : β} (hs : P s)
    (h : ∀ b a, a ∈ l → P b → P (f b a)) : P (l.foldl f s) := by
  induction l generalizing s with
  | nil => exact hs
  | cons a l ih =>
    exact ih (h s a List.mem_cons_self hs) fun b c hc => h b c (List.mem_cons_of_mem _ hc)

theorem mapM_map {α β : Type} (f : α → Except Err β) (g : α → β) (l : List α)
    (h : ∀ a ∈ l, f a = .ok (g a)) : l.mapM f = .ok (l.map g) := by
  induction l with
  | nil => rfl
  | cons a l ih =>
    rw [List.mapM_cons, h a (by simp), ih fun b hb => h b (by simp [hb])]
    rfl

theorem allVolumes_eq (h : Positive inst) {bin : Dims} (hb : Wide bin) {t : Triple}
    (ht : GoodTriple inst bin t) : allFamilies.mapM (volumes inst bin t)
      = .ok (allFamilies.map fun f =>
        (List.range inst.numberOfItemTypes).map (icoef inst bin t f)) :=
  mapM_map _ _ _ fun f _ => volumes_eq h hb ht f

theorem zip_map_mem {α β : Type} {l : List α} {g : α → β} {p : α × β} (hp : p ∈ l.zip (l.map g)) :
    p.1 ∈ l ∧ p.2 = g p.1 := by
  rw [← List.map_id l, List.map_map, List.zip_map'] at hp
  obtain ⟨a, ha, rfl⟩ := List.mem_map.1 hp
  exact ⟨ha, rfl⟩

/-- One iteration ends normally, and keeps a bound that is at most the number of bins of a
packing. -/
theorem binBoundStep_ok (h : Positive inst) (hb : Wide (inst.binType 0).box) {t : Triple}
    (ht : GoodTriple inst (inst.binType 0).box t) (bound : Int) :
    ∃ v, binBoundStep inst (inst.binType 0).box bound t = .ok v ∧ bound ≤ v ∧
      ∀ bins, FullPacking inst bins → bound ≤ bins.length → v ≤ bins.length := by
  obtain ⟨b, hbin, hbv⟩ := fBin_eq h hb ht
  have hval : binBoundStep inst (inst.binType 0).box bound t
      = .ok ((allFamilies.zip (allFamilies.map fun f => (List.range inst.numberOfItemTypes).map
        (icoef inst (inst.binType 0).box t f))).foldl (fun bound p =>
          if b p.1 ≤ 0 then bound
          else max bound ⌈(coefficientSum inst p.2 : ℚ) / (b p.1 : ℚ)⌉) bound) := by
    unfold binBoundStep
    rw [hbin, allVolumes_eq h hb ht]
    rfl
  refine ⟨_, hval, ?_, ?_⟩
  · exact foldl_inv (fun v : Int => bound ≤ v) (le_refl _) (by
      intro v p _ hv
      split_ifs
      · exact hv
      · exact le_max_of_le_left hv)
  · intro bins hp hle
    refine foldl_inv (fun v : Int => v ≤ bins.length) hle ?_
    intro v p hpm hv
    split_ifs with h0
    · exact hv
    obtain ⟨hf, hp2⟩ := zip_map_mem hpm
    refine max_le hv ?_
    rw [Int.ceil_le]
    have hpos : (0 : ℚ) < (b p.1 : ℚ) := by exact_mod_cast not_le.1 h0
    rw [div_le_iff₀ hpos, hp2, hbv p.1 hf]
    exact_mod_cast fullSum_le h hb ht p.1 hp

theorem dffBins_ok (h : Positive inst) (hb : Wide (inst.binType 0).box) :
    ∃ v, dffBins inst = .ok v ∧ 0 ≤ v ∧ ∀ bins, FullPacking inst bins → v ≤ bins.length := by
  obtain ⟨ts, e, hts⟩ := allTriples_ok h hb
  have : ∀ (l : List Triple), (∀ t ∈ l, GoodTriple inst (inst.binType 0).box t) → ∀ a : Int, ∃ v,
      l.foldlM (binBoundStep inst (inst.binType 0).box) a = .ok v ∧ a ≤ v ∧
        ∀ bins, FullPacking inst bins → a ≤ bins.length → v ≤ bins.length := by
    intro l
    induction l with
    | nil => intro _ a; exact ⟨a, rfl, le_refl _, fun _ _ h => h⟩
    | cons t l ih =>
      intro hl a
      obtain ⟨b, hs, hab, hbb⟩ := binBoundStep_ok h hb (hl t List.mem_cons_self) a
      obtain ⟨v, hv, hbv, hvv⟩ := ih (fun c hc => hl c (List.mem_cons_of_mem _ hc)) b
      refine ⟨v, by rw [List.foldlM_cons, hs]; exact hv, hab.trans hbv, ?_⟩
      intro bins hp hle
      exact hvv bins hp (hbb bins hp hle)
  obtain ⟨v, hv, h0, hvv⟩ := this ts hts 0
  refine ⟨v, ?_, h0, fun bins hp => hvv bins hp (by positivity)⟩
  unfold dffBins
  rw [e]
  exact hv

end PackingSolver.Box.DffLemmas
