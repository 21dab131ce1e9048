import Verif.Spec.BoxTree
import Mathlib.Algebra.BigOperators.Group.Finset.Basic
import Mathlib.Algebra.BigOperators.Group.Finset.Sigma
import Mathlib.Algebra.BigOperators.Ring.Finset
import Mathlib.Algebra.Order.BigOperators.Group.Finset
import Mathlib.Data.Int.Interval
import Mathlib.Tactic.Ring

/-! Helper lemmas: the uncovered items tile the face of a bin. -/

namespace PackingSolver.Box.TreeSearch

/-- The cell `[y, y + 1) × [z, z + 1)` lies in a rectangle. -/
def InRect (ys ye zs ze : Int) (c : Int × Int) : Prop :=
  ys ≤ c.1 ∧ c.1 < ye ∧ zs ≤ c.2 ∧ c.2 < ze

instance (ys ye zs ze : Int) (c : Int × Int) : Decidable (InRect ys ye zs ze c) := by
  unfold InRect; infer_instance

/-- The cell lies in the rectangle of an uncovered item. -/
def Covers (u : UncoveredItem) (c : Int × Int) : Prop := InRect u.ys u.ye u.zs u.ze c

instance (u : UncoveredItem) (c : Int × Int) : Decidable (Covers u c) := by
  unfold Covers; infer_instance

/-- Sum of a quantity over the uncovered items of a cell. -/
def over (g : UncoveredItem → Int) (us : List UncoveredItem) (c : Int × Int) : Int :=
  (us.map fun u => if Covers u c then g u else 0).sum

theorem over_nil (g : UncoveredItem → Int) (c : Int × Int) : over g [] c = 0 := rfl

theorem over_cons (g : UncoveredItem → Int) (u : UncoveredItem) (us : List UncoveredItem)
    (c : Int × Int) : over g (u :: us) c = (if Covers u c then g u else 0) + over g us c := rfl

theorem over_append (g : UncoveredItem → Int) (us vs : List UncoveredItem) (c : Int × Int) :
    over g (us ++ vs) c = over g us c + over g vs c := by
  simp [over]

theorem over_congr {g : UncoveredItem → Int} {f : UncoveredItem → UncoveredItem}
    (hf : ∀ u, (f u).ys = u.ys ∧ (f u).ye = u.ye ∧ (f u).zs = u.zs ∧ (f u).ze = u.ze)
    (us : List UncoveredItem) (c : Int × Int) :
    over g (us.map f) c = over (fun u => g (f u)) us c := by
  unfold over
  rw [List.map_map]
  congr 1
  apply List.map_congr_left
  intro u _
  have h := hf u
  have : Covers (f u) c ↔ Covers u c := by unfold Covers; rw [h.1, h.2.1, h.2.2.1, h.2.2.2]
  simp only [Function.comp_apply, this]

/-! ### One uncovered item -/

/-- The pieces of an uncovered item. -/
theorem mem_update {u v : UncoveredItem} {ys ye zs ze : Int}
    (h : v ∈ updateUncoveredItem u ys ye zs ze) (hy : ys < ye)
    (hu : u.ys < u.ye ∧ u.zs < u.ze) :
    v.x = u.x ∧ v.xDominance = u.xDominance
    ∧ u.ys ≤ v.ys ∧ v.ys < v.ye ∧ v.ye ≤ u.ye ∧ u.zs ≤ v.zs ∧ v.zs < v.ze ∧ v.ze ≤ u.ze := by
  unfold updateUncoveredItem at h
  by_cases h0 : ys ≥ u.ye ∨ ye ≤ u.ys ∨ zs ≥ u.ze ∨ ze ≤ u.zs
  · rw [if_pos h0, List.mem_singleton] at h
    subst h
    exact ⟨rfl, rfl, le_refl _, hu.1, le_refl _, le_refl _, hu.2, le_refl _⟩
  · rw [if_neg h0] at h
    push Not at h0
    simp only [List.mem_append] at h
    rcases h with ((h | h) | h) | h
    all_goals
      split_ifs at h <;> simp only [List.mem_singleton, List.not_mem_nil] at h
      all_goals
        subst h
        dsimp only
        refine ⟨rfl, rfl, ?_, ?_, ?_, ?_, ?_, ?_⟩ <;> omega

/-- A cell of an uncovered item lies in exactly one of its pieces, unless it is covered by the new
one. -/
theorem over_update (g : UncoveredItem → Int)
    (hg : ∀ u v : UncoveredItem, v.x = u.x → v.xDominance = u.xDominance → g v = g u)
    (u : UncoveredItem) (ys ye zs ze : Int) (hy : ys < ye) (hz : zs < ze) (c : Int × Int) :
    over g (updateUncoveredItem u ys ye zs ze) c
      = if InRect ys ye zs ze c then 0 else if Covers u c then g u else 0 := by
  obtain ⟨y, z⟩ := c
  unfold updateUncoveredItem
  by_cases h0 : ys ≥ u.ye ∨ ye ≤ u.ys ∨ zs ≥ u.ze ∨ ze ≤ u.zs
  · rw [if_pos h0, over_cons, over_nil, add_zero]
    unfold Covers InRect
    dsimp only
    split_ifs <;> first | rfl | omega
  · rw [if_neg h0]
    push Not at h0
    rw [over_append, over_append, over_append]
    have e1 : over g (if ys > u.ys then [{ u with ye := ys }] else []) (y, z)
        = if u.ys ≤ y ∧ y < ys ∧ u.zs ≤ z ∧ z < u.ze then g u else 0 := by
      split_ifs with h1 h2 h2
      · rw [over_cons, over_nil, add_zero, if_pos (by unfold Covers InRect; dsimp only; omega)]
        exact hg _ _ rfl rfl
      · rw [over_cons, over_nil, add_zero, if_neg (by unfold Covers InRect; dsimp only; omega)]
      · omega
      · rfl
    have e4 : over g (if ye < u.ye then [{ u with ys := ye }] else []) (y, z)
        = if ye ≤ y ∧ y < u.ye ∧ u.zs ≤ z ∧ z < u.ze then g u else 0 := by
      split_ifs with h1 h2 h2
      · rw [over_cons, over_nil, add_zero, if_pos (by unfold Covers InRect; dsimp only; omega)]
        exact hg _ _ rfl rfl
      · rw [over_cons, over_nil, add_zero, if_neg (by unfold Covers InRect; dsimp only; omega)]
      · omega
      · rfl
    have e2 : over g (if zs > u.zs then [({ u with
          ys := if ys > u.ys then ys else u.ys, ye := if ye < u.ye then ye else u.ye, ze := zs }
            : UncoveredItem)] else []) (y, z)
        = if (ys ≤ y ∧ u.ys ≤ y) ∧ (y < ye ∧ y < u.ye) ∧ u.zs ≤ z ∧ z < zs then g u else 0 := by
      by_cases h1 : zs > u.zs
      · rw [if_pos h1, over_cons, over_nil, add_zero]
        by_cases h2 : (ys ≤ y ∧ u.ys ≤ y) ∧ (y < ye ∧ y < u.ye) ∧ u.zs ≤ z ∧ z < zs
        · rw [if_pos h2, if_pos (by unfold Covers InRect; dsimp only; split_ifs <;> omega)]
          exact hg _ _ rfl rfl
        · rw [if_neg h2, if_neg (by unfold Covers InRect; dsimp only; split_ifs <;> omega)]
      · rw [if_neg h1, if_neg (by omega), over_nil]
    have e3 : over g (if ze < u.ze then [({ u with
          ys := if ys > u.ys then ys else u.ys, ye := if ye < u.ye then ye else u.ye, zs := ze }
            : UncoveredItem)] else []) (y, z)
        = if (ys ≤ y ∧ u.ys ≤ y) ∧ (y < ye ∧ y < u.ye) ∧ ze ≤ z ∧ z < u.ze then g u else 0 := by
      by_cases h1 : ze < u.ze
      · rw [if_pos h1, over_cons, over_nil, add_zero]
        by_cases h2 : (ys ≤ y ∧ u.ys ≤ y) ∧ (y < ye ∧ y < u.ye) ∧ ze ≤ z ∧ z < u.ze
        · rw [if_pos h2, if_pos (by unfold Covers InRect; dsimp only; split_ifs <;> omega)]
          exact hg _ _ rfl rfl
        · rw [if_neg h2, if_neg (by unfold Covers InRect; dsimp only; split_ifs <;> omega)]
      · rw [if_neg h1, if_neg (by omega), over_nil]
    dsimp only at e2 e3 ⊢
    rw [e1, e2, e3, e4]
    unfold Covers InRect
    dsimp only
    clear e1 e2 e3 e4 hg
    generalize g u = k
    split_ifs <;> omega

theorem over_flatMap_update (g : UncoveredItem → Int)
    (hg : ∀ u v : UncoveredItem, v.x = u.x → v.xDominance = u.xDominance → g v = g u)
    (us : List UncoveredItem) (ys ye zs ze : Int) (hy : ys < ye) (hz : zs < ze) (c : Int × Int) :
    over g (us.flatMap fun u => updateUncoveredItem u ys ye zs ze) c
      = if InRect ys ye zs ze c then 0 else over g us c := by
  induction us with
  | nil => simp [over_nil]
  | cons u us ih =>
    rw [List.flatMap_cons, over_append, ih, over_update g hg u ys ye zs ze hy hz, over_cons]
    split_ifs <;> omega

/-! ### Faces -/

/-- The uncovered items tile the face `[0, Y) × [0, Z)`. -/
structure Tiles (us : List UncoveredItem) (Y Z : Int) : Prop where
  mem : ∀ u ∈ us, 0 ≤ u.ys ∧ u.ys < u.ye ∧ u.ye ≤ Y ∧ 0 ≤ u.zs ∧ u.zs < u.ze ∧ u.ze ≤ Z
  once : ∀ c, InRect 0 Y 0 Z c → over (fun _ => 1) us c = 1

theorem exists_of_over {us : List UncoveredItem} {c : Int × Int}
    (h : over (fun _ => 1) us c ≠ 0) : ∃ u ∈ us, Covers u c := by
  induction us with
  | nil => exact absurd rfl h
  | cons u us ih =>
    by_cases hc : Covers u c
    · exact ⟨u, by simp, hc⟩
    · rw [over_cons, if_neg hc, zero_add] at h
      obtain ⟨v, hv, h⟩ := ih h
      exact ⟨v, List.mem_cons_of_mem _ hv, h⟩

theorem Tiles.exists {us : List UncoveredItem} {Y Z : Int} (h : Tiles us Y Z) {c : Int × Int}
    (hc : InRect 0 Y 0 Z c) : ∃ u ∈ us, Covers u c :=
  exists_of_over (by rw [h.once c hc]; decide)

theorem over_nonneg {us : List UncoveredItem} {g : UncoveredItem → Int} (hg : ∀ u ∈ us, 0 ≤ g u)
    (c : Int × Int) : 0 ≤ over g us c := by
  unfold over
  apply List.sum_nonneg
  rw [List.forall_mem_map]
  intro u hu
  split_ifs
  · exact hg u hu
  · exact le_refl _

/-- In a cell that is covered once, the sum is the value of the uncovered item. -/
theorem over_eq_of_covers {us : List UncoveredItem} {c : Int × Int}
    (h1 : over (fun _ => 1) us c = 1) (g : UncoveredItem → Int) {u : UncoveredItem} (hu : u ∈ us)
    (hc : Covers u c) : over g us c = g u := by
  induction us with
  | nil => simp at hu
  | cons v us ih =>
    rw [over_cons] at h1 ⊢
    by_cases hv : Covers v c
    · rw [if_pos hv] at h1 ⊢
      have hz : over (fun _ => 1) us c = 0 := by omega
      have hno : ∀ w ∈ us, ¬ Covers w c := by
        intro w hw hwc
        have : ∀ l : List UncoveredItem, w ∈ l → 0 < over (fun _ => 1) l c := by
          intro l
          induction l with
          | nil => simp
          | cons x l ihl =>
            intro hx
            rw [over_cons]
            rcases List.mem_cons.mp hx with rfl | hx
            · rw [if_pos hwc]
              have := over_nonneg (us := l) (g := fun _ => 1) (fun _ _ => by decide) c
              omega
            · have := ihl hx
              split_ifs <;> omega
        have := this us hw
        omega
      have hg0 : over g us c = 0 := by
        unfold over
        apply List.sum_eq_zero
        rw [List.forall_mem_map]
        intro w hw
        rw [if_neg (hno w hw)]
      rw [hg0, add_zero]
      rcases List.mem_cons.mp hu with rfl | hu
      · rfl
      · exact absurd hc (hno u hu)
    · rw [if_neg hv, zero_add] at h1 ⊢
      rcases List.mem_cons.mp hu with rfl | hu
      · exact absurd hc hv
      · exact ih h1 hu

theorem tiles_whole {Y Z : Int} (hY : 0 < Y) (hZ : 0 < Z) : Tiles [⟨0, 0, 0, Y, 0, Z⟩] Y Z := by
  refine ⟨?_, ?_⟩
  · intro u hu
    rw [List.mem_singleton.mp hu]
    exact ⟨le_refl _, hY, le_refl _, le_refl _, hZ, le_refl _⟩
  · intro c hc
    rw [over_cons, over_nil]
    change (if InRect 0 Y 0 Z c then _ else _) + 0 = (1 : Int)
    rw [if_pos hc]
    rfl

/-- The face after an insertion. -/
theorem tiles_child {us : List UncoveredItem} {Y Z xe ys ye zs ze : Int} (h : Tiles us Y Z)
    (hy0 : 0 ≤ ys) (hy : ys < ye) (hyY : ye ≤ Y) (hz0 : 0 ≤ zs) (hz : zs < ze) (hzZ : ze ≤ Z) :
    Tiles (childUncovered us xe ys ye zs ze) Y Z := by
  refine ⟨?_, ?_⟩
  · intro v hv
    unfold childUncovered at hv
    rcases List.mem_append.mp hv with hv | hv
    · obtain ⟨u, hu, hv⟩ := List.mem_flatMap.mp hv
      have hm := h.mem u hu
      have := mem_update hv hy ⟨hm.2.1, hm.2.2.2.2.1⟩
      omega
    · rw [List.mem_singleton.mp hv]
      exact ⟨hy0, hy, hyY, hz0, hz, hzZ⟩
  · intro c hc
    unfold childUncovered
    rw [over_append, over_flatMap_update _ (fun _ _ _ _ => rfl) _ _ _ _ _ hy hz, over_cons, over_nil,
      h.once c hc, add_zero]
    have e : Covers ⟨xe, xe, ys, ye, zs, ze⟩ c ↔ InRect ys ye zs ze c := Iff.rfl
    by_cases hr : InRect ys ye zs ze c
    · rw [if_pos hr, if_pos (e.mpr hr)]; rfl
    · rw [if_neg hr, if_neg (mt e.mp hr)]; rfl

/-- What is uncovered in a cell after an insertion. -/
theorem over_child (g : UncoveredItem → Int)
    (hg : ∀ u v : UncoveredItem, v.x = u.x → v.xDominance = u.xDominance → g v = g u)
    {us : List UncoveredItem} {xe ys ye zs ze : Int} (hy : ys < ye) (hz : zs < ze) (c : Int × Int) :
    over g (childUncovered us xe ys ye zs ze) c
      = if InRect ys ye zs ze c then g ⟨xe, xe, ys, ye, zs, ze⟩ else over g us c := by
  unfold childUncovered
  rw [over_append, over_flatMap_update g hg _ _ _ _ _ hy hz, over_cons, over_nil, add_zero]
  have e : Covers ⟨xe, xe, ys, ye, zs, ze⟩ c ↔ InRect ys ye zs ze c := Iff.rfl
  by_cases hr : InRect ys ye zs ze c
  · rw [if_pos hr, if_pos hr, if_pos (e.mpr hr), zero_add]
  · rw [if_neg hr, if_neg hr, if_neg (mt e.mp hr), add_zero]

/-- The uncovered items after an insertion: the new one, or pieces of old ones. -/
theorem mem_child {us : List UncoveredItem} {v : UncoveredItem} {xe ys ye zs ze : Int}
    (h : v ∈ childUncovered us xe ys ye zs ze) (hy : ys < ye)
    (hu : ∀ u ∈ us, u.ys < u.ye ∧ u.zs < u.ze) :
    v = ⟨xe, xe, ys, ye, zs, ze⟩ ∨ ∃ u ∈ us, v.x = u.x ∧ v.xDominance = u.xDominance
      ∧ u.ys ≤ v.ys ∧ v.ye ≤ u.ye ∧ u.zs ≤ v.zs ∧ v.ze ≤ u.ze := by
  unfold childUncovered at h
  rcases List.mem_append.mp h with h | h
  · obtain ⟨u, hu', h⟩ := List.mem_flatMap.mp h
    have := mem_update h hy (hu u hu')
    exact .inr ⟨u, hu', this.1, this.2.1, this.2.2.1, this.2.2.2.2.1, this.2.2.2.2.2.1,
      this.2.2.2.2.2.2.2⟩
  · exact .inl (List.mem_singleton.mp h)

/-! ### Raising the positions used for dominance -/

/-- What the update of `x_dominance` keeps. -/
def shape (u : UncoveredItem) : UncoveredItem := { u with xDominance := 0 }

theorem raiseIf_shape (b : Bool) (f : UncoveredItem → Bool) (x : Int) (us : List UncoveredItem) :
    (raiseIf b f x us).map shape = us.map shape := by
  unfold raiseIf
  split_ifs
  · rw [List.map_map]
    apply List.map_congr_left
    intro u _
    simp only [Function.comp_apply]
    split_ifs <;> rfl
  · rfl

theorem updateDominance_shape (us : List UncoveredItem) (xe ys ye zs ze yi zi a b : Int) :
    (updateDominance us xe ys ye zs ze yi zi a b).map shape = us.map shape := by
  unfold updateDominance
  dsimp only
  rw [raiseIf_shape, raiseIf_shape, raiseIf_shape, raiseIf_shape]

theorem mem_shape {us vs : List UncoveredItem} (h : vs.map shape = us.map shape) {v : UncoveredItem}
    (hv : v ∈ vs) : ∃ u ∈ us, v.x = u.x ∧ v.ys = u.ys ∧ v.ye = u.ye ∧ v.zs = u.zs ∧ v.ze = u.ze := by
  have : shape v ∈ us.map shape := by rw [← h]; exact List.mem_map_of_mem hv
  obtain ⟨u, hu, e⟩ := List.mem_map.mp this
  unfold shape at e
  simp only [UncoveredItem.mk.injEq] at e
  exact ⟨u, hu, e.1.symm, e.2.2.1.symm, e.2.2.2.1.symm, e.2.2.2.2.1.symm, e.2.2.2.2.2.symm⟩

theorem over_shape {us vs : List UncoveredItem} (h : vs.map shape = us.map shape)
    (g : UncoveredItem → Int) (hg : ∀ u, g (shape u) = g u) (c : Int × Int) :
    over g vs c = over g us c := by
  have key : ∀ l : List UncoveredItem, over g (l.map shape) c = over g l c := by
    intro l
    rw [over_congr (f := shape) (fun u => ⟨rfl, rfl, rfl, rfl⟩)]
    unfold over
    congr 1
    apply List.map_congr_left
    intro u _
    dsimp only
    rw [hg]
  rw [← key vs, ← key us, h]

theorem Tiles.shape {us vs : List UncoveredItem} {Y Z : Int} (ht : Tiles us Y Z)
    (h : vs.map shape = us.map shape) : Tiles vs Y Z := by
  refine ⟨?_, ?_⟩
  · intro v hv
    obtain ⟨u, hu, -, e1, e2, e3, e4⟩ := mem_shape h hv
    rw [e1, e2, e3, e4]
    exact ht.mem u hu
  · intro c hc
    rw [over_shape h _ (fun _ => rfl)]
    exact ht.once c hc

/-! ### Volumes -/

/-- The cells of a face. -/
def face (Y Z : Int) : Finset (Int × Int) := Finset.Ico 0 Y ×ˢ Finset.Ico 0 Z

theorem mem_face {Y Z : Int} {c : Int × Int} : c ∈ face Y Z ↔ InRect 0 Y 0 Z c := by
  unfold face InRect
  rw [Finset.mem_product, Finset.mem_Ico, Finset.mem_Ico]
  tauto

theorem sum_rect {Y Z ys ye zs ze : Int} (hy0 : 0 ≤ ys) (hy : ys ≤ ye) (hyY : ye ≤ Y) (hz0 : 0 ≤ zs)
    (hz : zs ≤ ze) (hzZ : ze ≤ Z) (k : Int) :
    ∑ c ∈ face Y Z, (if InRect ys ye zs ze c then k else 0) = k * ((ye - ys) * (ze - zs)) := by
  rw [← Finset.sum_filter]
  have e : (face Y Z).filter (InRect ys ye zs ze) = Finset.Ico ys ye ×ˢ Finset.Ico zs ze := by
    ext c
    rw [Finset.mem_filter, mem_face, Finset.mem_product, Finset.mem_Ico, Finset.mem_Ico]
    unfold InRect
    omega
  rw [e, Finset.sum_const, Finset.card_product, Int.card_Ico, Int.card_Ico, nsmul_eq_mul]
  push_cast
  rw [Int.toNat_of_nonneg (by omega), Int.toNat_of_nonneg (by omega)]
  ring

theorem sum_over {us : List UncoveredItem} {Y Z : Int}
    (h : ∀ u ∈ us, 0 ≤ u.ys ∧ u.ys < u.ye ∧ u.ye ≤ Y ∧ 0 ≤ u.zs ∧ u.zs < u.ze ∧ u.ze ≤ Z)
    (g : UncoveredItem → Int) :
    ∑ c ∈ face Y Z, over g us c = (us.map fun u => g u * u.area).sum := by
  induction us with
  | nil => simp [over_nil]
  | cons u us ih =>
    have e : ∀ c, over g (u :: us) c = (if InRect u.ys u.ye u.zs u.ze c then g u else 0) + over g us c :=
      fun c => over_cons g u us c
    simp only [e]
    rw [Finset.sum_add_distrib, ih (fun v hv => h v (List.mem_cons_of_mem _ hv)), List.map_cons,
      List.sum_cons]
    have hu := h u (by simp)
    rw [sum_rect hu.1 (le_of_lt hu.2.1) hu.2.2.1 hu.2.2.2.1 (le_of_lt hu.2.2.2.2.1) hu.2.2.2.2.2]
    rfl

theorem currentVolume_eq (previous : Int) (us : List UncoveredItem) :
    currentVolume previous us = previous + (us.map fun u => u.xDominance * u.area).sum := by
  unfold currentVolume
  induction us generalizing previous with
  | nil => simp
  | cons u us ih => rw [List.foldl_cons, ih, List.map_cons, List.sum_cons, add_assoc]

end PackingSolver.Box.TreeSearch
