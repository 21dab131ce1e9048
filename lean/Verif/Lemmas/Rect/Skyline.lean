import Verif.Model.Rect.TreeSearch
import Mathlib.Algebra.BigOperators.Group.List.Basic
import Mathlib.Tactic.Linarith
import Mathlib.Tactic.Ring

/-! Helper lemmas: the skyline kept by the rectangle branching scheme. -/

namespace PackingSolver.Rect.TreeSearch

/-- The uncovered items cover the rows from `a` to `b` one after the other. -/
def Tiles : Int → List UncoveredItem → Int → Prop
  | a, [], b => a = b
  | a, u :: us, b => u.ys = a ∧ u.ys < u.ye ∧ Tiles u.ye us b

/-- Rows `[ys, ye)` meet the rows of an uncovered item. -/
def UncoveredItem.Meets (u : UncoveredItem) (ys ye : Int) : Prop := ¬ (u.ye ≤ ys ∨ u.ys ≥ ye)

/-- Area left of the skyline. -/
def skyArea (us : List UncoveredItem) : Int := (us.map fun u => u.xe * (u.ye - u.ys)).sum

/-- Part of the skyline below `y`. -/
def below (us : List UncoveredItem) (y : Int) : List UncoveredItem :=
  us.filterMap fun u => if u.ye ≤ y then some u else if u.ys < y then some { u with ye := y } else none

/-- Part of the skyline above `y`. -/
def above (us : List UncoveredItem) (y : Int) : List UncoveredItem :=
  us.filterMap fun u => if u.ys ≥ y then some u else if u.ye > y then some { u with ys := y } else none

theorem Tiles.le {us : List UncoveredItem} : ∀ {a b : Int}, Tiles a us b → a ≤ b := by
  induction us with
  | nil => intro a b h; exact le_of_eq h
  | cons u us ih => intro a b h; have := ih h.2.2; have := h.1; have := h.2.1; omega

theorem Tiles.mem {us : List UncoveredItem} : ∀ {a b : Int}, Tiles a us b → ∀ u ∈ us,
    a ≤ u.ys ∧ u.ys < u.ye ∧ u.ye ≤ b := by
  induction us with
  | nil => intro a b h u hu; simp at hu
  | cons v us ih =>
    intro a b h u hu
    have h1 := h.2.2.le
    rcases List.mem_cons.mp hu with rfl | hu
    · exact ⟨h.1 ▸ le_refl _, h.2.1, h1⟩
    · have := ih h.2.2 u hu
      have := h.1; have := h.2.1
      omega

theorem Tiles.append {us vs : List UncoveredItem} {b c : Int} : ∀ {a : Int}, Tiles a us b →
    Tiles b vs c → Tiles a (us ++ vs) c := by
  induction us with
  | nil => intro a h h'; cases h; exact h'
  | cons u us ih => intro a h h'; exact ⟨h.1, h.2.1, ih h.2.2 h'⟩

theorem Tiles.lookup {us : List UncoveredItem} {y : Int} : ∀ {a b : Int}, Tiles a us b → a ≤ y → y < b →
    ∃ u ∈ us, u.ys ≤ y ∧ y < u.ye := by
  induction us with
  | nil => intro a b h h1 h2; cases h; omega
  | cons u us ih =>
    intro a b h h1 h2
    by_cases hy : y < u.ye
    · exact ⟨u, List.mem_cons_self, h.1 ▸ h1, hy⟩
    · obtain ⟨v, hv, hv'⟩ := ih h.2.2 (not_lt.mp hy) h2
      exact ⟨v, List.mem_cons_of_mem _ hv, hv'⟩

theorem mem_below {us : List UncoveredItem} {y : Int} {v : UncoveredItem} (h : v ∈ below us y) :
    ∃ u ∈ us, v.itemTypeId = u.itemTypeId ∧ v.xs = u.xs ∧ v.xe = u.xe ∧ v.ys = u.ys ∧ v.ye ≤ u.ye
      ∧ v.ye ≤ y := by
  unfold below at h
  obtain ⟨u, hu, he⟩ := List.mem_filterMap.mp h
  refine ⟨u, hu, ?_⟩
  split_ifs at he with h1 h2
  · cases he; exact ⟨rfl, rfl, rfl, rfl, le_refl _, h1⟩
  · cases he
    exact ⟨rfl, rfl, rfl, rfl, by dsimp only; omega, le_refl _⟩

theorem mem_above {us : List UncoveredItem} {y : Int} {v : UncoveredItem} (h : v ∈ above us y) :
    ∃ u ∈ us, v.itemTypeId = u.itemTypeId ∧ v.xs = u.xs ∧ v.xe = u.xe ∧ v.ye = u.ye ∧ u.ys ≤ v.ys
      ∧ y ≤ v.ys := by
  unfold above at h
  obtain ⟨u, hu, he⟩ := List.mem_filterMap.mp h
  refine ⟨u, hu, ?_⟩
  split_ifs at he with h1 h2
  · cases he; exact ⟨rfl, rfl, rfl, rfl, le_refl _, h1⟩
  · cases he
    exact ⟨rfl, rfl, rfl, rfl, by dsimp only; omega, le_refl _⟩

theorem below_eq_nil {us : List UncoveredItem} {y a b : Int} (h : Tiles a us b) (hy : y ≤ a) :
    below us y = [] := by
  unfold below
  rw [List.filterMap_eq_nil_iff]
  intro u hu
  have := h.mem u hu
  rw [if_neg (by omega), if_neg (by omega)]

theorem above_eq_self {us : List UncoveredItem} {y a b : Int} (h : Tiles a us b) (hy : y ≤ a) :
    above us y = us := by
  unfold above
  have : ∀ u ∈ us, (if u.ys ≥ y then some u else if u.ye > y then some { u with ys := y } else none)
      = some u := by
    intro u hu
    have := h.mem u hu
    rw [if_pos (by omega)]
  rw [List.filterMap_congr this]
  exact List.filterMap_some

theorem tiles_below {us : List UncoveredItem} {y : Int} : ∀ {a b : Int}, Tiles a us b → a ≤ y → y ≤ b →
    Tiles a (below us y) y := by
  induction us with
  | nil => intro a b h h1 h2; cases h; exact le_antisymm h1 h2
  | cons u us ih =>
    intro a b h h1 h2
    unfold below
    by_cases h3 : u.ye ≤ y
    · rw [List.filterMap_cons_some (b := u) (by rw [if_pos h3])]
      exact ⟨h.1, h.2.1, ih h.2.2 h3 h2⟩
    · have hn : below us y = [] := below_eq_nil h.2.2 (by omega)
      have hu := h.1
      by_cases h4 : u.ys < y
      · rw [List.filterMap_cons_some (b := { u with ye := y }) (by rw [if_neg h3, if_pos h4])]
        change Tiles a (_ :: below us y) y
        rw [hn]
        exact ⟨h.1, h4, rfl⟩
      · rw [List.filterMap_cons_none (by rw [if_neg h3, if_neg h4])]
        change Tiles a (below us y) y
        rw [hn]
        exact le_antisymm h1 (by omega)

theorem tiles_above {us : List UncoveredItem} {y : Int} : ∀ {a b : Int}, Tiles a us b → a ≤ y → y ≤ b →
    Tiles y (above us y) b := by
  induction us with
  | nil => intro a b h h1 h2; cases h; exact le_antisymm h2 h1
  | cons u us ih =>
    intro a b h h1 h2
    have hu := h.1
    by_cases h0 : y ≤ a
    · rw [above_eq_self h h0]
      rwa [← le_antisymm h0 h1] at h
    · unfold above
      by_cases h4 : u.ye > y
      · rw [List.filterMap_cons_some (b := { u with ys := y })
          (by rw [if_neg (by omega), if_pos h4])]
        change Tiles y (_ :: above us y) b
        rw [above_eq_self h.2.2 (by omega)]
        exact ⟨rfl, h4, h.2.2⟩
      · rw [List.filterMap_cons_none (by rw [if_neg (by omega), if_neg h4])]
        exact ih h.2.2 (not_lt.mp h4) h2

theorem sky_after {us : List UncoveredItem} {new : UncoveredItem} (hn : new.ys < new.ye) :
    ∀ {a b : Int}, Tiles a us b →
    new.ys < a → ∀ (acc : List UncoveredItem) (pos : Option Nat),
      us.foldl (sameBinStep new) (acc, pos) = (acc ++ above us new.ye, pos) := by
  induction us with
  | nil => intro a b _ _ acc pos; simp [above]
  | cons u us ih =>
    intro a b h h1 acc pos
    have hu := h.1
    have hu2 := h.2.1
    rw [List.foldl_cons]
    unfold sameBinStep
    rw [if_neg (by omega), if_neg (by omega)]
    unfold above
    by_cases h3 : u.ys ≥ new.ye
    · rw [if_pos h3, List.filterMap_cons_some (b := u) (by rw [if_pos h3])]
      have := ih h.2.2 (by omega) (acc ++ [u]) pos
      rw [List.append_assoc] at this
      exact this
    · rw [if_neg h3]
      by_cases h4 : u.ye > new.ye
      · rw [if_pos h4, List.filterMap_cons_some (b := { u with ys := new.ye })
          (by rw [if_neg h3, if_pos h4])]
        have := ih h.2.2 (by omega) (acc ++ [{ u with ys := new.ye }]) pos
        rw [List.append_assoc] at this
        exact this
      · rw [if_neg h4, List.filterMap_cons_none (by rw [if_neg h3, if_neg h4])]
        exact ih h.2.2 (by omega) acc pos

theorem sky_main {us : List UncoveredItem} {new : UncoveredItem} (hn : new.ys < new.ye) :
    ∀ {a b : Int}, Tiles a us b →
    a ≤ new.ys → new.ys < b → ∀ (acc : List UncoveredItem) (pos : Option Nat),
      us.foldl (sameBinStep new) (acc, pos)
        = (acc ++ below us new.ys ++ [new] ++ above us new.ye,
            some (acc ++ below us new.ys).length) := by
  induction us with
  | nil => intro a b h h1 h2; cases h; omega
  | cons u us ih =>
    intro a b h h1 h2 acc pos
    have hu := h.1
    have hu2 := h.2.1
    rw [List.foldl_cons]
    by_cases h3 : u.ye ≤ new.ys
    · have e1 : below (u :: us) new.ys = u :: below us new.ys := by
        unfold below; rw [List.filterMap_cons_some (b := u) (by rw [if_pos h3])]
      have e2 : above (u :: us) new.ye = above us new.ye := by
        unfold above
        rw [List.filterMap_cons_none (by rw [if_neg (by omega), if_neg (by omega)])]
      have e0 : sameBinStep new (acc, pos) u = (acc ++ [u], pos) := by
        unfold sameBinStep; rw [if_pos h3]
      rw [e0, ih h.2.2 h3 h2, e1, e2]
      simp
    · have hb : below us new.ys = [] := below_eq_nil h.2.2 (by omega)
      have e0 : sameBinStep new (acc, pos) u
          = ((if u.ys < new.ys then acc ++ [{ u with ye := new.ys }] else acc) ++ [new]
              ++ (if u.ye > new.ye then [{ u with ys := new.ye }] else []),
            some (if u.ys < new.ys then acc ++ [{ u with ye := new.ys }] else acc).length) := by
        unfold sameBinStep; rw [if_neg h3, if_pos (by omega)]
      have e1 : acc ++ below (u :: us) new.ys
          = if u.ys < new.ys then acc ++ [{ u with ye := new.ys }] else acc := by
        unfold below
        by_cases h4 : u.ys < new.ys
        · rw [List.filterMap_cons_some (b := { u with ye := new.ys })
            (by rw [if_neg h3, if_pos h4]), if_pos h4]
          change acc ++ _ :: below us new.ys = _
          rw [hb]
        · rw [List.filterMap_cons_none (by rw [if_neg h3, if_neg h4]), if_neg h4]
          change acc ++ below us new.ys = _
          rw [hb, List.append_nil]
      have e2 : above (u :: us) new.ye
          = (if u.ye > new.ye then [{ u with ys := new.ye }] else []) ++ above us new.ye := by
        unfold above
        by_cases h4 : u.ye > new.ye
        · rw [List.filterMap_cons_some (b := { u with ys := new.ye })
            (by rw [if_neg (by omega), if_pos h4]), if_pos h4]
          rfl
        · rw [List.filterMap_cons_none (by rw [if_neg (by omega), if_neg h4]), if_neg h4]
          rfl
      rw [e0, sky_after hn h.2.2 (by omega), e1, e2]
      simp

/-- The skyline after an insertion in the same bin. -/
theorem sameBinSkyline_eq {us : List UncoveredItem} {new : UncoveredItem} {a b : Int}
    (h : Tiles a us b) (h1 : a ≤ new.ys) (h2 : new.ys < b) (hn : new.ys < new.ye) :
    sameBinSkyline us new = (below us new.ys ++ [new] ++ above us new.ye,
      some (below us new.ys).length) := by
  unfold sameBinSkyline
  rw [sky_main hn h h1 h2]
  simp

theorem tiles_sameBin {us : List UncoveredItem} {new : UncoveredItem} {a b : Int}
    (h : Tiles a us b) (h1 : a ≤ new.ys) (h2 : new.ye ≤ b) (hn : new.ys < new.ye) :
    Tiles a (below us new.ys ++ [new] ++ above us new.ye) b := by
  refine Tiles.append (b := new.ye) (Tiles.append (b := new.ys) ?_ ⟨rfl, hn, rfl⟩) ?_
  · exact tiles_below h h1 (by omega)
  · exact tiles_above h (by omega) h2

theorem skyArea_append (us vs : List UncoveredItem) : skyArea (us ++ vs) = skyArea us + skyArea vs := by
  unfold skyArea; rw [List.map_append, List.sum_append]

theorem skyArea_cons (u : UncoveredItem) (us : List UncoveredItem) :
    skyArea (u :: us) = u.xe * (u.ye - u.ys) + skyArea us := by
  unfold skyArea; rw [List.map_cons, List.sum_cons]

theorem area_after {us : List UncoveredItem} {ys ye x : Int} : ∀ {a b : Int}, Tiles a us b →
    ys < a → a ≤ ye → ye ≤ b → (∀ u ∈ us, u.Meets ys ye → u.xe ≤ x) →
    skyArea us ≤ x * (ye - a) + skyArea (above us ye) := by
  induction us with
  | nil => intro a b h h1 h2 h3 _; cases h; have : ye = a := le_antisymm h3 h2; subst this; simp [above, skyArea]
  | cons u us ih =>
    intro a b h h1 h2 h3 hx
    have hu := h.1
    have hu2 := h.2.1
    rcases eq_or_lt_of_le h2 with h0 | h0
    · rw [above_eq_self h (by omega), h0]; simp
    · have hxu : u.xe ≤ x := hx u List.mem_cons_self (by unfold UncoveredItem.Meets; omega)
      by_cases h4 : u.ye > ye
      · have e : above (u :: us) ye = { u with ys := ye } :: us := by
          unfold above
          rw [List.filterMap_cons_some (b := { u with ys := ye })
            (by rw [if_neg (by omega), if_pos h4])]
          change _ :: above us ye = _
          rw [above_eq_self h.2.2 (by omega)]
        rw [e, skyArea_cons, skyArea_cons]
        dsimp only
        have : u.xe * (ye - a) ≤ x * (ye - a) := mul_le_mul_of_nonneg_right hxu (by omega)
        have e1 : u.xe * (u.ye - u.ys) = u.xe * (ye - a) + u.xe * (u.ye - ye) := by
          rw [hu]; ring
        linarith
      · have e : above (u :: us) ye = above us ye := by
          unfold above
          rw [List.filterMap_cons_none (by rw [if_neg (by omega), if_neg h4])]
        have := ih h.2.2 (by omega) (not_lt.mp h4) h3
          (fun v hv => hx v (List.mem_cons_of_mem _ hv))
        rw [e, skyArea_cons]
        have h5 : u.xe * (u.ye - u.ys) ≤ x * (u.ye - u.ys) :=
          mul_le_mul_of_nonneg_right hxu (by omega)
        have e1 : x * (ye - a) = x * (u.ye - u.ys) + x * (ye - u.ye) := by rw [hu]; ring
        linarith

/-- Cutting the rows of an item out of the skyline removes at most the area left of the item. -/
theorem area_cut {us : List UncoveredItem} {ys ye x : Int} (hy : ys < ye) : ∀ {a b : Int},
    Tiles a us b → a ≤ ys → ye ≤ b → (∀ u ∈ us, u.Meets ys ye → u.xe ≤ x) →
    skyArea us ≤ skyArea (below us ys) + x * (ye - ys) + skyArea (above us ye) := by
  induction us with
  | nil => intro a b h h1 h2; cases h; omega
  | cons u us ih =>
    intro a b h h1 h2 hx
    have hu := h.1
    have hu2 := h.2.1
    by_cases h3 : u.ye ≤ ys
    · have e1 : below (u :: us) ys = u :: below us ys := by
        unfold below; rw [List.filterMap_cons_some (b := u) (by rw [if_pos h3])]
      have e2 : above (u :: us) ye = above us ye := by
        unfold above
        rw [List.filterMap_cons_none (by rw [if_neg (by omega), if_neg (by omega)])]
      have := ih h.2.2 h3 h2 (fun v hv => hx v (List.mem_cons_of_mem _ hv))
      rw [e1, e2, skyArea_cons, skyArea_cons]
      linarith
    · have hxu : u.xe ≤ x := hx u List.mem_cons_self (by unfold UncoveredItem.Meets; omega)
      have hb : below us ys = [] := below_eq_nil h.2.2 (by omega)
      have e1 : skyArea (below (u :: us) ys) = u.xe * (ys - u.ys) := by
        unfold below
        by_cases h4 : u.ys < ys
        · rw [List.filterMap_cons_some (b := { u with ye := ys })
            (by rw [if_neg h3, if_pos h4])]
          change skyArea (_ :: below us ys) = _
          rw [hb]; simp [skyArea]
        · rw [List.filterMap_cons_none (by rw [if_neg h3, if_neg h4])]
          change skyArea (below us ys) = _
          rw [hb]
          have : ys = u.ys := by omega
          rw [this]; simp [skyArea]
      rw [e1, skyArea_cons]
      by_cases h4 : u.ye > ye
      · have e : above (u :: us) ye = { u with ys := ye } :: us := by
          unfold above
          rw [List.filterMap_cons_some (b := { u with ys := ye })
            (by rw [if_neg (by omega), if_pos h4])]
          change _ :: above us ye = _
          rw [above_eq_self h.2.2 (by omega)]
        rw [e, skyArea_cons]
        dsimp only
        have h5 : u.xe * (ye - ys) ≤ x * (ye - ys) := mul_le_mul_of_nonneg_right hxu (by omega)
        have e1 : u.xe * (u.ye - u.ys)
            = u.xe * (ys - u.ys) + u.xe * (ye - ys) + u.xe * (u.ye - ye) := by ring
        linarith
      · have e : above (u :: us) ye = above us ye := by
          unfold above
          rw [List.filterMap_cons_none (by rw [if_neg (by omega), if_neg h4])]
        have := area_after h.2.2 (ys := ys) (ye := ye) (x := x) (by omega) (not_lt.mp h4) h2
          (fun v hv => hx v (List.mem_cons_of_mem _ hv))
        rw [e]
        have h5 : u.xe * (u.ye - ys) ≤ x * (u.ye - ys) :=
          mul_le_mul_of_nonneg_right hxu (by omega)
        have e1 : u.xe * (u.ye - u.ys) = u.xe * (ys - u.ys) + u.xe * (u.ye - ys) := by ring
        have e2 : x * (ye - ys) = x * (u.ye - ys) + x * (ye - u.ye) := by ring
        linarith

/-- The skyline lies in a box. -/
theorem skyArea_le {us : List UncoveredItem} {x : Int} : ∀ {a b : Int}, Tiles a us b →
    (∀ u ∈ us, u.xe ≤ x) → skyArea us ≤ x * (b - a) := by
  induction us with
  | nil => intro a b h _; cases h; simp [skyArea]
  | cons u us ih =>
    intro a b h hx
    have hu := h.1
    have hu2 := h.2.1
    have := ih h.2.2 (fun v hv => hx v (List.mem_cons_of_mem _ hv))
    rw [skyArea_cons]
    have h5 : u.xe * (u.ye - u.ys) ≤ x * (u.ye - u.ys) :=
      mul_le_mul_of_nonneg_right (hx u List.mem_cons_self) (by omega)
    have e2 : x * (b - a) = x * (u.ye - u.ys) + x * (b - u.ye) := by rw [← hu]; ring
    linarith

/-! ### Dominance marks -/

/-- An uncovered item without its dominance mark. -/
def core (u : UncoveredItem) : UncoveredItem := { u with xeDominance := 0 }

theorem core_updateDominance (us : List UncoveredItem) (pos : Nat) (yi h : Int) :
    (updateDominance us pos yi h).map core = us.map core := by
  have key : ∀ (us : List UncoveredItem) (f : Nat → UncoveredItem → UncoveredItem),
      (∀ k u, core (f k u) = core u) → (us.mapIdx f).map core = us.map core := by
    intro us f hf
    apply List.ext_getElem
    · simp
    · intro i h1 h2; simp [hf]
  unfold updateDominance
  dsimp only
  split_ifs
  · rw [key, key] <;> (intro k u; split_ifs <;> rfl)
  · rw [key]; intro k u; split_ifs <;> rfl
  · rw [key]; intro k u; split_ifs <;> rfl
  · rfl

theorem core_fields {u v : UncoveredItem} (h : core u = core v) :
    u.itemTypeId = v.itemTypeId ∧ u.xs = v.xs ∧ u.xe = v.xe ∧ u.ys = v.ys ∧ u.ye = v.ye := by
  unfold core at h
  simp only [UncoveredItem.mk.injEq] at h
  exact ⟨h.1, h.2.1, h.2.2.1, h.2.2.2.2.1, h.2.2.2.2.2⟩

theorem mem_core {us vs : List UncoveredItem} (h : vs.map core = us.map core) {v : UncoveredItem}
    (hv : v ∈ vs) : ∃ u ∈ us, v.itemTypeId = u.itemTypeId ∧ v.xs = u.xs ∧ v.xe = u.xe
      ∧ v.ys = u.ys ∧ v.ye = u.ye := by
  have h1 : core v ∈ us.map core := h ▸ List.mem_map.mpr ⟨v, hv, rfl⟩
  obtain ⟨u, hu, he⟩ := List.mem_map.mp h1
  exact ⟨u, hu, core_fields he.symm⟩

theorem Tiles.core_iff {us : List UncoveredItem} : ∀ {vs : List UncoveredItem} {a b : Int},
    vs.map core = us.map core → (Tiles a vs b ↔ Tiles a us b) := by
  induction us with
  | nil => intro vs a b h; simp at h; subst h; rfl
  | cons u us ih =>
    intro vs a b h
    cases vs with
    | nil => simp at h
    | cons v vs =>
      simp only [List.map_cons, List.cons.injEq] at h
      obtain ⟨-, -, -, h1, h2⟩ := core_fields h.1
      unfold Tiles
      rw [h1, h2, ih h.2]

theorem skyArea_core {us vs : List UncoveredItem} (h : vs.map core = us.map core) :
    skyArea vs = skyArea us := by
  have e : ∀ l : List UncoveredItem, skyArea l
      = ((l.map core).map fun u => u.xe * (u.ye - u.ys)).sum := by
    intro l; unfold skyArea; rw [List.map_map]; rfl
  rw [e, e, h]

end PackingSolver.Rect.TreeSearch
