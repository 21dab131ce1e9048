import Verif.Lemmas.Guil.SpacesPlace

/-!
# Lemmas: marked calls
-/

namespace PackingSolver.Guil.Spaces

open PackingSolver.Guil.Spec

/-- The place of a space. -/
def Space.place (s : Space) : Region := ⟨s.x, s.x + s.w, s.y, s.y + s.h⟩

/-- The calls where each mark stands for some calls. -/
def expand (σ : Nat → List Op) (l : List Step) : List Op := l.flatMap fun
  | .op o => [o]
  | .space k => σ k

section
variable {σ : Nat → List Op}

@[simp] theorem expand_nil : expand σ [] = [] := rfl

@[simp] theorem expand_op (o : Op) (l : List Step) : expand σ (.op o :: l) = o :: expand σ l := rfl

@[simp] theorem expand_space (k : Nat) (l : List Step) :
    expand σ (.space k :: l) = σ k ++ expand σ l := rfl

@[simp] theorem expand_append (l l' : List Step) :
    expand σ (l ++ l') = expand σ l ++ expand σ l' := List.flatMap_append

@[simp] theorem expand_map (l : List Op) : expand σ (l.map .op) = l := by
  induction l with
  | nil => rfl
  | cons o l ih => rw [List.map_cons, expand_op, ih]

theorem expand_replaceMark (m : Nat) (seg l : List Step) :
    expand σ (replaceMark m seg l) = expand (Function.update σ m (expand σ seg)) l := by
  induction l with
  | nil => rfl
  | cons a l ih =>
    have e : replaceMark m seg (a :: l) = replaceMark m seg [a] ++ replaceMark m seg l := by
      show List.flatMap _ ([a] ++ l) = _
      rw [List.flatMap_append]; rfl
    rw [e, expand_append, ih]
    cases a with
    | op o => rfl
    | space k =>
      rw [expand_space]
      by_cases hk : k = m
      · subst hk
        rw [Function.update_self]
        have : replaceMark k seg [Step.space k] = seg := by simp [replaceMark]
        rw [this]
      · rw [Function.update_of_ne hk]
        have : replaceMark m seg [Step.space k] = [Step.space k] := by simp [replaceMark, hk]
        rw [this]
        simp

theorem stepsOps_eq (l : List Step) : Scheme.stepsOps l = expand (fun _ => []) l := by
  induction l with
  | nil => rfl
  | cons a l ih =>
    cases a with
    | op o => rw [expand_op, ← ih]; rfl
    | space k => rw [expand_space, ← ih]; rfl

end

section
variable {inst : Instance} {bt : BinType} {b : Nat} {o : CutOrientation} {σ : Nat → List Op}
  {g : Nat → Weight} {s : Space} {w h : Int} {next : Nat} {inner : List Op} {q : Weight}

/-- The calls for a block in a space fill the space, if the marks stand for calls that fill the new
spaces. -/
theorem segment_fills (ho : o ≠ .any) (hd : 0 ≤ s.depth) (hw : 0 < w)
    (hh : 0 < h) (hw' : w ≤ s.w) (hh' : h ≤ s.h)
    (hi : FillsF inst bt b o inner (s.depth + 2) ⟨s.x, s.x + w, s.y, s.y + h⟩ q)
    (hn : ∀ e ∈ (newSpaces inst.parameters.cutThickness s w h o).zipIdx next,
      FillsO inst bt b o (σ e.2) e.1.depth e.1.place (g e.2)) :
    FillsO inst bt b o (expand σ (segment o inst.parameters.cutThickness s w h o next inner))
      s.depth s.place
      (q + (((newSpaces inst.parameters.cutThickness s w h o).zipIdx next).map
        fun e => g e.2).sum) := by
  have hcv := cutsVertically_eq ho hd
  have hsucc := vert_succ ho hd
  have e2 : s.depth + 2 = s.depth + 1 + 1 := by omega
  rw [e2] at hi
  unfold newSpaces at hn ⊢
  unfold segment
  dsimp only at hn ⊢
  rw [hcv] at hn ⊢
  rw [e2] at hn ⊢
  cases hv : vert o s.depth with
  | true =>
    have hv' : vert o (s.depth + 1) = false := by rw [hsucc, hv]; rfl
    rw [hv, if_pos rfl] at hn
    rw [if_pos rfl, if_pos rfl]
    -- the column of the block
    have col : ∀ (mA : Nat), (s.y + s.h > s.y + h + inst.parameters.cutThickness →
        FillsO inst bt b o (σ mA) (s.depth + 1 + 1)
        (⟨s.x, s.x + w, s.y + h + inst.parameters.cutThickness, s.y + s.h⟩) (g mA)) →
        FillsO inst bt b o (.addNode (s.depth + 1 + 1) (s.y + h) :: inner ++
          if s.y + h + inst.parameters.cutThickness < s.y + s.h then
            .addNode (s.depth + 1 + 1) (s.y + s.h) :: σ mA else []) (s.depth + 1)
          ⟨s.x, s.x + w, s.y, s.y + s.h⟩
          (q + if s.y + h + inst.parameters.cutThickness < s.y + s.h then g mA else 0) := by
      intro mA hA
      refine Strips.fills (by omega) (strips_two ?_ (by omega) ?_ ?_ ?_)
      · rw [hv']; exact lt_add_of_pos_right s.y hh
      · rw [hv']; rfl
      · rw [hv']; exact hi
      · rw [hv']; exact fun hc => (hA hc).free
    have all : ∀ (mR mA : Nat), (s.y + s.h > s.y + h + inst.parameters.cutThickness →
        FillsO inst bt b o (σ mA) (s.depth + 1 + 1)
        (⟨s.x, s.x + w, s.y + h + inst.parameters.cutThickness, s.y + s.h⟩) (g mA)) →
        (s.x + s.w > s.x + w + inst.parameters.cutThickness →
        FillsO inst bt b o (σ mR) (s.depth + 1)
        (⟨s.x + w + inst.parameters.cutThickness, s.x + s.w, s.y, s.y + s.h⟩) (g mR)) →
        FillsO inst bt b o (.addNode (s.depth + 1) (s.x + w) ::
            (.addNode (s.depth + 1 + 1) (s.y + h) :: inner ++
          if s.y + h + inst.parameters.cutThickness < s.y + s.h then
            .addNode (s.depth + 1 + 1) (s.y + s.h) :: σ mA else []) ++
          if s.x + w + inst.parameters.cutThickness < s.x + s.w then
            .addNode (s.depth + 1) (s.x + s.w) :: σ mR else []) s.depth s.place
          ((q + if s.y + h + inst.parameters.cutThickness < s.y + s.h then g mA else 0)
            + if s.x + w + inst.parameters.cutThickness < s.x + s.w then g mR else 0) := by
      intro mR mA hA hR
      refine Strips.fills (by omega) (strips_two ?_ (by omega) ?_ ?_ ?_)
      · rw [hv]; exact lt_add_of_pos_right s.x hw
      · rw [hv]; rfl
      · rw [hv]; exact (col mA hA).free
      · rw [hv]; exact fun hc => (hR hc).free
    have n1 : ∀ x y, nodeOp o (s.depth + 1) x y = .addNode (s.depth + 1) x := fun x y => by
      rw [nodeOp_eq, hv, if_pos rfl]
    have n2 : ∀ x y, nodeOp o (s.depth + 1 + 1) x y = .addNode (s.depth + 1 + 1) y :=
      fun x y => by rw [nodeOp_eq, hv', if_neg (by simp)]
    simp only [n1, n2]
    by_cases hr : s.x + s.w > s.x + w + inst.parameters.cutThickness
    · have hF : FillsO inst bt b o (σ next) (s.depth + 1) _ (g next) := hn (_, next) (by
        rw [if_pos hr]
        simp only [List.singleton_append, List.zipIdx_cons]
        exact List.mem_cons_self)
      dsimp only [Space.place] at hF
      rw [show s.x + w + inst.parameters.cutThickness + (s.x + s.w - s.x - w
        - inst.parameters.cutThickness) = s.x + s.w by ring] at hF
      by_cases ha : s.y + s.h > s.y + h + inst.parameters.cutThickness
      · have hS : FillsO inst bt b o (σ (next + 1)) (s.depth + 1 + 1) _ (g (next + 1)) :=
          hn (_, next + 1) (by
            rw [if_pos hr, if_pos ha]
            simp only [List.singleton_append, List.zipIdx_cons, List.zipIdx_nil]
            exact List.mem_cons_of_mem _ (List.mem_singleton.mpr rfl))
        dsimp only [Space.place] at hS
        rw [show s.y + h + inst.parameters.cutThickness + (s.y + s.h - s.y - h
        - inst.parameters.cutThickness) = s.y + s.h by ring] at hS
        have F := all next (next + 1) (fun _ => hS) (fun _ => hF)
        simp only [gt_iff_lt.mp hr, gt_iff_lt.mp ha, if_true] at F ⊢
        simpa [List.zipIdx_cons, add_assoc, add_comm, add_left_comm] using F
      · have F := all next (next + 1) (fun hc => absurd hc ha) (fun _ => hF)
        have ha' := mt gt_iff_lt.mpr ha
        simp only [gt_iff_lt.mp hr, ha', if_true, if_false] at F ⊢
        simpa [ha', List.zipIdx_cons, add_assoc, add_comm, add_left_comm] using F
    · have hr' := mt gt_iff_lt.mpr hr
      by_cases ha : s.y + s.h > s.y + h + inst.parameters.cutThickness
      · have hS : FillsO inst bt b o (σ next) (s.depth + 1 + 1) _ (g next) :=
          hn (_, next) (by
            rw [if_neg hr, if_pos ha]
            simp only [List.nil_append, List.zipIdx_cons, List.zipIdx_nil]
            exact List.mem_singleton.mpr rfl)
        dsimp only [Space.place] at hS
        rw [show s.y + h + inst.parameters.cutThickness + (s.y + s.h - s.y - h
        - inst.parameters.cutThickness) = s.y + s.h by ring] at hS
        have F := all (next + 1) next (fun _ => hS) (fun hc => absurd hc hr)
        simp only [hr', gt_iff_lt.mp ha, if_true, if_false] at F ⊢
        simpa [hr', List.zipIdx_cons, add_assoc, add_comm, add_left_comm] using F
      · have ha' := mt gt_iff_lt.mpr ha
        have F := all next next (fun hc => absurd hc ha) (fun hc => absurd hc hr)
        simp only [hr', ha', if_false] at F ⊢
        simpa [hr', ha', add_assoc, add_comm, add_left_comm] using F
  | false =>
    have hv' : vert o (s.depth + 1) = true := by rw [hsucc, hv]; rfl
    rw [hv, if_neg (by simp)] at hn
    simp only [Bool.false_eq_true, if_false]
    -- the row of the block
    have row : ∀ (mR : Nat), (s.x + s.w > s.x + w + inst.parameters.cutThickness →
        FillsO inst bt b o (σ mR) (s.depth + 1 + 1)
        (⟨s.x + w + inst.parameters.cutThickness, s.x + s.w, s.y, s.y + h⟩) (g mR)) →
        FillsO inst bt b o (.addNode (s.depth + 1 + 1) (s.x + w) :: inner ++
          if s.x + w + inst.parameters.cutThickness < s.x + s.w then
            .addNode (s.depth + 1 + 1) (s.x + s.w) :: σ mR else []) (s.depth + 1)
          ⟨s.x, s.x + s.w, s.y, s.y + h⟩
          (q + if s.x + w + inst.parameters.cutThickness < s.x + s.w then g mR else 0) := by
      intro mR hR
      refine Strips.fills (by omega) (strips_two ?_ (by omega) ?_ ?_ ?_)
      · rw [hv']; exact lt_add_of_pos_right s.x hw
      · rw [hv']; rfl
      · rw [hv']; exact hi
      · rw [hv']; exact fun hc => (hR hc).free
    have all : ∀ (mA mR : Nat), (s.x + s.w > s.x + w + inst.parameters.cutThickness →
        FillsO inst bt b o (σ mR) (s.depth + 1 + 1)
        (⟨s.x + w + inst.parameters.cutThickness, s.x + s.w, s.y, s.y + h⟩) (g mR)) →
        (s.y + s.h > s.y + h + inst.parameters.cutThickness →
        FillsO inst bt b o (σ mA) (s.depth + 1)
        (⟨s.x, s.x + s.w, s.y + h + inst.parameters.cutThickness, s.y + s.h⟩) (g mA)) →
        FillsO inst bt b o (.addNode (s.depth + 1) (s.y + h) ::
            (.addNode (s.depth + 1 + 1) (s.x + w) :: inner ++
          if s.x + w + inst.parameters.cutThickness < s.x + s.w then
            .addNode (s.depth + 1 + 1) (s.x + s.w) :: σ mR else []) ++
          if s.y + h + inst.parameters.cutThickness < s.y + s.h then
            .addNode (s.depth + 1) (s.y + s.h) :: σ mA else []) s.depth s.place
          ((q + if s.x + w + inst.parameters.cutThickness < s.x + s.w then g mR else 0)
            + if s.y + h + inst.parameters.cutThickness < s.y + s.h then g mA else 0) := by
      intro mA mR hR hA
      refine Strips.fills (by omega) (strips_two ?_ (by omega) ?_ ?_ ?_)
      · rw [hv]; exact lt_add_of_pos_right s.y hh
      · rw [hv]; rfl
      · rw [hv]; exact (row mR hR).free
      · rw [hv]; exact fun hc => (hA hc).free
    have n1 : ∀ x y, nodeOp o (s.depth + 1) x y = .addNode (s.depth + 1) y := fun x y => by
      rw [nodeOp_eq, hv, if_neg (by simp)]
    have n2 : ∀ x y, nodeOp o (s.depth + 1 + 1) x y = .addNode (s.depth + 1 + 1) x :=
      fun x y => by rw [nodeOp_eq, hv', if_pos rfl]
    simp only [n1, n2]
    by_cases hr : s.y + s.h > s.y + h + inst.parameters.cutThickness
    · have hF : FillsO inst bt b o (σ next) (s.depth + 1) _ (g next) := hn (_, next) (by
        rw [if_pos hr]
        simp only [List.singleton_append, List.zipIdx_cons]
        exact List.mem_cons_self)
      dsimp only [Space.place] at hF
      rw [show s.y + h + inst.parameters.cutThickness + (s.y + s.h - s.y - h
        - inst.parameters.cutThickness) = s.y + s.h by ring] at hF
      by_cases ha : s.x + s.w > s.x + w + inst.parameters.cutThickness
      · have hS : FillsO inst bt b o (σ (next + 1)) (s.depth + 1 + 1) _ (g (next + 1)) :=
          hn (_, next + 1) (by
            rw [if_pos hr, if_pos ha]
            simp only [List.singleton_append, List.zipIdx_cons, List.zipIdx_nil]
            exact List.mem_cons_of_mem _ (List.mem_singleton.mpr rfl))
        dsimp only [Space.place] at hS
        rw [show s.x + w + inst.parameters.cutThickness + (s.x + s.w - s.x - w
        - inst.parameters.cutThickness) = s.x + s.w by ring] at hS
        have F := all next (next + 1) (fun _ => hS) (fun _ => hF)
        simp only [gt_iff_lt.mp hr, gt_iff_lt.mp ha, if_true] at F ⊢
        simpa [List.zipIdx_cons, add_assoc, add_comm, add_left_comm] using F
      · have F := all next (next + 1) (fun hc => absurd hc ha) (fun _ => hF)
        have ha' := mt gt_iff_lt.mpr ha
        simp only [gt_iff_lt.mp hr, ha', if_true, if_false] at F ⊢
        simpa [ha', List.zipIdx_cons, add_assoc, add_comm, add_left_comm] using F
    · have hr' := mt gt_iff_lt.mpr hr
      by_cases ha : s.x + s.w > s.x + w + inst.parameters.cutThickness
      · have hS : FillsO inst bt b o (σ next) (s.depth + 1 + 1) _ (g next) :=
          hn (_, next) (by
            rw [if_neg hr, if_pos ha]
            simp only [List.nil_append, List.zipIdx_cons, List.zipIdx_nil]
            exact List.mem_singleton.mpr rfl)
        dsimp only [Space.place] at hS
        rw [show s.x + w + inst.parameters.cutThickness + (s.x + s.w - s.x - w
        - inst.parameters.cutThickness) = s.x + s.w by ring] at hS
        have F := all (next + 1) next (fun _ => hS) (fun hc => absurd hc hr)
        simp only [hr', gt_iff_lt.mp ha, if_true, if_false] at F ⊢
        simpa [hr', List.zipIdx_cons, add_assoc, add_comm, add_left_comm] using F
      · have ha' := mt gt_iff_lt.mpr ha
        have F := all next next (fun hc => absurd hc ha) (fun hc => absurd hc hr)
        simp only [hr', ha', if_false] at F ⊢
        simpa [hr', ha', add_assoc, add_comm, add_left_comm] using F

end

end PackingSolver.Guil.Spaces
