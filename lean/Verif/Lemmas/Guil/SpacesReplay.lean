import Verif.Lemmas.Guil.SpacesSegment
import Mathlib.Tactic.Abel

/-!
# Lemmas: the replay of a state gives calls that fill the bin
-/

namespace PackingSolver.Guil.Spaces

open PackingSolver.Guil.Spec
open PackingSolver.Rect.Block (cnt)

theorem pruneLoop_map {α β : Type} (f : α → β) (keep : β → Bool) : ∀ (n i : Nat) (l : List α),
    (pruneLoop (fun a => keep (f a)) n i l).map f = pruneLoop keep n i (l.map f) := by
  intro n
  induction n with
  | zero => intro i l; rfl
  | succ n ih =>
    intro i l
    rw [pruneLoop, pruneLoop, List.getElem?_map, List.getLast?_map]
    cases h1 : l[i]? with
    | none => rfl
    | some a =>
      cases h2 : l.getLast? with
      | none => rfl
      | some z =>
        dsimp only [Option.map_some]
        by_cases hk : keep (f a) = true
        · rw [if_pos hk, if_pos hk, ih]
        · rw [if_neg hk, if_neg hk, ih, List.map_dropLast, List.map_set]

theorem prune_map {α β : Type} (f : α → β) (keep : β → Bool) (l : List α) :
    (prune (fun a => keep (f a)) l).map f = prune keep (l.map f) := by
  unfold prune
  rw [pruneLoop_map, List.length_map]

theorem zipIdx_fst {α : Type} : ∀ (l : List α) (k : Nat), (l.zipIdx k).map (·.1) = l := by
  intro l
  induction l with
  | nil => intro k; rfl
  | cons a l ih => intro k; rw [List.zipIdx_cons, List.map_cons, ih]

theorem zipIdx_marks {α : Type} : ∀ (l : List α) (k : Nat),
    ((l.zipIdx k).map (·.2)).Nodup ∧ ∀ e ∈ l.zipIdx k, k ≤ e.2 ∧ e.2 < k + l.length := by
  intro l
  induction l with
  | nil => intro k; simp
  | cons a l ih =>
    intro k
    obtain ⟨h1, h2⟩ := ih (k + 1)
    rw [List.zipIdx_cons]
    refine ⟨?_, ?_⟩
    · rw [List.map_cons, List.nodup_cons]
      refine ⟨fun hm => ?_, h1⟩
      obtain ⟨e, he, hk⟩ := List.mem_map.mp hm
      have := (h2 e he).1
      omega
    · intro e he
      rw [List.length_cons]
      rcases List.mem_cons.mp he with rfl | he
      · dsimp only; omega
      · have := h2 e he; omega

theorem sum_filter_zero {α : Type} (f : α → Weight) (p : α → Bool) (l : List α)
    (h : ∀ a ∈ l, p a = false → f a = 0) : ((l.filter p).map f).sum = (l.map f).sum := by
  induction l with
  | nil => rfl
  | cons a l ih =>
    have ih := ih (fun b hb => h b (List.mem_cons_of_mem _ hb))
    rw [List.map_cons, List.sum_cons]
    by_cases hp : p a = true
    · rw [List.filter_cons_of_pos hp, List.map_cons, List.sum_cons, ih]
    · rw [List.filter_cons_of_neg hp, ih, h a List.mem_cons_self (by simpa using hp), zero_add]

/-- The numbers of copies and the profit of a state. -/
def State.weight (n : State) : Weight := (fun i => n.copies.getD i 0, n.profit)

/-- The replay has reached the state, and the calls fill the bin. -/
structure RInv (sc : Scheme) (bt : BinType) (b : Nat) (o : CutOrientation) (n : State)
    (r : Replay) : Prop where
  spaces : r.urs.map (·.1) = n.spaces
  copies : r.copies = n.copies
  valid : r.valid = n.valid
  nodup : (r.urs.map (·.2)).Nodup
  marks : ∀ e ∈ r.urs, e.2 < r.next
  depth : ∀ e ∈ r.urs, 0 ≤ e.1.depth
  fill : ∀ (σ : Nat → List Op) (g : Nat → Weight),
    (∀ k < r.next, (∀ e ∈ r.urs, e.2 ≠ k) → σ k = []) →
    (∀ e ∈ r.urs, FillsO sc.inst bt b o (σ e.2) e.1.depth e.1.place (g e.2)) →
    FillsO sc.inst bt b o (expand σ r.steps) 0 sc.rootSpace.place
      (n.weight + (r.urs.map fun e => g e.2).sum)

section
variable {sc : Scheme} {bt : BinType} {b : Nat} {o : CutOrientation} {n n' : State} {r : Replay}
  {ins : Insertion}

theorem rinv_start : RInv sc bt b o sc.root sc.replayStart := by
  refine ⟨rfl, rfl, rfl, ?_, ?_, ?_, ?_⟩
  · simp [Scheme.replayStart]
  · simp [Scheme.replayStart]
  · simp [Scheme.replayStart, Scheme.rootSpace]
  · intro σ g _ h
    have h0 : sc.root.weight = 0 := by
      refine Prod.ext (funext fun i => ?_) rfl
      show (List.replicate _ (0 : Int)).getD i 0 = 0
      rw [List.getD_eq_getElem?_getD, List.getElem?_replicate]
      split <;> rfl
    have := h (sc.rootSpace, 0) (List.mem_singleton.mpr rfl)
    rw [h0]
    show FillsO _ _ _ _ (σ 0 ++ []) _ _ (0 + (g 0 + 0))
    rw [List.append_nil, add_zero, zero_add]
    exact this

theorem newSpaces_depth {t : Int} {s : Space} {w h : Int} {co : CutOrientation}
    (hd : 0 ≤ s.depth) : ∀ e ∈ newSpaces t s w h co, 0 ≤ e.depth := by
  intro e he
  unfold newSpaces at he
  dsimp only at he
  split at he <;> rcases List.mem_append.mp he with he | he <;> split at he <;>
    first
      | (rw [List.mem_singleton.mp he]; dsimp only; omega)
      | cases he

theorem newSpaces_co {t : Int} {s : Space} {w h : Int} {co : CutOrientation} :
    ∀ e ∈ newSpaces t s w h co, e.co = co := by
  intro e he
  unfold newSpaces at he
  dsimp only at he
  split at he <;> rcases List.mem_append.mp he with he | he <;> split at he <;>
    first
      | rw [List.mem_singleton.mp he]
      | cases he

open Classical in
theorem rinv_step (h : sc.Ok) (hp : PosItems sc.inst)
    (hm : ∀ k c, sc.blocks[k]? = some c → Block.Made sc.inst sc.bt (sc.blocks.take k) c)
    (hg : Gapless sc.inst.parameters.cutThickness sc.blocks) (ho : o ≠ .any)
    (hn : StateInv sc n) (hr : RInv sc bt b o n r) (hi : ins ∈ sc.insertions n) (hco : ins.co = o)
    (ha : sc.apply n ins = .ok n') :
    ∃ p r', n'.placed = n.placed ++ [p] ∧ p.co = o ∧ sc.replayStep o r p = .ok r'
      ∧ RInv sc bt b o n' r' := by
  obtain ⟨s, hb, hs, hv, fw, fh, -⟩ := mem_insertions.mp hi
  obtain ⟨hlt, hval⟩ := (hn.valid _).mp hv
  rw [apply_eq hs hlt] at ha
  cases ha
  obtain ⟨hbl, hmem⟩ := block_some hlt
  have hinv := h.blocks _ hmem
  have hurs : ∃ mark, r.urs[ins.spaceId]? = some (s, mark) := by
    rw [← hr.spaces, List.getElem?_map] at hs
    cases hu : r.urs[ins.spaceId]? with
    | none => rw [hu] at hs; cases hs
    | some e => rw [hu] at hs; cases hs; exact ⟨e.2, rfl⟩
  obtain ⟨mark, hurs⟩ := hurs
  have hsd : 0 ≤ s.depth := hr.depth _ (List.mem_of_getElem? hurs)
  have hmark : mark < r.next := hr.marks _ (List.mem_of_getElem? hurs)
  obtain ⟨pw, ph, hpl⟩ := places_all (bt := bt) (b := b) h.thick hp ho
    (fun c hc => ⟨(h.blocks c hc).posW, (h.blocks c hc).posH⟩) hm hg _ _ hbl
  obtain ⟨inner, hin, hfi⟩ := hpl (s.depth + 2) s.x s.y (sc.block ins.blockId).w
    (sc.block ins.blockId).h (by omega) (.inl rfl) (.inl rfl)
  have hin := hin sc.placeFuel (by unfold Scheme.placeFuel; omega)
  have hstep : sc.replayStep o r ⟨ins.blockId, s.x, s.y, ins.co⟩ = .ok
      { steps := replaceMark mark (segment o sc.t s (sc.block ins.blockId).w (sc.block ins.blockId).h ins.co r.next inner) r.steps
        urs := prune (fun e => sc.hasFitting (sc.stillValid (addCopies r.copies (sc.block ins.blockId).itemCopies) r.valid) e.1) (r.urs.eraseIdx ins.spaceId ++ (newSpaces sc.t s (sc.block ins.blockId).w (sc.block ins.blockId).h ins.co).zipIdx r.next)
        next := r.next + (newSpaces sc.t s (sc.block ins.blockId).w (sc.block ins.blockId).h ins.co).length
        copies := addCopies r.copies (sc.block ins.blockId).itemCopies
        valid := sc.stillValid (addCopies r.copies (sc.block ins.blockId).itemCopies) r.valid } := by
    unfold Scheme.replayStep
    rw [hr.spaces, hb]
    dsimp only
    rw [hurs, hbl]
    dsimp only
    rw [hin]
    rfl
  refine ⟨⟨ins.blockId, s.x, s.y, ins.co⟩, _, rfl, hco, hstep, ?_⟩
  clear hstep
  generalize hB : sc.block ins.blockId = B at *
  have hperm : r.urs.Perm ((s, mark) :: r.urs.eraseIdx ins.spaceId) := by
    obtain ⟨hk, he⟩ := List.getElem?_eq_some_iff.mp hurs
    rw [← he]
    exact (List.getElem_cons_eraseIdx_perm hk).symm
  obtain ⟨z1, z2⟩ := zipIdx_marks (newSpaces sc.t s B.w B.h ins.co) r.next
  have hmk : ((s, mark) :: r.urs.eraseIdx ins.spaceId).map (·.2) |>.Nodup :=
    (hperm.map _).nodup_iff.mp hr.nodup
  rw [List.map_cons, List.nodup_cons] at hmk
  obtain ⟨hmk1, hmk2⟩ := hmk
  have herase : ∀ e ∈ r.urs.eraseIdx ins.spaceId, e ∈ r.urs := fun e he =>
    hperm.mem_iff.mpr (List.mem_cons_of_mem _ he)
  generalize hfull : r.urs.eraseIdx ins.spaceId
    ++ (newSpaces sc.t s B.w B.h ins.co).zipIdx r.next = full
  have fnodup : (full.map (·.2)).Nodup := by
    rw [← hfull, List.map_append, List.nodup_append]
    refine ⟨hmk2, z1, ?_⟩
    intro m1 h1 m2 h2 he
    obtain ⟨e1, k1, rfl⟩ := List.mem_map.mp h1
    obtain ⟨e2, k2, rfl⟩ := List.mem_map.mp h2
    have := hr.marks e1 (herase e1 k1)
    have := (z2 e2 k2).1
    omega
  have fmarks : ∀ e ∈ full, e.2 < r.next + (newSpaces sc.t s B.w B.h ins.co).length := by
    intro e he
    rw [← hfull] at he
    rcases List.mem_append.mp he with he | he
    · have := hr.marks e (herase e he); omega
    · exact (z2 e he).2
  generalize hkeep : sc.hasFitting (sc.stillValid (addCopies n.copies B.itemCopies) n.valid) = keep
  have hpp := prune_perm (fun e : Space × Nat => keep e.1) full
  have hsub : ∀ e ∈ prune (fun e : Space × Nat => keep e.1) full, e ∈ full := fun e he =>
    List.mem_of_mem_filter (hpp.mem_iff.mp he)
  refine ⟨?_, ?_, ?_, ?_, ?_, ?_, ?_⟩
  · dsimp only
    rw [hr.copies, hr.valid, hkeep, prune_map Prod.fst keep, ← hfull, List.map_append,
      zipIdx_fst, ← hr.spaces, List.eraseIdx_map]
  · dsimp only; rw [hr.copies]
  · dsimp only; rw [hr.copies, hr.valid]
  · dsimp only
    rw [hr.copies, hr.valid, hkeep]
    rw [(hpp.map _).nodup_iff]
    exact fnodup.sublist (List.filter_sublist.map _)
  · dsimp only
    rw [hr.copies, hr.valid, hkeep]
    exact fun e he => fmarks e (hsub e he)
  · dsimp only
    rw [hr.copies, hr.valid, hkeep]
    intro e he
    have he := hsub e he
    rw [← hfull] at he
    rcases List.mem_append.mp he with he | he
    · exact hr.depth e (herase e he)
    · have : e.1 ∈ newSpaces sc.t s B.w B.h ins.co := by
        rw [← zipIdx_fst (newSpaces sc.t s B.w B.h ins.co) r.next]
        exact List.mem_map.mpr ⟨e, he, rfl⟩
      exact newSpaces_depth hsd _ this
  · dsimp only
    rw [hr.copies, hr.valid, hkeep]
    intro σ' g' h1 h2
    -- nothing in the spaces that are dropped
    let g2 : Nat → Weight := fun m =>
      if ∃ e ∈ prune (fun e : Space × Nat => keep e.1) full, e.2 = m then g' m else 0
    have hall : ∀ e ∈ full, FillsO sc.inst bt b o (σ' e.2) e.1.depth e.1.place (g2 e.2) := by
      intro e he
      by_cases hx : ∃ e' ∈ prune (fun e : Space × Nat => keep e.1) full, e'.2 = e.2
      · have : g2 e.2 = g' e.2 := if_pos hx
        rw [this]
        obtain ⟨e', h3, h4⟩ := hx
        have : e' = e := List.inj_on_of_nodup_map fnodup (hsub e' h3) he h4
        exact this ▸ h2 e' h3
      · have : g2 e.2 = 0 := if_neg hx
        rw [this, h1 e.2 (fmarks e he) (fun e' h3 h4 => hx ⟨e', h3, h4⟩)]
        exact fillsO_nothing
    have hseg := segment_fills (σ := σ') (g := g2) (next := r.next) ho hsd pw ph fw fh hfi
      (fun e he => hall e (by
        rw [← hfull, hco]; exact List.mem_append_right _ he))
    rw [show sc.inst.parameters.cutThickness = sc.t from rfl] at hseg
    rw [expand_replaceMark, hco]
    generalize expand σ' (segment o sc.t s B.w B.h o r.next inner) = seg at *
    have hne : ∀ e ∈ r.urs.eraseIdx ins.spaceId, e.2 ≠ mark := fun e he hem =>
      hmk1 (List.mem_map.mpr ⟨e, he, hem⟩)
    have F := hr.fill (Function.update σ' mark seg) (Function.update g2 mark (weight B
      + (((newSpaces sc.t s B.w B.h o).zipIdx r.next).map fun e => g2 e.2).sum)) ?_ ?_
    · rw [(hperm.map _).sum_eq, List.map_cons, List.sum_cons, Function.update_self,
        List.map_congr_left (g := fun e : Space × Nat => g2 e.2)
          (fun e he => Function.update_of_ne (hne e he) _ _)] at F
      have e1 : ((prune (fun e : Space × Nat => keep e.1) full).map fun e => g' e.2).sum
          = (full.map fun e => g2 e.2).sum := by
        rw [List.map_congr_left (g := fun e : Space × Nat => g2 e.2)
          (fun e he => (if_pos ⟨e, he, rfl⟩ : g2 e.2 = g' e.2).symm), (hpp.map _).sum_eq]
        refine sum_filter_zero (fun e : Space × Nat => g2 e.2) _ full fun e he hk => if_neg ?_
        rintro ⟨e', h3, h4⟩
        have : e' = e := List.inj_on_of_nodup_map fnodup (hsub e' h3) he h4
        subst this
        have := (List.mem_filter.mp (hpp.mem_iff.mp h3)).2
        rw [this] at hk
        cases hk
      have hkeys : ∀ p ∈ B.itemCopies, p.1 < n.copies.length := by
        intro p hp; rw [hn.len]; exact hinv.exist p hp
      have e2 : (⟨fun i => (addCopies n.copies B.itemCopies).getD i 0, n.profit + B.itemProfit⟩
          : Weight) = n.weight + weight B :=
        Prod.ext (funext fun i => addCopies_getD B.itemCopies n.copies hkeys i) rfl
      rw [e1, ← hfull, List.map_append, List.sum_append, hco]
      show FillsO _ _ _ _ _ _ _ ((⟨fun i => (addCopies n.copies B.itemCopies).getD i 0,
        n.profit + B.itemProfit⟩ : Weight) + _)
      rw [e2]
      refine cast ?_ F
      congr 1
      abel
    · intro k hk hkn
      have hkm : k ≠ mark := fun he => hkn (s, mark) (List.mem_of_getElem? hurs) he.symm
      rw [Function.update_of_ne hkm]
      refine h1 k (by omega) fun e he hek => ?_
      have he := hsub e he
      rw [← hfull] at he
      rcases List.mem_append.mp he with he | he
      · exact hkn e (herase e he) hek
      · have := (z2 e he).1
        omega
    · intro e he
      rcases List.mem_cons.mp (hperm.mem_iff.mp he) with rfl | he
      · dsimp only
        rw [Function.update_self, Function.update_self]
        exact hseg
      · rw [Function.update_of_ne (hne e he), Function.update_of_ne (hne e he)]
        exact hall e (by rw [← hfull]; exact List.mem_append_left _ he)

/-- The replay of every state. -/
theorem reached_replay (h : sc.Ok) (hp : PosItems sc.inst)
    (hm : ∀ k c, sc.blocks[k]? = some c → Block.Made sc.inst sc.bt (sc.blocks.take k) c)
    (hg : Gapless sc.inst.parameters.cutThickness sc.blocks) (ho : o ≠ .any)
    (hr : Reached sc n) (hco : ∀ p ∈ n.placed, p.co = o) :
    ∃ r, n.placed.foldlM (sc.replayStep o) sc.replayStart = .ok r ∧ RInv sc bt b o n r := by
  induction hr with
  | root => exact ⟨_, rfl, rinv_start⟩
  | @child n n' ins hr hi ha ih =>
    have hn := reached_inv h hr
    obtain ⟨s, hb, hs, hv, -⟩ := mem_insertions.mp hi
    have hap := apply_eq hs ((hn.valid _).mp hv).1
    have hpl : n'.placed = n.placed
        ++ [{ blockId := ins.blockId, x := s.x, y := s.y, co := ins.co }] := by
      rw [hap] at ha; cases ha; rfl
    rw [hpl] at hco
    obtain ⟨r, e, hr'⟩ := ih fun p hp => hco p (List.mem_append_left _ hp)
    obtain ⟨p, r', h1, h2, h3, h4⟩ := rinv_step h hp hm hg ho hn hr' hi
      (hco _ (List.mem_append_right _ (List.mem_singleton.mpr rfl))) ha
    refine ⟨r', ?_, h4⟩
    rw [h1, List.foldlM_append, e]
    show (sc.replayStep o r p >>= fun r => pure r) = _
    rw [h3]; rfl

/-- All the blocks of a state are placed with the same direction of the first cuts. -/
theorem reached_co (hr : Reached sc n) :
    (∀ p ∈ n.placed, p.co = sc.orientation n) ∧ sc.orientation n ≠ .any
      ∧ ((n.placed = [] ∧ n.spaces.length = 1) ∨ ∀ s ∈ n.spaces, s.co = sc.orientation n) := by
  induction hr with
  | root => exact ⟨by simp [Scheme.root], by simp [Scheme.orientation, Scheme.root], .inl ⟨rfl, rfl⟩⟩
  | @child n n' ins hr hi ha ih =>
    obtain ⟨i1, i2, i3⟩ := ih
    obtain ⟨s, hb, hs, hv, -, -, -, hco⟩ := mem_insertions.mp hi
    have hne : ins.co ≠ .any ∧ (n.placed ≠ [] → ins.co = sc.orientation n) := by
      split at hco
      next hany =>
        refine ⟨by rcases hco with h | h <;> rw [h] <;> decide, fun hpl => ?_⟩
        have := (i3.resolve_left fun h => hpl h.1) s (List.mem_of_getElem? hs)
        rw [hany] at this
        exact absurd this.symm i2
      next hany =>
        refine ⟨by rw [hco]; exact hany, fun hpl => ?_⟩
        rw [hco]
        exact (i3.resolve_left fun h => hpl h.1) s (List.mem_of_getElem? hs)
    unfold Scheme.apply at ha
    rw [hs] at ha
    cases hbl : sc.blocks[ins.blockId]? with
    | none => rw [hbl] at ha; cases ha
    | some B =>
      rw [hbl] at ha
      cases ha
      have ho : sc.orientation { n with placed := n.placed ++ [⟨ins.blockId, s.x, s.y, ins.co⟩] }
          = ins.co := by
        unfold Scheme.orientation
        cases hpl : n.placed with
        | nil => rfl
        | cons p l =>
          rw [hne.2 (by rw [hpl]; simp)]
          unfold Scheme.orientation
          rw [hpl]; rfl
      have hold : ∀ p ∈ n.placed, p.co = ins.co := by
        intro p hp
        rw [i1 p hp, hne.2 (List.ne_nil_of_mem hp)]
      refine ⟨?_, ?_, .inr ?_⟩
      · intro p hp
        refine Eq.trans ?_ ho.symm
        rcases List.mem_append.mp hp with hp | hp
        · exact hold p hp
        · rw [List.mem_singleton.mp hp]
      · intro h; exact hne.1 (ho.symm.trans h)
      · intro e he
        refine Eq.trans ?_ ho.symm
        have he := List.mem_of_mem_filter ((prune_perm _ _).mem_iff.mp he)
        rcases List.mem_append.mp he with he | he
        · rcases i3 with ⟨-, hone⟩ | i3
          · exfalso
            have hk := (List.getElem?_eq_some_iff.mp hs).1
            have : (n.spaces.eraseIdx ins.spaceId).length = 0 := by
              rw [List.length_eraseIdx_of_lt hk]; omega
            rw [List.length_eq_zero_iff.mp this] at he
            cases he
          · have hmem := List.mem_of_mem_eraseIdx he
            rw [i3 e hmem]
            split at hco
            next hany =>
              have := i3 s (List.mem_of_getElem? hs)
              rw [hany] at this
              exact absurd this.symm i2
            next =>
              rw [hco]
              exact (i3 s (List.mem_of_getElem? hs)).symm
        · exact newSpaces_co e he

/-- A direction of the first cuts that is asked for is kept. -/
theorem reached_first (hf : sc.first ≠ .any) (hr : Reached sc n) :
    (∀ s ∈ n.spaces, s.co = sc.first) ∧ ∀ p ∈ n.placed, p.co = sc.first := by
  induction hr with
  | root =>
    refine ⟨fun s hs => ?_, by simp [Scheme.root]⟩
    rw [List.mem_singleton.mp (show s ∈ [sc.rootSpace] from hs)]
    rfl
  | @child n n' ins hr hi ha ih =>
    obtain ⟨i1, i2⟩ := ih
    obtain ⟨s, hb, hs, hv, -, -, -, hco⟩ := mem_insertions.mp hi
    have hsc := i1 s (List.mem_of_getElem? hs)
    rw [hsc, if_neg hf] at hco
    unfold Scheme.apply at ha
    rw [hs] at ha
    cases hbl : sc.blocks[ins.blockId]? with
    | none => rw [hbl] at ha; cases ha
    | some B =>
      rw [hbl] at ha
      cases ha
      refine ⟨fun e he => ?_, fun p hp => ?_⟩
      · have he := List.mem_of_mem_filter ((prune_perm _ _).mem_iff.mp he)
        rcases List.mem_append.mp he with he | he
        · exact i1 e (List.mem_of_mem_eraseIdx he)
        · rw [newSpaces_co e he, hco]
      · rcases List.mem_append.mp hp with hp | hp
        · exact i2 p hp
        · rw [List.mem_singleton.mp hp, hco]

end

end PackingSolver.Guil.Spaces
