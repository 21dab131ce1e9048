import Verif.Lemmas.Rect.SpacesExport
import Verif.Model.Rect.Reduction

/-!
# The calls by which the translated solution is built
-/

namespace PackingSolver.Rect.Reduction

open Rect.Spec

variable {inst : Instance}

/-- All calls. -/
def allCalls (bins : List (Nat × List PlacedItem)) : List BuilderOp :=
  bins.zipIdx.flatMap fun p => binCalls p.2 p.1

theorem allCalls_snoc (bins : List (Nat × List PlacedItem)) (b : Nat × List PlacedItem) :
    allCalls (bins ++ [b]) = allCalls bins ++ binCalls bins.length b := by
  unfold allCalls
  rw [List.zipIdx_append, List.flatMap_append]
  simp

theorem modify_last {α : Type} (f : α → α) (b : α) (p : List α) :
    (p ++ [b]).modify p.length f = p ++ [f b] := by
  induction p with
  | nil => rfl
  | cons a p ih => simp [ih]

theorem opsPacking_calls (bins : List (Nat × List PlacedItem)) :
    opsPacking (allCalls bins) = bins.map fun b => ⟨b.1, 1, b.2⟩ := by
  induction bins using List.reverseRecOn with
  | nil => rfl
  | append_singleton bins b ih =>
    rw [allCalls_snoc]
    unfold opsPacking at ih ⊢
    rw [List.foldl_append, ih]
    have key : ∀ (l done : List PlacedItem) (p : Packing) (t : Nat),
        (l.map fun q => BuilderOp.addItem p.length q.itemTypeId q.x q.y q.rotate).foldl opStep
          (p ++ [⟨t, 1, done⟩]) = p ++ [⟨t, 1, done ++ l⟩] := by
      intro l
      induction l with
      | nil => intro done p t; simp
      | cons q l ih2 =>
        intro done p t
        rw [List.map_cons, List.foldl_cons]
        have := ih2 (done ++ [q]) p t
        rw [List.append_assoc] at this
        rw [show done ++ q :: l = done ++ ([q] ++ l) from rfl, ← this]
        congr 1
        unfold opStep
        dsimp only
        rw [modify_last]
    have := key b.2 [] (bins.map fun b => ⟨b.1, 1, b.2⟩) b.1
    rw [List.length_map] at this
    unfold binCalls
    rw [List.foldl_cons, List.map_append]
    exact this

theorem runOps_calls {bins : List (Nat × List PlacedItem)}
    (hb : ∀ b ∈ bins, b.1 < inst.numberOfBinTypes
      ∧ (∀ p ∈ b.2, p.itemTypeId < inst.numberOfItemTypes)
      ∧ ∀ p ∈ b.2, p.rotate = true → (inst.itemType p.itemTypeId).oriented = false) :
    ∃ sol, SolutionBuilder.runOps inst (allCalls bins) = .ok sol := by
  have key : ∀ (l : List PlacedItem) (sb : SolutionBuilder) (k : Nat), k < sb.sol.bins.length →
      (∀ p ∈ l, p.itemTypeId < inst.numberOfItemTypes) →
      (∀ p ∈ l, p.rotate = true → (inst.itemType p.itemTypeId).oriented = false) →
      ∃ sb', (l.map fun p => BuilderOp.addItem k p.itemTypeId p.x p.y p.rotate).foldlM
        (SolutionBuilder.step inst) sb = .ok sb' ∧ sb'.sol.bins.length = sb.sol.bins.length := by
    intro l
    induction l with
    | nil => intro sb k _ _ _; exact ⟨sb, rfl, rfl⟩
    | cons p l ih =>
      intro sb k h0 h1 h2
      obtain ⟨sb1, e⟩ := builder_accepts sb k p.itemTypeId p.x p.y p.rotate h0 (h1 p (by simp))
        (h2 p (by simp))
      have hlen : sb1.sol.bins.length = sb.sol.bins.length := by
        unfold SolutionBuilder.addItem at e
        split_ifs at e
        cases e
        simp
      obtain ⟨sb', h, h'⟩ := ih sb1 k (by omega) (fun q hq => h1 q (List.mem_cons_of_mem _ hq))
        (fun q hq => h2 q (List.mem_cons_of_mem _ hq))
      refine ⟨sb', ?_, by omega⟩
      rw [List.map_cons, List.foldlM_cons]
      exact bind_ok.mpr ⟨sb1, e, h⟩
  have all : ∀ (bins : List (Nat × List PlacedItem)), (∀ b ∈ bins, b.1 < inst.numberOfBinTypes
      ∧ (∀ p ∈ b.2, p.itemTypeId < inst.numberOfItemTypes)
      ∧ ∀ p ∈ b.2, p.rotate = true → (inst.itemType p.itemTypeId).oriented = false) →
      ∃ sb, (allCalls bins).foldlM (SolutionBuilder.step inst) (SolutionBuilder.new inst) = .ok sb
        ∧ sb.sol.bins.length = bins.length := by
    intro bins
    induction bins using List.reverseRecOn with
    | nil => intro _; exact ⟨_, rfl, rfl⟩
    | append_singleton bins b ih =>
      intro hb
      obtain ⟨sb, h1, h2⟩ := ih (fun c hc => hb c (List.mem_append_left _ hc))
      obtain ⟨b1, b2, b3⟩ := hb b (by simp)
      obtain ⟨sb0, e0⟩ : ∃ sb0, sb.addBin inst b.1 1 = .ok sb0 := by
        unfold SolutionBuilder.addBin
        rw [if_pos b1]
        exact ⟨_, rfl⟩
      have hlen : sb0.sol.bins.length = bins.length + 1 := by
        unfold SolutionBuilder.addBin at e0
        rw [if_pos b1] at e0
        cases e0
        simp [h2]
      obtain ⟨sb', h3, h4⟩ := key b.2 sb0 bins.length (by omega) b2 b3
      refine ⟨sb', ?_, by rw [h4, hlen]; simp⟩
      rw [allCalls_snoc, List.foldlM_append]
      refine bind_ok.mpr ⟨sb, h1, ?_⟩
      unfold binCalls
      rw [List.foldlM_cons]
      exact bind_ok.mpr ⟨sb0, e0, h3⟩
  obtain ⟨sb, h1, -⟩ := all bins hb
  have hraw := raw_ops _ sb h1
  rw [opsPacking_calls] at hraw
  obtain ⟨sol, h2⟩ := build_succeeds hraw (by
    intro k hk
    obtain ⟨b, hbm, rfl⟩ := List.mem_map.mp hk
    exact ⟨(hb b hbm).1, (hb b hbm).2.1⟩)
  exact ⟨sol, bind_ok.mpr ⟨sb, h1, h2⟩⟩

end PackingSolver.Rect.Reduction
