import Verif.Lemmas.Guil.Minimize
import Verif.Props.Guil.PostProcess
import Verif.Props.Guil.Pattern

/-!
# The number of stages of guillotine solutions reduced afterwards

Property C118.
-/

namespace PackingSolver.Guil

open Guil.Spec
open PackingSolver.Spec (IsSortOf)
open PostProcess

section
variable {inst : Instance} {σ : Bool → List ItemPlacement → List ItemPlacement} {fuel : Nat}
  {s s' : Solution}

theorem placements_placeOf (nodes : List Node) : (placements nodes).map placeOf = places nodes := by
  unfold placements places
  rw [List.map_map]
  rfl

theorem buildGuillotineSolution_mem {b : Nat} {items : List ItemPlacement}
    (h : buildGuillotineSolution inst σ fuel b items = .ok s) (hne : s.bins.length > 0) :
    ∃ sols, buildGuillotineSolutions inst σ fuel b items = .ok sols ∧ s ∈ sols := by
  cases hs : buildGuillotineSolutions inst σ fuel b items with
  | error e =>
    unfold buildGuillotineSolution at h
    rw [hs] at h
    cases h
  | ok sols =>
    obtain ⟨s0, e0, e1, e2, -⟩ := guillotine_solution_best hs
    rw [h] at e0
    cases e0
    refine ⟨sols, rfl, ?_⟩
    by_cases hnil : sols = []
    · rw [e1 hnil] at hne
      exact absurd hne (by simp [Solution.init])
    · exact e2 hnil

/-- **C118**: whatever solution is given, if the post-processing that reduces the number of stages
returns, then the result has the same bins in the same order: each of the same type, with the same
number of copies, and with the same items at the same places. -/
theorem minimize_keeps_places (hσ : ∀ v l, (σ v l).Perm l) (hs : ∀ bt ∈ inst.binTypes, Sized bt)
    (h : minimizeNumberOfStages inst σ fuel s = .ok s') :
    List.Forall₂ (fun p p' : Plate => p'.binTypeId = p.binTypeId ∧ p'.copies = p.copies
      ∧ SamePlaces (places p'.nodes) (places p.nodes)) (plates s) (plates s') := by
  have key : ∀ n, n ≤ s.bins.length → ∀ r, (List.range n).foldlM (minimizeStep inst σ fuel s)
      (.init inst) = .ok r →
      List.Forall₂ (fun (b : SolutionBin) d => d.1 = b.binTypeId ∧ d.2.1 = b.copies
        ∧ SamePlaces d.2.2.1 (places b.nodes)) (s.bins.take n) (r.bins.map digest) := by
    intro n
    induction n with
    | zero =>
      intro _ r hr
      cases hr
      rw [List.take_zero]
      exact .nil
    | succ n ih =>
      intro hn r hr
      rw [List.range_succ, List.foldlM_append] at hr
      obtain ⟨r1, h1, h2⟩ := bind_ok.mp hr
      rw [List.foldlM_cons] at h2
      obtain ⟨r2, h3, h4⟩ := bind_ok.mp h2
      cases h4
      have hi := ih (by omega) r1 h1
      have hlt : n < s.bins.length := by omega
      rw [List.take_succ_eq_append_getElem hlt]
      unfold minimizeStep at h3
      rw [List.getD_eq_getElem _ _ hlt] at h3
      obtain ⟨bs, h5, h6⟩ := bind_ok.mp h3
      by_cases hl : bs.bins.length > 0
      · rw [if_pos hl] at h6
        obtain ⟨old, nodes, g1, -, -, g4⟩ := appendBin_digest h6
        obtain ⟨sols, k1, k2⟩ := buildGuillotineSolution_mem h5 hl
        obtain ⟨ops, o, nodes', m1, m2, -, m4⟩ := (guillotine_solutions_sound hσ hs k1).2 bs k2
        rw [placements_placeOf] at m4
        have hp : (plates bs)[0]? = some (plateOf old) := by
          unfold plates
          rw [List.getElem?_map, g1]; rfl
        rw [m2] at hp
        have hp' := Option.some.inj hp
        rw [g4]
        refine List.rel_append hi (.cons ⟨?_, rfl, ?_⟩ .nil)
        · exact (congrArg Plate.binTypeId hp').symm
        · show SamePlaces (places old.nodes) _
          rw [show old.nodes = nodes' from (congrArg Plate.nodes hp').symm]
          exact m4
      · rw [if_neg hl] at h6
        obtain ⟨old, nodes, g1, -, -, g4⟩ := appendBin_digest h6
        rw [List.getElem?_eq_getElem hlt] at g1
        cases g1
        rw [g4]
        exact List.rel_append hi (.cons ⟨rfl, rfl, .refl _⟩ .nil)
  have hk := key _ (le_refl _) _ h
  rw [List.take_length] at hk
  unfold plates
  rw [List.forall₂_map_right_iff] at hk
  rw [List.forall₂_map_left_iff, List.forall₂_map_right_iff]
  exact hk

/-- **C118**: reducing the number of stages of a solution that a caller can obtain leads to one that
a caller can obtain, so that its totals and its feasibility are right (C73). -/
theorem minimize_assembled (hσ : ∀ v l, (σ v l).Perm l) (hs : ∀ bt ∈ inst.binTypes, Sized bt)
    (ha : Assembled inst s) (h : minimizeNumberOfStages inst σ fuel s = .ok s') :
    Assembled inst s' := by
  unfold minimizeNumberOfStages at h
  refine foldlM_inv (P := Assembled inst) (.empty inst) ?_ h
  intro pos r r' _ hr hstep
  unfold minimizeStep at hstep
  obtain ⟨bs, h5, h6⟩ := bind_ok.mp hstep
  by_cases hl : bs.bins.length > 0
  · rw [if_pos hl] at h6
    obtain ⟨sols, k1, k2⟩ := buildGuillotineSolution_mem h5 hl
    obtain ⟨ops, o, nodes', m1, -⟩ := (guillotine_solutions_sound hσ hs k1).2 bs k2
    exact .append hr (.built m1) h6
  · rw [if_neg hl] at h6
    exact .append hr ha h6

theorem stages_near {ops : List Op} (h : (SolutionBuilder.run inst ops).build inst = .ok s)
    {bin : SolutionBin} (hb : bin ∈ s.bins) :
    bin.numberOfStages ≤ bin.numberOfStagesReal
    ∧ (inst.parameters.cutType = .exact ∨ inst.parameters.cutType = .homogenous →
      bin.numberOfStages = bin.numberOfStagesReal) := by
  obtain ⟨b0, -, -, c, rfl⟩ := built_bin h hb
  unfold stageBin
  dsimp only
  refine ⟨by split_ifs <;> omega, fun hc => ?_⟩
  rcases hc with hc | hc <;> simp [hc]

/-- The items of a bin of a built solution fit where they are. -/
theorem placements_fit {ops : List Op} (h : (SolutionBuilder.run inst ops).build inst = .ok s)
    {bin : SolutionBin} (hb : bin ∈ s.bins) : ∀ p ∈ placements bin.nodes, Fits inst p := by
  obtain ⟨hd, -⟩ := built_real h hb
  intro p hp
  unfold placements at hp
  obtain ⟨n, hn, rfl⟩ := List.mem_map.mp hp
  obtain ⟨hn1, hn2⟩ := List.mem_filter.mp hn
  rw [Bool.and_eq_true, decide_eq_true_eq] at hn2
  obtain ⟨j, hj, rfl⟩ := mem_nd hn1
  obtain ⟨-, i, hi, he, hdim⟩ := hd.tree.items j hj hn2.1 hn2.2
  unfold Fits
  dsimp only at he hdim ⊢
  rw [he, Int.toNat_natCast]
  refine ⟨hi, ?_⟩
  unfold dimensionsOk at hdim
  simpa using hdim

/-- **C118**: for a solution of the solution builder the post-processing returns, and no bin gets
more than one additional stage; none at all if the first cuts of the bin were as the parameters
demand and the cut type does not count a stage for free.  Partial: the cuts have no thickness and
pieces of waste may be one unit wide; see `MinimizeEx.never_returns`. -/
theorem minimize_returns_partial (hct : inst.parameters.cutThickness = 0)
    (hσ : ∀ v l, IsSortOf (startsBefore v) l (σ v l)) (hs : ∀ bt ∈ inst.binTypes, Sized bt)
    (ht : TablesOk inst) (hw : inst.parameters.minimumWasteLength ≤ 1) {ops : List Op}
    (h : (SolutionBuilder.run inst ops).build inst = .ok s)
    (ho : ∀ bin ∈ s.bins, bin.firstCutOrientation ≠ .any)
    (hfuel : ∀ bin ∈ s.bins, bin.numberOfStagesReal + 2 ≤ fuel) :
    ∃ s', minimizeNumberOfStages inst σ fuel s = .ok s'
      ∧ List.Forall₂ (fun bin bin' : SolutionBin => OrientationOk inst bin'.firstCutOrientation
        ∧ bin'.numberOfStagesReal ≤ bin.numberOfStagesReal + 1
        ∧ (OrientationOk inst bin.firstCutOrientation →
          inst.parameters.cutType = .exact ∨ inst.parameters.cutType = .homogenous →
          bin'.numberOfStagesReal ≤ max bin.numberOfStagesReal 1)) s.bins s'.bins := by
  have hone : ∀ bin ∈ s.bins, ∃ bs ops' bin', buildGuillotineSolution inst σ fuel bin.binTypeId
      (placements bin.nodes) = .ok bs ∧ (SolutionBuilder.run inst ops').build inst = .ok bs
      ∧ bs.bins = [bin'] ∧ OrientationOk inst bin'.firstCutOrientation
        ∧ bin'.numberOfStagesReal ≤ bin.numberOfStagesReal + 1
        ∧ (OrientationOk inst bin.firstCutOrientation →
          inst.parameters.cutType = .exact ∨ inst.parameters.cutType = .homogenous →
          bin'.numberOfStagesReal ≤ max bin.numberOfStagesReal 1) := by
    intro bin hb
    obtain ⟨hd, hreal⟩ := built_real h hb
    have hreal0 : 0 ≤ bin.numberOfStagesReal := by
      rw [hreal]
      exact (stagesReal_ge bin.nodes bin.nodes 0).1
    have hsz : Sized (inst.binType bin.binTypeId) := by
      apply hs
      unfold Instance.binType
      rw [List.getD_eq_getElem _ _ hd.type_lt]
      exact List.getElem_mem _
    obtain ⟨L, hc, hsub⟩ := guillotine_pattern h hb (ho bin hb) hsz (by omega)
    rw [hct] at hc
    have hregs : (placements bin.nodes).map reg = (itemNodes bin).map region := by
      unfold placements itemNodes
      rw [List.map_map]
      rfl
    have hf := hfuel bin hb
    obtain ⟨sols, c1, c2, c3⟩ := guillotine_solutions_complete_partial (σ := σ)
      (items := placements bin.nodes) hct hσ hs ht hw hd.type_lt hc
      (by rw [hregs]; exact hsub.subperm) (placements_fit h hb) (fuel := fuel) (by omega)
    obtain ⟨k1, k2⟩ := guillotine_solutions_sound (fun v l => (hσ v l).1) hs c1
    obtain ⟨bs, e1, e2, e3, e4⟩ := guillotine_solution_best c1
    have hlen : sols.length ≤ 2 := by split_ifs at k1 <;> omega
    have hne : sols ≠ [] := by
      rintro rfl
      rw [List.map_nil] at c2
      split_ifs at c2
    have hmem := e3 hne
    have hbin : ∀ x ∈ sols, ∃ ops' bx, (SolutionBuilder.run inst ops').build inst = .ok x
        ∧ x.bins = [bx] ∧ OrientationOk inst bx.firstCutOrientation
        ∧ (bx.numberOfStages ≤ x.numberOfStages
          ∧ (x.numberOfStages = 0 ∨ x.numberOfStages = bx.numberOfStages)) := by
      intro x hx
      obtain ⟨ops', o, nodes, m1, m2, m3, -⟩ := k2 x hx
      have hx1 : x.bins.length = 1 := by
        have := congrArg List.length m2
        unfold plates at this
        rw [List.length_map] at this
        exact this
      obtain ⟨bx, hbx⟩ := List.length_eq_one_iff.mp hx1
      obtain ⟨-, -, -, -, -, -, tot⟩ := assembled_totals (.built m1)
      rw [hbx] at tot
      refine ⟨ops', bx, m1, hbx, ?_, ?_⟩
      · unfold plates at m2
        rw [hbx, List.map_singleton] at m2
        have := (List.cons.inj m2).1
        rw [show bx.firstCutOrientation = o from congrArg Plate.orientation this]
        exact m3
      · unfold IsMaxWithZero at tot
        simp only [List.map_singleton, List.mem_singleton] at tot
        obtain ⟨t1, t2, t3⟩ := tot
        exact ⟨t2 _ rfl, t3⟩
    obtain ⟨ops', bx, m1, m2, m3, m4, -⟩ := hbin bs hmem
    refine ⟨bs, ops', bx, e1, m1, m2, m3, ?_, fun hor hcut => ?_⟩
    · have := c3 bs hmem bx (by rw [m2]; simp)
      split_ifs at this <;> omega
    · have hx : ∃ x ∈ sols, x.bins.map (·.firstCutOrientation) = [bin.firstCutOrientation] := by
        have : [bin.firstCutOrientation] ∈ sols.map (fun s => s.bins.map (·.firstCutOrientation)) := by
          rw [c2]
          rcases hor with ⟨h0, h1 | h1⟩
          · rw [if_pos h1]
            revert h0
            cases bin.firstCutOrientation <;> simp
          · rw [if_neg (by rw [← h1]; exact h0), h1]
            simp
        obtain ⟨x, hx, he⟩ := List.mem_map.mp this
        exact ⟨x, hx, he⟩
      obtain ⟨x, hx, hxo⟩ := hx
      obtain ⟨opsx, bxx, x1, x2, -, x4, x5⟩ := hbin x hx
      rw [x2, List.map_singleton] at hxo
      have hxo' := (List.cons.inj hxo).1
      have r1 := c3 x hx bxx (by rw [x2]; simp)
      rw [hxo', if_pos rfl] at r1
      have r2 := e4 hlen x hx
      have r3 := (stages_near x1 (bin := bxx) (by rw [x2]; simp)).1
      have r4 := (stages_near m1 (bin := bx) (by rw [m2]; simp)).2 hcut
      omega
  have key : ∀ n, n ≤ s.bins.length → ∃ r, (List.range n).foldlM (minimizeStep inst σ fuel s)
      (.init inst) = .ok r ∧ r.minimumWasteLengthFeasible = true ∧
      List.Forall₂ (fun (bin : SolutionBin) d => OrientationOk inst d.2.2.2.1
        ∧ d.2.2.2.2 ≤ bin.numberOfStagesReal + 1
        ∧ (OrientationOk inst bin.firstCutOrientation →
          inst.parameters.cutType = .exact ∨ inst.parameters.cutType = .homogenous →
          d.2.2.2.2 ≤ max bin.numberOfStagesReal 1)) (s.bins.take n) (r.bins.map digest) := by
    intro n
    induction n with
    | zero =>
      intro _
      exact ⟨_, rfl, rfl, by rw [List.take_zero]; exact .nil⟩
    | succ n ih =>
      intro hn
      obtain ⟨r, h1, h2, h3⟩ := ih (by omega)
      have hlt : n < s.bins.length := by omega
      obtain ⟨bs, ops', bin', g1, g2, g3, g4, g5, g6⟩ := hone s.bins[n] (List.getElem_mem hlt)
      obtain ⟨r', a1, a2, a3⟩ := appendBin_returns (s := r) (pos := 0) (copies := s.bins[n].copies)
        ht hs hw g2 (old := bin') (by rw [g3]; rfl) h2
      refine ⟨r', ?_, a2, ?_⟩
      · rw [List.range_succ, List.foldlM_append]
        refine bind_ok.mpr ⟨r, h1, ?_⟩
        rw [List.foldlM_cons]
        refine bind_ok.mpr ⟨r', ?_, rfl⟩
        unfold minimizeStep
        rw [List.getD_eq_getElem _ _ hlt]
        refine bind_ok.mpr ⟨bs, g1, ?_⟩
        rw [if_pos (by rw [g3]; simp)]
        exact a1
      · rw [List.take_succ_eq_append_getElem hlt, a3]
        exact List.rel_append h3 (.cons ⟨g4, g5, g6⟩ .nil)
  obtain ⟨r, h1, -, h3⟩ := key _ (le_refl _)
  rw [List.take_length, List.forall₂_map_right_iff] at h3
  exact ⟨r, h1, h3⟩

end

end PackingSolver.Guil
