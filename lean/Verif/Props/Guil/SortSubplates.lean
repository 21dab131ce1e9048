import Verif.Lemmas.Guil.SortOrder
import Verif.Lemmas.Guil.SortLengths
import Verif.Props.Guil.Minimize

/-!
# The subplates of guillotine solutions sorted afterwards

Property C119.
-/

namespace PackingSolver.Guil

open Guil.Spec
open PostProcess SortSubplates

/-! ## The comparison -/

/-- **C119**: the comparison of two products of 64-bit numbers is exact, although their products do
not fit into 64 bits. -/
theorem sort_products_exact {a b c d : Int} (ha : 0 ≤ a ∧ a < 2 ^ 64) (hb : 0 ≤ b ∧ b < 2 ^ 64)
    (hc : 0 ≤ c ∧ c < 2 ^ 64) (hd : 0 ≤ d ∧ d < 2 ^ 64) : mulLess a b c d = true ↔ a * b < c * d :=
  mulLess_iff ha hb hc hd

/-- **C119**: for subplates with areas of 64 bits the comparison of the sort is the lexicographic
one by the criteria. -/
theorem sort_comparison {a b : NodeLengths} (ha : Measured a) (hb : Measured b)
    (criteria : List Criterion) : comesBefore criteria a b = true ↔ WorthMore criteria a b :=
  comesBefore_iff ha hb criteria

section
variable {inst : Instance} {s s' : Solution} {criteria : List Criterion}

theorem sized_type (hs : ∀ bt ∈ inst.binTypes, Sized bt) {b : Nat}
    (hb : b < inst.numberOfBinTypes) : Sized (inst.binType b) :=
  hs _ (binType_mem hb)

theorem sizes_places (nodes : List Node) : sizes nodes = (places nodes).map size := by
  unfold sizes places
  rw [List.map_map]
  rfl

theorem cutInOrder_below (nodes : List Node) (kids : Nat → List Nat) : ∀ fuel a,
    cutInOrder nodes kids fuel a = below nodes kids fuel a := by
  intro fuel
  induction fuel with
  | zero => intro a; rfl
  | succ fuel ih =>
    intro a
    unfold cutInOrder below
    refine List.flatMap_congr fun k _ => ?_
    rw [ih]
    rfl

/-- **C119**: the lengths, the waste and the area by which subplates are compared are those of their
items and parts. -/
theorem sort_lengths (hct : 0 ≤ inst.parameters.cutThickness) (hs : ∀ bt ∈ inst.binTypes, Sized bt)
    (h : Composed inst s) {bin : SolutionBin} (hb : bin ∈ s.bins) {i : Nat}
    (hr : effectiveRoot bin.nodes ≤ i) (hi : i < bin.nodes.length) :
    IsLengths bin.firstCutOrientation bin.nodes
      (fun j => (computeNodeLengths bin.firstCutOrientation bin.nodes).getD j default) i
      (bin.nodes.getD i default) := by
  have hcut := composed_cut hct h bin hb
  have hsz := sized_type hs hcut.type_lt
  rw [effectiveRoot_eq hsz hcut.tree] at hr
  exact hcut.wellCut.lengths hr hi (hcut.tree.depth_pos i hr hi).1

/-- **C119**: the parts of a subplate are cut in an order that is a rearrangement of those with
content, in which no part comes after one that is worth less, and parts of the same worth keep their
order.  `effectiveRoot` is the part of the bin inside its hard trims. -/
theorem sort_order (hct : 0 ≤ inst.parameters.cutThickness) (hs : ∀ bt ∈ inst.binTypes, Sized bt)
    (harea : ∀ bt ∈ inst.binTypes, bt.w * bt.h < 2 ^ 63) (h : Composed inst s) {bin : SolutionBin}
    (hb : bin ∈ s.bins) {a : Nat}
    (hr : effectiveRoot bin.nodes ≤ a)
    (lengths : Nat → NodeLengths)
    (hl : lengths = fun i => (computeNodeLengths bin.firstCutOrientation bin.nodes).getD i default) :
    (sortedKids bin.nodes (computeNodeLengths bin.firstCutOrientation bin.nodes) criteria a).Perm
        (contentKids bin.nodes a)
    ∧ (sortedKids bin.nodes (computeNodeLengths bin.firstCutOrientation bin.nodes) criteria a).Pairwise
        (fun i j => ¬ WorthMore criteria (lengths j) (lengths i))
    ∧ ∀ i j, [i, j].Sublist (contentKids bin.nodes a) →
        criteria.map (worth (lengths i)) = criteria.map (worth (lengths j)) →
        [i, j].Sublist (sortedKids bin.nodes
          (computeNodeLengths bin.firstCutOrientation bin.nodes) criteria a) := by
  subst hl
  dsimp only
  have hcut := composed_cut hct h bin hb
  have hsz := sized_type hs hcut.type_lt
  rw [effectiveRoot_eq hsz hcut.tree] at hr
  have hbig := harea _ (binType_mem hcut.type_lt)
  have hm : ∀ k ∈ contentKids bin.nodes a,
      Measured ((computeNodeLengths bin.firstCutOrientation bin.nodes).getD k default) := by
    intro k hk
    obtain ⟨k1, k2, -⟩ := hcut.wellCut.kid hr (List.mem_filter.mp hk).1
    exact hcut.wellCut.measured hsz hct hbig (by omega) k2
  generalize computeNodeLengths bin.firstCutOrientation bin.nodes = lengths at hm
  obtain ⟨key, hkey⟩ : ∃ key : Nat → List ℚ, key = fun i => criteria.map (worth (lengths.getD i default)) :=
    ⟨_, rfl⟩
  have hsort : sortedKids bin.nodes lengths criteria a
      = (contentKids bin.nodes a).insertionSort fun i j => key j ≤ key i := by
    have := List.map_insertionSort (s := fun i j => key j ≤ key i)
      (fun i j => comesBefore criteria (lengths.getD j default) (lengths.getD i default) = false)
      id (contentKids bin.nodes a) (by
        intro i hi j hj
        have h1 := comesBefore_iff (hm j hj) (hm i hi) criteria
        unfold WorthMore at h1
        rw [← Bool.not_eq_true, h1, hkey]
        exact not_lt)
    rw [List.map_id, List.map_id] at this
    exact this
  have : IsTrans Nat fun i j => key j ≤ key i := ⟨fun i j k h1 h2 => le_trans h2 h1⟩
  have : Std.Total fun i j => key j ≤ key i := ⟨fun i j => le_total _ _⟩
  refine ⟨sortedKids_perm _ _ _, ?_, ?_⟩
  · rw [hsort]
    refine (List.pairwise_insertionSort (fun i j => key j ≤ key i) _).imp fun {i j} hij => ?_
    rw [hkey] at hij
    exact not_lt.mpr hij
  · intro i j hij heq
    rw [hsort]
    refine List.pair_sublist_insertionSort ?_ hij
    rw [hkey]
    exact heq.ge

/-! ## The result -/

/-- One bin. -/
theorem sortStep_built (hct : 0 ≤ inst.parameters.cutThickness)
    (hs : ∀ bt ∈ inst.binTypes, Sized bt) (h : Composed inst s) {bin : SolutionBin}
    (hb : bin ∈ s.bins) (ho : bin.firstCutOrientation ≠ .any) (hi : ItemsCutOut bin) {D : Int}
    (hD : ∀ n ∈ bin.nodes, n.d ≤ D) :
    ∃ ops nodes', binOps inst.parameters.cutThickness criteria bin = some ops
      ∧ bin.binTypeId < inst.numberOfBinTypes
      ∧ nodesRun inst bin.firstCutOrientation
        (initialNodes (inst.binType bin.binTypeId) bin.binTypeId) ops = some nodes'
      ∧ (sizes nodes' = cutInOrder bin.nodes (sortedKids bin.nodes
          (computeNodeLengths bin.firstCutOrientation bin.nodes) criteria) (bin.nodes.length + 1)
          (effectiveRoot bin.nodes)
        ∧ (sizes nodes').Perm (sizes bin.nodes)) ∧ Shallow D ops := by
  have hc := composed_cut hct h bin hb
  have hsz := sized_type hs hc.type_lt
  have hroot := hc.tree.root.2.1
  rw [(initialNodes_base hsz bin.binTypeId).2] at hroot
  obtain ⟨ops, nodes', e1, e2, e0, e3, e4⟩ := binOps_run hsz hc.wellCut
    (fun hf => hi _ (nd_mem hc.tree.base_lt) hf hroot) hct ho criteria hD
  rw [← sizes_places, ← sizes_places] at e3
  rw [← sizes_places, ← effectiveRoot_eq hsz hc.tree, ← cutInOrder_below] at e0
  exact ⟨ops, nodes', e1, hc.type_lt, e2, ⟨e0, e3⟩, e4⟩

/-- The bins of the result. -/
theorem sort_bins (hct : 0 ≤ inst.parameters.cutThickness)
    (hs : ∀ bt ∈ inst.binTypes, Sized bt) (hc : Composed inst s)
    (ho : ∀ bin ∈ s.bins, bin.firstCutOrientation ≠ .any) (hi : ∀ bin ∈ s.bins, ItemsCutOut bin)
    (h : sortSubplates inst criteria s = .ok s') :
    List.Forall₂ (fun p p' : Plate => p'.binTypeId = p.binTypeId ∧ p'.copies = p.copies
      ∧ p'.orientation = p.orientation
      ∧ sizes p'.nodes = cutInOrder p.nodes (sortedKids p.nodes
          (computeNodeLengths p.orientation p.nodes) criteria) (p.nodes.length + 1)
          (effectiveRoot p.nodes)
      ∧ (sizes p'.nodes).Perm (sizes p.nodes)) (plates s) (plates s') := by
  have key : ∀ (l : List SolutionBin), (∀ b ∈ l, b ∈ s.bins) → ∀ (done : List SolutionBin) r r',
      List.Forall₂ (fun (b : SolutionBin) d => d.1 = b.binTypeId ∧ d.2.1 = b.copies
        ∧ d.2.2.2.1 = b.firstCutOrientation ∧ (d.2.2.1.map size = cutInOrder b.nodes (sortedKids b.nodes
            (computeNodeLengths b.firstCutOrientation b.nodes) criteria) (b.nodes.length + 1)
            (effectiveRoot b.nodes)
          ∧ (d.2.2.1.map size).Perm (sizes b.nodes)))
        done (r.bins.map digest) →
      l.foldlM (sortStep inst criteria) r = .ok r' →
      List.Forall₂ (fun (b : SolutionBin) d => d.1 = b.binTypeId ∧ d.2.1 = b.copies
        ∧ d.2.2.2.1 = b.firstCutOrientation ∧ (d.2.2.1.map size = cutInOrder b.nodes (sortedKids b.nodes
            (computeNodeLengths b.firstCutOrientation b.nodes) criteria) (b.nodes.length + 1)
            (effectiveRoot b.nodes)
          ∧ (d.2.2.1.map size).Perm (sizes b.nodes)))
        (done ++ l) (r'.bins.map digest) := by
    intro l
    induction l with
    | nil =>
      intro _ done r r' hd hr
      cases hr
      rw [List.append_nil]
      exact hd
    | cons bin l ih =>
      intro hm done r r' hd hr
      rw [List.foldlM_cons] at hr
      obtain ⟨r1, h1, h2⟩ := bind_ok.mp hr
      have hb := hm bin (by simp)
      rw [show done ++ bin :: l = (done ++ [bin]) ++ l by simp]
      refine ih (fun b hb => hm b (by simp [hb])) _ r1 r' ?_ h2
      obtain ⟨D, hD⟩ : ∃ D : Int, ∀ n ∈ bin.nodes, n.d ≤ D := exists_depth bin.nodes
      obtain ⟨ops, nodes', e1, e2, e3, e4, -⟩ := sortStep_built (criteria := criteria) hct hs hc hb
        (ho bin hb) (hi bin hb) hD
      unfold sortStep at h1
      rw [e1] at h1
      dsimp only at h1
      obtain ⟨sb, h3, h4⟩ := bind_ok.mp h1
      obtain ⟨built, h5, h6⟩ := bind_ok.mp h4
      obtain ⟨-, bx, k1, k2, -, k4, k5, -⟩ := single_bin_built e2 e3 h3 h5
      obtain ⟨old, nodes, g1, -, -, g4⟩ := appendBin_digest h6
      rw [k1] at g1
      cases g1
      rw [g4]
      refine List.rel_append hd (.cons ⟨k2, rfl, k4, ?_⟩ .nil)
      dsimp only
      rw [k5, places_residual, places_finish, ← sizes_places]
      exact e4
  have hk := key s.bins (fun _ hb => hb) [] _ _ .nil h
  rw [List.nil_append, List.forall₂_map_right_iff] at hk
  unfold plates
  rw [List.forall₂_map_left_iff, List.forall₂_map_right_iff]
  refine hk.imp fun b b' hb => ?_
  obtain ⟨b1, b2, b3, b4⟩ := hb
  exact ⟨b1, b2, b3, by rw [sizes_places]; exact b4⟩

/-- **C119**: if the sorting of a solution composed of bins of the solution builder returns, then
the result has the same bins in the same order: each of the same type, with the same number of
copies, the same orientation of the first cuts, and items of the same types with the same widths and
heights, so that none is lost, added or rotated. -/
theorem sort_keeps_items (hct : 0 ≤ inst.parameters.cutThickness)
    (hs : ∀ bt ∈ inst.binTypes, Sized bt) (hc : Composed inst s)
    (ho : ∀ bin ∈ s.bins, bin.firstCutOrientation ≠ .any) (hi : ∀ bin ∈ s.bins, ItemsCutOut bin)
    (h : sortSubplates inst criteria s = .ok s') :
    List.Forall₂ (fun p p' : Plate => p'.binTypeId = p.binTypeId ∧ p'.copies = p.copies
      ∧ p'.orientation = p.orientation ∧ (sizes p'.nodes).Perm (sizes p.nodes))
      (plates s) (plates s') :=
  (sort_bins hct hs hc ho hi h).imp fun _ _ hp => ⟨hp.1, hp.2.1, hp.2.2.1, hp.2.2.2.2⟩

/-- **C119**: the result lists the items in the order in which they are cut if the parts of every
subplate are cut in the order of `sort_order`. -/
theorem sort_result_order (hct : 0 ≤ inst.parameters.cutThickness)
    (hs : ∀ bt ∈ inst.binTypes, Sized bt) (hc : Composed inst s)
    (ho : ∀ bin ∈ s.bins, bin.firstCutOrientation ≠ .any) (hi : ∀ bin ∈ s.bins, ItemsCutOut bin)
    (h : sortSubplates inst criteria s = .ok s') :
    List.Forall₂ (fun p p' : Plate => sizes p'.nodes = cutInOrder p.nodes (sortedKids p.nodes
        (computeNodeLengths p.orientation p.nodes) criteria) (p.nodes.length + 1)
        (effectiveRoot p.nodes)) (plates s) (plates s') :=
  (sort_bins hct hs hc ho hi h).imp fun _ _ hp => hp.2.2.2.1

/-- **C119**: the result is again composed of bins of the solution builder, whatever solution is
sorted; its totals and its feasibility are right (C73). -/
theorem sort_composed (h : sortSubplates inst criteria s = .ok s') :
    Composed inst s' ∧ Assembled inst s' := by
  unfold sortSubplates at h
  refine foldlM_inv (P := fun r => Composed inst r ∧ Assembled inst r) ⟨.empty, .empty inst⟩ ?_ h
  intro bin r r' _ hr hstep
  unfold sortStep at hstep
  split at hstep
  · cases hstep
  · obtain ⟨sb, h3, h4⟩ := bind_ok.mp hstep
    obtain ⟨built, h5, h6⟩ := bind_ok.mp h4
    refine ⟨.append hr.1 (.built h3 h5) h6, .append hr.2 (inst' := inst) ?_ h6⟩
    rw [← runOrThrow_foldl h3] at h5
    exact .built h5

/-- **C119**: for a solution composed of bins of the solution builder the sorting returns, and no
bin needs more stages than its nodes are deep.  Partial: pieces of waste may be one unit wide. -/
theorem sort_returns_partial (hct : 0 ≤ inst.parameters.cutThickness)
    (hs : ∀ bt ∈ inst.binTypes, Sized bt) (ht : TablesOk inst)
    (hw : inst.parameters.minimumWasteLength ≤ 1) (hc : Composed inst s)
    (ho : ∀ bin ∈ s.bins, bin.firstCutOrientation ≠ .any) (hi : ∀ bin ∈ s.bins, ItemsCutOut bin) :
    ∃ s', sortSubplates inst criteria s = .ok s'
      ∧ List.Forall₂ (fun bin bin' : SolutionBin => ∀ D, 1 ≤ D → (∀ n ∈ bin.nodes, n.d ≤ D) →
        bin'.numberOfStagesReal ≤ D) s.bins s'.bins := by
  have key : ∀ (l : List SolutionBin), (∀ b ∈ l, b ∈ s.bins) → ∀ (done : List SolutionBin) r,
      r.minimumWasteLengthFeasible = true →
      List.Forall₂ (fun (b : SolutionBin) d => ∀ D, 1 ≤ D → (∀ n ∈ b.nodes, n.d ≤ D) →
        d.2.2.2.2 ≤ D) done (r.bins.map digest) →
      ∃ r', l.foldlM (sortStep inst criteria) r = .ok r' ∧
      List.Forall₂ (fun (b : SolutionBin) d => ∀ D, 1 ≤ D → (∀ n ∈ b.nodes, n.d ≤ D) →
        d.2.2.2.2 ≤ D) (done ++ l) (r'.bins.map digest) := by
    intro l
    induction l with
    | nil =>
      intro _ done r _ hd
      exact ⟨r, rfl, by rw [List.append_nil]; exact hd⟩
    | cons bin l ih =>
      intro hm done r hwr hd
      have hb := hm bin (by simp)
      obtain ⟨D0, hD0⟩ : ∃ D : Int, ∀ n ∈ bin.nodes, n.d ≤ D := exists_depth bin.nodes
      obtain ⟨ops, nodes', e1, e2, e3, e4, -⟩ := sortStep_built (criteria := criteria) hct hs hc hb
        (ho bin hb) (hi bin hb) hD0
      obtain ⟨sb, built, -, a1, -, a3, -, -⟩ := single_bin_solution e2 rfl hs ht hw e3
      obtain ⟨k0, bx, k1, k2, -, k4, k5, k6⟩ := single_bin_built e2 e3 a1 a3
      obtain ⟨r1, c1, c2, c3⟩ := appendBin_returns (s := r) (pos := 0) (copies := bin.copies)
        ht hs hw k0 (old := bx) (by rw [k1]; rfl) hwr
      obtain ⟨r', f1, f2⟩ := ih (fun b hb => hm b (by simp [hb])) (done ++ [bin]) r1 c2 (by
        rw [c3]
        refine List.rel_append hd (.cons ?_ .nil)
        intro D h1 hD
        dsimp only
        obtain ⟨ops2, nodes2, q1, -, q3, -, q5⟩ := sortStep_built (criteria := criteria) hct hs hc
          hb (ho bin hb) (hi bin hb) hD
        rw [e1] at q1
        cases q1
        rw [k6, k5]
        exact stagesReal_le (depthOk_residual (depthOk_finish _ (depthOk_run _ _ _ q5
          (depthOk_initial _ _ h1) e3))) (by omega))
      refine ⟨r', ?_, by rw [show done ++ bin :: l = (done ++ [bin]) ++ l by simp]; exact f2⟩
      rw [List.foldlM_cons]
      refine bind_ok.mpr ⟨r1, ?_, f1⟩
      unfold sortStep
      rw [e1]
      exact bind_ok.mpr ⟨sb, a1, bind_ok.mpr ⟨built, a3, c1⟩⟩
  obtain ⟨r, h1, h3⟩ := key s.bins (fun _ hb => hb) [] (.init inst) rfl .nil
  rw [List.nil_append, List.forall₂_map_right_iff] at h3
  exact ⟨r, h1, h3⟩

end

end PackingSolver.Guil
