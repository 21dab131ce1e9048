import Verif.Lemmas.Rect.ReduceSoundBoth
import Verif.Lemmas.Rect.ReduceBuilt

/-!
# The rounds of the reduction keep an invariant, and the translated solutions are valid
-/

namespace PackingSolver.Rect.Reduction

open Rect.Spec

variable {env : Env} {st st' : State} {inst : Instance}

/-! ## The loops over groups, for any invariant -/

/-- What the loops need of the attempts to keep an invariant `J`. -/
structure Steps (J : State → Prop) (Good : List Nat → Prop) (gatherBigs : State → List Nat)
    (attempt : State → List Nat → Except Err (Bool × State)) : Prop where
  tick : ∀ st, J st → J st.tick
  step : ∀ st bigs found st', J st → Good bigs → attempt st bigs = .ok (found, st') → J st'
  gather : ∀ st, J st → Good (gatherBigs st)
  single : ∀ l i, Good l → i ∈ l → Good [i]
  take : ∀ l n, Good l → Good (l.take n)

variable {J : State → Prop} {Good : List Nat → Prop} {gatherBigs : State → List Nat}
  {attempt : State → List Nat → Except Err (Bool × State)}

theorem singletons_steps (hA : Steps J Good gatherBigs attempt) :
    ∀ {l : List Nat} {found : Bool} {st : State} {r : Bool × Bool × State},
    singletons env attempt l found st = .ok r → J st → (∀ i ∈ l, Good [i]) → J r.2.2 := by
  intro l
  induction l with
  | nil => intro found st r h hJ _; cases h; exact hJ
  | cons i l ih =>
    intro found st r h hJ hl
    unfold singletons at h
    split_ifs at h with h1 h2
    · exact ih h hJ (fun j hj => hl j (List.mem_cons_of_mem _ hj))
    · cases h; exact hA.tick _ hJ
    · obtain ⟨⟨ok, st1⟩, h3, h⟩ := bind_ok.mp h
      exact ih h (hA.step _ _ _ _ (hA.tick _ hJ) (hl i List.mem_cons_self) h3)
        (fun j hj => hl j (List.mem_cons_of_mem _ hj))

theorem growing_steps (hA : Steps J Good gatherBigs attempt) {cands : List Nat}
    (hc : Good cands) : ∀ {ns : List Nat} {st : State} {r : Bool × Bool × State},
    growing env attempt cands ns st = .ok r → J st → J r.2.2 := by
  intro ns
  induction ns with
  | nil => intro st r h hJ; cases h; exact hJ
  | cons n ns ih =>
    intro st r h hJ
    unfold growing at h
    split_ifs at h with h2
    · cases h; exact hA.tick _ hJ
    · obtain ⟨⟨ok, st1⟩, h3, h⟩ := bind_ok.mp h
      have := hA.step _ _ _ _ (hA.tick _ hJ) (hA.take _ n hc) h3
      dsimp only at h
      split_ifs at h with h4
      · cases h; exact this
      · exact ih h this

theorem groupsLoop_steps (hA : Steps J Good gatherBigs attempt) :
    ∀ {fuel : Nat} {found : Bool} {st : State} {r : Bool × State},
    groupsLoop env gatherBigs attempt fuel found st = .ok r → J st → J r.2 := by
  intro fuel
  induction fuel with
  | zero => intro found st r h hJ; cases h; exact hJ
  | succ fuel ih =>
    intro found st r h hJ
    unfold groupsLoop at h
    dsimp only at h
    split_ifs at h with h1
    · cases h; exact hJ
    · obtain ⟨⟨stop, applied, st1⟩, h2, h⟩ := bind_ok.mp h
      have := growing_steps hA (hA.gather st hJ) h2 hJ
      dsimp only at h this
      split_ifs at h with h3 h4
      · cases h; exact this
      · exact ih h this
      · cases h; exact this

theorem passGroups_steps (hA : Steps J Good gatherBigs attempt) {fuel : Nat} {r : Bool × State}
    (h : passGroups env fuel gatherBigs attempt st = .ok r) (hJ : J st) : J r.2 := by
  unfold passGroups at h
  obtain ⟨⟨stop, found, st1⟩, h1, h⟩ := bind_ok.mp h
  have := singletons_steps hA h1 hJ (fun i hi => hA.single _ i (hA.gather st hJ) hi)
  dsimp only at h this
  split_ifs at h with h2
  · cases h; exact this
  · exact groupsLoop_steps hA h this

/-- What a round needs to keep an invariant. -/
structure RoundSteps (env : Env) (J : State → Prop) : Prop where
  wide : ∃ Good, Steps J Good (gather env .wide) (tryGroup env .wide)
  tall : ∃ Good, Steps J Good (gather env .tall) (tryGroup env .tall)
  both : ∃ Good, Steps J Good (gatherBoth env) (tryBoth env)
  full : ∀ st found st', J st → fullBins env st = .ok (found, st') → J st'
  pairs : ∀ st found st', J st → perfectPairs env st = .ok (found, st') → J st'

theorem round_steps (hR : RoundSteps env J) {fuel : Nat} {r : Bool × Bool × State}
    (h : round env fuel st = .ok r) (hJ : J st) : J r.2.2 := by
  obtain ⟨G1, hw⟩ := hR.wide
  obtain ⟨G2, ht⟩ := hR.tall
  obtain ⟨G3, hb⟩ := hR.both
  unfold round at h
  obtain ⟨⟨f1, st1⟩, h1, h⟩ := bind_ok.mp h
  have i1 := passGroups_steps hw h1 hJ
  dsimp only at h i1
  split_ifs at h
  · cases h; exact hw.tick _ i1
  obtain ⟨⟨f2, st2⟩, h2, h⟩ := bind_ok.mp h
  have i2 := passGroups_steps ht h2 (hw.tick _ i1)
  dsimp only at h i2
  split_ifs at h
  · cases h; exact hw.tick _ i2
  obtain ⟨⟨f3, st3⟩, h3, h⟩ := bind_ok.mp h
  have i3 := passGroups_steps hb h3 (hw.tick _ i2)
  dsimp only at h i3
  split_ifs at h
  · cases h; exact hw.tick _ i3
  obtain ⟨⟨f4, st4⟩, h4, h⟩ := bind_ok.mp h
  have i4 := hR.full _ _ _ (hw.tick _ i3) h4
  dsimp only at h i4
  split_ifs at h
  · cases h; exact hw.tick _ i4
  obtain ⟨⟨f5, st5⟩, h5, h⟩ := bind_ok.mp h
  cases h
  exact hR.pairs _ _ _ (hw.tick _ i4) h5

theorem rounds_steps (hR : RoundSteps env J) {fuel : Nat} : ∀ {n : Nat} {st st' : State},
    rounds env fuel n st = .ok st' → J st → J st' := by
  obtain ⟨G1, hw⟩ := hR.wide
  intro n
  induction n with
  | zero => intro st st' h hJ; cases h; exact hJ
  | succ n ih =>
    intro st st' h hJ
    unfold rounds at h
    split_ifs at h
    · cases h; exact hw.tick _ hJ
    · obtain ⟨⟨stop, found, st1⟩, h1, h⟩ := bind_ok.mp h
      have i1 := round_steps hR h1 (hw.tick _ hJ)
      dsimp only at h i1
      split_ifs at h
      · cases h; exact i1
      · exact ih h i1
      · cases h; exact i1

/-! ## The geometric invariant -/

theorem picked_gather {a : Bool} {P : Nat → WorkItem → Bool} (hl : st.items.length
      = env.inst.numberOfItemTypes)
    (hsort : ∀ lt l, (env.sort lt l).Perm l)
    (hP : ∀ i it, P i it = true → a = true → env.oriented i = true) (lt : Nat → Nat → Bool) :
    Picked env a (env.sort lt ((List.range st.items.length).filter fun i =>
      !(st.item i).removed && P i (st.item i))) := by
  have hp := hsort lt ((List.range st.items.length).filter fun i =>
      !(st.item i).removed && P i (st.item i))
  refine ⟨hp.nodup_iff.mpr (List.nodup_range.filter _), fun i hi => ?_⟩
  have := hp.subset hi
  rw [List.mem_filter, Bool.and_eq_true] at this
  exact ⟨by rw [← hl]; exact List.mem_range.mp this.1, hP _ _ this.2.2⟩

theorem isBig_oriented {a : Axis} {i : Nat} {it : WorkItem} (h : isBig env a i it = true) :
    env.oriented i = true := by
  unfold isBig at h
  cases ho : env.oriented i
  · rw [ho] at h; simp at h
  · rfl

theorem picked_single {a : Bool} {l : List Nat} {i : Nat} (h : Picked env a l) (hi : i ∈ l) :
    Picked env a [i] :=
  ⟨List.nodup_singleton i, fun j hj => by rw [List.mem_singleton.mp hj]; exact h.2 i hi⟩

theorem picked_take {a : Bool} {l : List Nat} (n : Nat) (h : Picked env a l) :
    Picked env a (l.take n) :=
  ⟨h.1.sublist (List.take_sublist _ _), fun j hj => h.2 j (List.mem_of_mem_take hj)⟩

theorem geo_steps (hsolve : ∀ t ops inst, InstanceBuilder.runOps ops = .ok inst →
      ValidPacking inst (env.solve t inst)) (hsort : ∀ lt l, (env.sort lt l).Perm l) :
    RoundSteps env (Geo env) where
  wide := ⟨Picked env true, fun _ h => h.tick, fun _ _ _ _ hG hb h => tryGroup_geo hG hb hsolve h,
    fun _ hG => picked_gather hG.items.len hsort (fun _ _ h _ => isBig_oriented h) _,
    fun _ _ h hi => picked_single h hi, fun _ n h => picked_take n h⟩
  tall := ⟨Picked env true, fun _ h => h.tick, fun _ _ _ _ hG hb h => tryGroup_geo hG hb hsolve h,
    fun _ hG => picked_gather hG.items.len hsort (fun _ _ h _ => isBig_oriented h) _,
    fun _ _ h hi => picked_single h hi, fun _ n h => picked_take n h⟩
  both := ⟨Picked env false, fun _ h => h.tick, fun _ _ _ _ hG hb h => tryBoth_geo hG hb hsolve h,
    fun _ hG => picked_gather hG.items.len hsort (fun _ _ _ h => by simp at h) _,
    fun _ _ h hi => picked_single h hi, fun _ n h => picked_take n h⟩
  full := fun _ _ _ hG h => fullBins_geo h hG
  pairs := fun _ _ _ hG h => perfectPairs_geo h hG

theorem start_geo (h : ∀ t ∈ env.inst.itemTypes, 0 < t.x ∧ 0 < t.y) :
    Geo env (start env.inst) := by
  refine ⟨⟨by unfold start Instance.numberOfItemTypes; simp, fun i hi => ?_⟩,
    ⟨by simp [start], by simp [start], by simp [start]⟩⟩
  have hi' : i < env.inst.itemTypes.length := by unfold start at hi; simpa using hi
  have hm : env.inst.itemType i ∈ env.inst.itemTypes := by
    unfold Instance.itemType
    rw [List.getD_eq_getElem _ _ hi']; exact List.getElem_mem _
  have hit : (start env.inst).item i =
      ⟨false, (env.inst.itemType i).x, (env.inst.itemType i).y, (env.inst.itemType i).copies, []⟩ := by
    unfold start State.item Instance.itemType
    rw [List.getD_eq_getElem _ _ (by simpa using hi'), List.getElem_map,
      List.getD_eq_getElem _ _ hi']
  rw [hit]
  exact ⟨hi', h _ hm, ⟨le_refl _, le_refl _⟩, fun _ => ⟨rfl, rfl⟩, by simp⟩

/-! ## The translated solution -/

theorem unreduceItems_expand {r : Result} :
    ∀ {ps : List PlacedItem} {next next' : List Nat} {items : List PlacedItem},
    unreduceItems r next ps = .ok (next', items) →
    ∃ l : List (PlacedItem × List Companion),
      l.map Prod.fst = (ps.map fun p => ⟨r.ids.getD p.itemTypeId 0, p.x + 0, p.y + 0, p.rotate⟩)
      ∧ (∀ q ∈ l, q.1.itemTypeId ∈ r.ids
        ∧ (q.2 = [] ∨ q.2 ∈ (r.st.item q.1.itemTypeId).companions))
      ∧ items = l.flatMap fun q => place q.1.itemTypeId q.1.x q.1.y q.1.rotate q.2 := by
  intro ps
  induction ps with
  | nil => intro next next' items h; cases h; exact ⟨[], rfl, by simp, rfl⟩
  | cons p ps ih =>
    intro next next' items h
    unfold unreduceItems at h
    split at h
    · cases h
    · rename_i i hi
      obtain ⟨⟨next1, cs⟩, h1, h⟩ := bind_ok.mp h
      obtain ⟨⟨next2, rest⟩, h2, h⟩ := bind_ok.mp h
      cases h
      obtain ⟨l, e1, e2, e3⟩ := ih h2
      have hd : r.ids.getD p.itemTypeId 0 = i := by
        rw [List.getD_eq_getElem?_getD, hi]; rfl
      refine ⟨(⟨i, p.x, p.y, p.rotate⟩, cs) :: l, ?_, fun q hq => ?_, ?_⟩
      · rw [List.map_cons, List.map_cons, e1, hd]
        simp
      · rcases List.mem_cons.mp hq with rfl | hq
        · refine ⟨List.mem_of_getElem? hi, ?_⟩
          split_ifs at h1 with c1
          · cases h1; exact Or.inl rfl
          · dsimp only at h1
            split at h1
            · rename_i x hx
              cases h1
              exact Or.inr (List.mem_of_getElem? hx)
            · cases h1
        · exact e2 q hq
      · rw [List.flatMap_cons, e3]

theorem unreduceBins_mem {r : Result} :
    ∀ {bs : List (Nat × List PlacedItem)} {next : List Nat} {out : List (Nat × List PlacedItem)},
    unreduceBins r next bs = .ok out →
    ∀ b ∈ out, ∃ b0 ∈ bs, b.1 = b0.1 ∧ ∃ n n', unreduceItems r n b0.2 = .ok (n', b.2) := by
  intro bs
  induction bs with
  | nil => intro next out h; cases h; simp
  | cons b0 bs ih =>
    intro next out h
    obtain ⟨t, items⟩ := b0
    unfold unreduceBins at h
    obtain ⟨⟨next1, items1⟩, h1, h⟩ := bind_ok.mp h
    obtain ⟨bs1, h2, h⟩ := bind_ok.mp h
    cases h
    intro b hb
    rcases List.mem_cons.mp hb with rfl | hb
    · exact ⟨(t, items), List.mem_cons_self, rfl, _, _, h1⟩
    · obtain ⟨b1, hb1, e⟩ := ih h2 b hb
      exact ⟨b1, List.mem_cons_of_mem _ hb1, e⟩

theorem mem_mapM_ok {α β : Type} {f : α → Except Err β} :
    ∀ {l : List α} {out : List β}, l.mapM f = .ok out → ∀ b ∈ out, ∃ a ∈ l, f a = .ok b := by
  intro l
  induction l with
  | nil => intro out h; rw [List.mapM_nil] at h; cases h; simp
  | cons a l ih =>
    intro out h b hb
    rw [List.mapM_cons] at h
    obtain ⟨b1, h1, h⟩ := bind_ok.mp h
    obtain ⟨bs, h2, h⟩ := bind_ok.mp h
    cases h
    rcases List.mem_cons.mp hb with rfl | hb
    · exact ⟨a, List.mem_cons_self, h1⟩
    · obtain ⟨a', ha', e⟩ := ih h2 b hb
      exact ⟨a', List.mem_cons_of_mem _ ha', e⟩

theorem companionsOf_ok {cs : List (List Companion)} {k : Nat} {l : List Companion}
    (h : companionsOf cs k = .ok l) : l ∈ cs := by
  unfold companionsOf at h
  split at h
  · rename_i x hx; cases h; exact List.mem_of_getElem? hx
  · cases h

theorem Tiles.binPacking {l : List PlacedItem} {w h : Int} {t : Nat}
    (ht : Tiles inst ⟨0, 0, w, h⟩ l) (hw : w ≤ (inst.binType t).x) (hh : h ≤ (inst.binType t).y) :
    BinPacking inst t l := by
  refine ⟨ht.exist, ht.rotation, fun p hp => ?_, ht.separated⟩
  have := ht.inside p hp
  unfold Sub at this
  unfold Inside
  dsimp only at this
  omega

/-- The bins of a translated solution are valid. -/
theorem unreducedBins_valid {r : Result} {sol : List PackedBin}
    {bins : List (Nat × List PlacedItem)} (hG : Geo env r.st) (hids : r.ids = survivors r.st)
    (hR : IsReduced env.inst r.st r.reduced)
    (hw : env.w ≤ (env.inst.binType 0).x) (hh : env.h ≤ (env.inst.binType 0).y)
    (hs : ∀ b ∈ sol, b.binTypeId < r.reduced.numberOfBinTypes
      ∧ BinPacking r.reduced b.binTypeId b.items)
    (h : unreducedBins r sol = .ok bins) : ∀ b ∈ bins, b.1 = 0 ∧ BinPacking env.inst 0 b.2 := by
  unfold unreducedBins at h
  obtain ⟨as, h1, h⟩ := bind_ok.mp h
  obtain ⟨bs, h2, h⟩ := bind_ok.mp h
  obtain ⟨cs, h3, h⟩ := bind_ok.mp h
  cases h
  intro b hb
  rcases List.mem_append.mp hb with hb | hb
  · obtain ⟨b0, hb0, e1, n, n', e2⟩ := unreduceBins_mem h1 b hb
    unfold expandCopies at hb0
    obtain ⟨p, hp, hb0⟩ := List.mem_flatMap.mp hb0
    have hb0 := List.eq_of_mem_replicate hb0
    obtain ⟨s1, s2⟩ := hs p hp
    have hz : p.binTypeId = 0 := by rw [hR.bins] at s1; omega
    rw [hb0] at e1 e2
    refine ⟨by rw [e1]; exact hz, ?_⟩
    obtain ⟨l, f1, f2, f3⟩ := unreduceItems_expand e2
    have hlaid := Laid.of_bin (inst := env.inst) (ids := r.ids) (size := r.st.item)
      (by rw [hids]; exact hR.items) (fun k hk => by
        have hk' : k < (survivors r.st).length := by rw [← hids]; exact hk
        have := hR.item k hk'
        simp only [hids]
        exact ⟨this.1, this.2.1, this.2.2.1⟩) s2 0 0
    dsimp only at f1
    rw [← f1, hz, hR.x, hR.y] at hlaid
    rw [f3]
    refine (hlaid.expand fun q hq => ?_).binPacking (le_refl _) (le_refl _)
    obtain ⟨g1, g2⟩ := f2 q hq
    have hlt : q.1.itemTypeId < r.st.items.length := by
      rw [hids] at g1
      unfold survivors at g1
      exact List.mem_range.mp (List.mem_filter.mp g1).1
    have hsd := hG.items.sound _ hlt
    refine ⟨hsd, ?_⟩
    rcases g2 with e | e
    · rw [e]; exact hsd.fit_nil
    · exact hsd.fit _ e
  · obtain ⟨l, hl, rfl⟩ := List.mem_map.mp hb
    refine ⟨rfl, Tiles.binPacking (w := env.w) (h := env.h) ?_ hw hh⟩
    rcases List.mem_append.mp hl with hl | hl
    · rcases List.mem_append.mp hl with hl | hl
      · obtain ⟨m, hm, hl⟩ := List.mem_flatten.mp hl
        obtain ⟨f, hf, e⟩ := mem_mapM_ok h2 m hm
        obtain ⟨k, -, e⟩ := mem_mapM_ok e l hl
        obtain ⟨c, e1, e⟩ := bind_ok.mp e
        cases e
        exact hG.reserved.full f hf c (companionsOf_ok e1)
      · obtain ⟨m, hm, hl⟩ := List.mem_flatten.mp hl
        obtain ⟨p, hp, e⟩ := mem_mapM_ok h3 m hm
        obtain ⟨k, -, e⟩ := mem_mapM_ok e l hl
        obtain ⟨c1, e1, e⟩ := bind_ok.mp e
        obtain ⟨c2, e2, e⟩ := bind_ok.mp e
        cases e
        exact hG.reserved.pair p hp c1 (companionsOf_ok e1) c2 (companionsOf_ok e2)
    · obtain ⟨g, hg, rfl⟩ := List.mem_map.mp hl
      exact hG.reserved.group g hg

end PackingSolver.Rect.Reduction
