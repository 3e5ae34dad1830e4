import Verif.Lemmas.Frames

/-! A successful `update` cut into its stages. -/

set_option linter.unusedSectionVars false

namespace Norfair

variable {K L D F X : Type}

section
variable [LinearOrder K] [Zero K] [LinearOrder D] [OrderTop D] [Zero D] [DecidableEq L]

/-- the objects of the first stage: initialized and alive -/
def stage1Keys (cfg : Cfg K L D F X) (ct : Option (CoordTrans K)) (w : World K L D F X) : List Nat :=
  (advance cfg ct w).keysWhere (aliveKeys cfg w.objs) (fun o => !o.isInit)

/-- the intermediate states of a successful `updateCore` -/
structure Stages (cfg : Cfg K L D F X) (w : World K L D F X) (dets : List Ref) (period : Int)
    (ct : Option (CoordTrans K)) (w1 w2 w3 w' : World K L D F X) (out1 out2 : StageOut Ref)
    (ks2 ks3 : List Nat) (m3 : List (Nat × Nat)) : Prop where
  s1 : stageDet cfg period (advance cfg ct w) (stage1Keys cfg ct w) dets = (w1, .ok out1)
  ks2eq : ks2 = w1.keysWhere (aliveKeys cfg w.objs) (fun o => o.isInit)
  s2 : stageDet cfg period w1 ks2 out1.unmatchedC = (w2, .ok out2)
  ks3eq : ks3 = out1.unmatchedO ++ deadKeys cfg w.objs
  s3 : ∃ out3, reidStage cfg w2 ks3 out2.matchedO = (w3, .ok out3)
  s4 : w' = out2.unmatchedC.foldl (fun w r => createObj cfg w r period ct) w3
  reid : ReidSpec cfg w2 w3 out2.matchedO ks3 m3
  keys1 : w1.keys = (advance cfg ct w).keys
  keys2 : w2.keys = (advance cfg ct w).keys
  nodup : (advance cfg ct w).keys.Nodup
  ks1Nodup : (stage1Keys cfg ct w).Nodup
  ks2Nodup : ks2.Nodup
  ks3Nodup : ks3.Nodup
  disj12 : ∀ k, k ∈ stage1Keys cfg ct w → k ∈ ks2 → False
  disj23 : ∀ c ∈ out2.matchedO, ∀ k ∈ ks3, c ≠ k
  candsSub : ∀ c ∈ out2.matchedO, c ∈ ks2
  mem1 : ∀ k, k ∈ stage1Keys cfg ct w ↔ ∃ o ∈ survivors cfg w.objs, o.initId = k ∧ 0 ≤ o.hitCounter ∧
    o.isInit = false
  mem2 : ∀ k, k ∈ ks2 ↔ ∃ o ∈ survivors cfg w.objs, o.initId = k ∧ 0 ≤ o.hitCounter ∧ o.isInit = true
  init1 : w1.initCount = w.initCount
  init2 : w2.initCount = w.initCount
  init3 : w3.initCount = w.initCount
  heap1 : AgesOnly w.heap w1.heap
  heap2 : AgesOnly w.heap w2.heap
  heap3 : AgesOnly w.heap w3.heap

theorem mem_aliveKeys_iff {cfg : Cfg K L D F X} {objs : List (Obj K L D F)} {k : Nat} :
    k ∈ aliveKeys cfg objs ↔ ∃ o ∈ survivors cfg objs, o.initId = k ∧ 0 ≤ o.hitCounter := by
  unfold aliveKeys
  cases hr : cfg.reidMax with
  | none =>
    simp only [List.mem_map]
    constructor
    · rintro ⟨o, ho, rfl⟩
      refine ⟨o, ho, rfl, ?_⟩
      rw [mem_survivors] at ho
      rcases ho.2 with ⟨_, h⟩ | ⟨h, _⟩
      · exact h
      · exact absurd hr h
    · rintro ⟨o, ho, rfl, _⟩
      exact ⟨o, ho, rfl⟩
  | some n =>
    simp only [List.mem_map, List.mem_filter, Obj.hcPos, decide_eq_true_eq]
    constructor
    · rintro ⟨o, ⟨ho, h0⟩, rfl⟩; exact ⟨o, ho, rfl, h0⟩
    · rintro ⟨o, ho, rfl, h0⟩; exact ⟨o, ⟨ho, h0⟩, rfl⟩

theorem updateCore_stages {cfg : Cfg K L D F X} {w : World K L D F X} (hn : w.keys.Nodup)
    {dets : List Ref} {period : Int} {ct : Option (CoordTrans K)} {w' : World K L D F X}
    {act : List (Obj K L D F)} (h : updateCore cfg w dets period ct = (w', .ok act)) :
    ∃ w1 w2 w3 out1 out2 ks2 ks3 m3, Stages cfg w dets period ct w1 w2 w3 w' out1 out2 ks2 ks3 m3 := by
  unfold updateCore at h
  simp only at h
  rw [show ((advance cfg ct w).keysWhere (aliveKeys cfg w.objs) fun o => !o.isInit) =
    stage1Keys cfg ct w from rfl] at h
  have hk0 : (advance cfg ct w).keys = (survivors cfg w.objs).map (·.initId) := advance_keys cfg ct w
  have hn0 : ((survivors cfg w.objs).map (·.initId)).Nodup :=
    ((survivors_sublist cfg w.objs).map _).nodup hn
  have haliveN : (aliveKeys cfg w.objs).Nodup := by
    unfold aliveKeys
    split
    · exact hn0
    · exact (List.filter_sublist.map _).nodup hn0
  have hdeadN : (deadKeys cfg w.objs).Nodup := by
    unfold deadKeys
    split
    · exact List.nodup_nil
    · exact (List.filter_sublist.map _).nodup hn0
  have hisInit : ∀ o : Obj K L D F, (stepped cfg ct o).isInit = o.isInit := stepped_isInit cfg ct
  have hks1n : (stage1Keys cfg ct w).Nodup := by
    unfold stage1Keys World.keysWhere; exact haliveN.filter _
  have hkeys1 : ∀ k ∈ stage1Keys cfg ct w, k ∈ (advance cfg ct w).keys := by
    intro k hk; rw [hk0]; exact aliveKeys_sub _ _ (World.mem_keysWhere.mp hk).1
  have hmem1 : ∀ k, k ∈ stage1Keys cfg ct w ↔ ∃ o ∈ survivors cfg w.objs, o.initId = k ∧
      0 ≤ o.hitCounter ∧ o.isInit = false := by
    intro k
    unfold stage1Keys
    rw [World.mem_keysWhere, mem_aliveKeys_iff]
    constructor
    · rintro ⟨⟨o, ho, rfl, h0⟩, o', ho', hi⟩
      rw [find_advance hn ho] at ho'
      cases ho'
      exact ⟨o, ho, rfl, h0, by simpa using hi⟩
    · rintro ⟨o, ho, rfl, h0, hi⟩
      exact ⟨⟨o, ho, rfl, h0⟩, _, find_advance hn ho, by simp [hi]⟩
  split at h
  · cases h
  · rename_i w1 out1 hs1
    obtain ⟨m1, S1, n1, sub1, perm1, mo1, un1, uo1, same1⟩ :=
      stageDet_ok cfg period (advance cfg ct w) (stage1Keys cfg ct w) hks1n dets hkeys1 hs1
    set ks2 := w1.keysWhere (aliveKeys cfg w.objs) (fun o => o.isInit) with hks2
    have hks2n : ks2.Nodup := by rw [hks2]; unfold World.keysWhere; exact haliveN.filter _
    have hkeys2 : ∀ k ∈ ks2, k ∈ w1.keys := by
      intro k hk
      obtain ⟨_, o, ho, _⟩ := World.mem_keysWhere.mp hk
      exact World.mem_keys_of_find ho
    have hmem2 : ∀ k, k ∈ ks2 ↔ ∃ o ∈ survivors cfg w.objs, o.initId = k ∧
        0 ≤ o.hitCounter ∧ o.isInit = true := by
      intro k
      rw [hks2, World.mem_keysWhere, mem_aliveKeys_iff]
      constructor
      · rintro ⟨⟨o, ho, rfl, h0⟩, o', ho', hi⟩
        refine ⟨o, ho, rfl, h0, ?_⟩
        by_contra hni
        obtain ⟨p, hp', hcase⟩ := S1.fate _ _ (find_advance hn ho)
        rw [ho'] at hp'
        cases hp'
        have hpi : o'.isInit = false := by
          rcases hcase with ⟨_, v, rfl⟩ | ⟨r, v, _, hh⟩
          · simpa [hisInit] using hni
          · obtain ⟨hp, g, c, d, _, _, _, _, rfl⟩ := hh
            exact (hitObj_basic cfg hp g c _ r period).2.2 (by simpa [hisInit] using hni)
        rw [hpi] at hi
        cases hi
      · rintro ⟨o, ho, rfl, h0, hi⟩
        refine ⟨⟨o, ho, rfl, h0⟩, stepped cfg ct o, ?_, by simp [hi]⟩
        apply same1 _ _ (find_advance hn ho)
        intro hx
        obtain ⟨p, hp, e, _, hpi⟩ := (hmem1 _).mp hx
        have : p = o := List.inj_on_of_nodup_map hn0 hp ho e
        rw [this, hi] at hpi
        cases hpi
    have hdisj12 : ∀ k, k ∈ stage1Keys cfg ct w → k ∈ ks2 → False := by
      intro k h1 h2
      obtain ⟨o, ho, e, _, hi⟩ := (hmem1 k).mp h1
      obtain ⟨p, hp, e', _, hi'⟩ := (hmem2 k).mp h2
      have : o = p := List.inj_on_of_nodup_map hn0 ho hp (e.trans e'.symm)
      subst this
      rw [hi] at hi'
      cases hi'
    split at h
    · cases h
    · rename_i w2 out2 hs2
      obtain ⟨m2, S2, n2, sub2, perm2, mo2, un2, uo2, same2⟩ :=
        stageDet_ok cfg period w1 ks2 hks2n out1.unmatchedC hkeys2 hs2
      have hk3 : ∀ k ∈ deadKeys cfg w.objs, k ∉ stage1Keys cfg ct w ∧ k ∉ ks2 := by
        intro k hk
        exact ⟨fun h' => alive_dead_disjoint cfg w.objs hn (World.mem_keysWhere.mp h').1 hk,
          fun h' => alive_dead_disjoint cfg w.objs hn (World.mem_keysWhere.mp h').1 hk⟩
      have hkeysw2 : w2.keys = (advance cfg ct w).keys := S2.keys.trans S1.keys
      set ks3 := out1.unmatchedO ++ deadKeys cfg w.objs with hks3
      have hks3n : ks3.Nodup := by
        rw [hks3, List.nodup_append]
        refine ⟨un1, hdeadN, ?_⟩
        intro a ha b hb e
        subst e
        exact (hk3 a hb).1 ((uo1 a).mp ha).1
      have hcandsub : ∀ c ∈ out2.matchedO, c ∈ ks2 := by rw [mo2]; exact sub2
      split at h
      · cases h
      · rename_i w3 out3 hs3
        have hdisj3 : ∀ c ∈ out2.matchedO, ∀ k ∈ ks3, c ≠ k := by
          intro c hc k hk e
          subst e
          rcases List.mem_append.mp hk with hk | hk
          · exact hdisj12 c ((uo1 c).mp hk).1 (hcandsub c hc)
          · exact (hk3 c hk).2 (hcandsub c hc)
        obtain ⟨m3, S3⟩ := reidStage_ok cfg w2 ks3 out2.matchedO hks3n (by rw [mo2]; exact n2) hdisj3
          (by
            intro k hk
            rw [hkeysw2]
            rcases List.mem_append.mp hk with hk | hk
            · exact hkeys1 k ((uo1 k).mp hk).1
            · rw [hk0]; exact deadKeys_sub _ _ hk)
          (by
            intro k hk
            rw [S2.keys]
            exact hkeys2 k (hcandsub k hk)) hs3
        have e1 : (out2.unmatchedC.foldl (fun w r => createObj cfg w r period ct) w3) = w' :=
          congrArg Prod.fst h
        exact ⟨w1, w2, w3, out1, out2, ks2, ks3, m3, hs1, rfl, hs2, rfl, ⟨out3, hs3⟩, e1.symm, S3,
          S1.keys, hkeysw2, by rw [hk0]; exact hn0, hks1n, hks2n, hks3n, hdisj12, hdisj3, hcandsub,
          hmem1, hmem2, S1.initCount, S2.initCount.trans S1.initCount,
          S3.initCount.trans (S2.initCount.trans S1.initCount), S1.heap, S1.heap.trans S2.heap,
          (S1.heap.trans S2.heap).trans S3.heap⟩

/-- the detections in the state in which `update` starts to match -/
theorem update_core {cfg : Cfg K L D F X} {w w' : World K L D F X} {dets : Option (List Ref)}
    {period : Int} {ct : Option (CoordTrans K)} {act : List (Obj K L D F)}
    (h : update cfg w dets period ct = (w', .ok act)) :
    updateCore cfg { w with heap := startHeap w dets ct } (dets.getD []) period ct = (w', .ok act) := by
  unfold update at h
  simp only [updateCoreNone_eq] at h
  split at h
  · cases h
  all_goals exact h

theorem update_stages {cfg : Cfg K L D F X} {w w' : World K L D F X} (hn : w.keys.Nodup)
    {dets : Option (List Ref)} {period : Int} {ct : Option (CoordTrans K)} {act : List (Obj K L D F)}
    (h : update cfg w dets period ct = (w', .ok act)) :
    ∃ w1 w2 w3 out1 out2 ks2 ks3 m3, Stages cfg { w with heap := startHeap w dets ct } (dets.getD [])
      period ct w1 w2 w3 w' out1 out2 ks2 ks3 m3 :=
  updateCore_stages (w := { w with heap := startHeap w dets ct }) hn (update_core h)

/-! ### The same call without ReID distance -/

/-- the tracker without a ReID distance function -/
def Cfg.noReid (cfg : Cfg K L D F X) : Cfg K L D F X := { cfg with reid := none }

theorem hitLoop_noReid (cfg : Cfg K L D F X) (thr : D) (period : Int) (M : Mat D) (dets : List Ref)
    (keys : List Nat) (ps : List (Nat × Nat)) (w : World K L D F X) (out : StageOut Ref) :
    hitLoop cfg.noReid thr period M dets keys ps w out = hitLoop cfg thr period M dets keys ps w out := by
  induction ps generalizing w out with
  | nil => rfl
  | cons p ps ih =>
    unfold hitLoop
    have he : ∀ h g c o r, hitObj cfg.noReid h g c o r period = hitObj cfg h g c o r period :=
      fun _ _ _ _ _ => rfl
    simp only [ih, he]

theorem stageDet_noReid (cfg : Cfg K L D F X) (period : Int) (w : World K L D F X) (keys : List Nat)
    (dets : List Ref) : stageDet cfg.noReid period w keys dets = stageDet cfg period w keys dets := by
  unfold stageDet
  have he : ∀ h os, detDistances cfg.noReid h os dets = detDistances cfg h os dets := fun _ _ => rfl
  simp only [hitLoop_noReid, he]
  rfl

theorem createObj_noReid (cfg : Cfg K L D F X) (w : World K L D F X) (r : Ref)
    (period : Int) (ct : Option (CoordTrans K)) :
    createObj cfg.noReid w r period ct = createObj cfg w r period ct := rfl

/-- the call without ReID distance runs through the same first two stages -/
theorem updateCore_noReid_eq {cfg : Cfg K L D F X} {w : World K L D F X} {dets : List Ref}
    {period : Int} {ct : Option (CoordTrans K)} {w1 w2 : World K L D F X} {out1 out2 : StageOut Ref}
    (h1 : stageDet cfg period (advance cfg ct w) (stage1Keys cfg ct w) dets = (w1, .ok out1))
    (h2 : stageDet cfg period w1 (w1.keysWhere (aliveKeys cfg w.objs) (fun o => o.isInit))
      out1.unmatchedC = (w2, .ok out2)) :
    updateCore cfg.noReid w dets period ct =
      (out2.unmatchedC.foldl (fun w r => createObj cfg w r period ct) w2,
        .ok (activeObjects (out2.unmatchedC.foldl (fun w r => createObj cfg w r period ct) w2))) := by
  unfold updateCore
  simp only
  have e0 : advance cfg.noReid ct w = advance cfg ct w := rfl
  have e1 : aliveKeys cfg.noReid w.objs = aliveKeys cfg w.objs := rfl
  have e2 : deadKeys cfg.noReid w.objs = deadKeys cfg w.objs := rfl
  simp only [e0, e1, e2, stageDet_noReid]
  rw [show ((advance cfg ct w).keysWhere (aliveKeys cfg w.objs) fun o => !o.isInit) =
    stage1Keys cfg ct w from rfl, h1]
  simp only [h2]
  rfl

/-- the candidates of the ReID stage are not among its objects -/
theorem reid_disjoint {cfg : Cfg K L D F X} {w : World K L D F X} (hn : w.keys.Nodup) {dets : List Ref}
    {period : Int} {ct : Option (CoordTrans K)} {w1 w2 : World K L D F X} {out1 out2 : StageOut Ref}
    (h1 : stageDet cfg period (advance cfg ct w) (stage1Keys cfg ct w) dets = (w1, .ok out1))
    (h2 : stageDet cfg period w1 (w1.keysWhere (aliveKeys cfg w.objs) (fun o => o.isInit))
      out1.unmatchedC = (w2, .ok out2)) :
    ∀ c ∈ out2.matchedO, ∀ k ∈ out1.unmatchedO ++ deadKeys cfg w.objs, c ≠ k := by
  obtain ⟨v1, v2, v3, o1, o2, ks2, ks3, m3, S⟩ := updateCore_stages hn (updateCore_noReid_eq h1 h2)
  have e1 : (v1, Except.ok o1) = (w1, Except.ok (ε := Err) out1) := by
    rw [← S.s1, stageDet_noReid]; exact h1
  simp only [Prod.mk.injEq, Except.ok.injEq] at e1
  obtain ⟨rfl, rfl⟩ := e1
  have e2 : (v2, Except.ok o2) = (w2, Except.ok (ε := Err) out2) := by
    rw [← S.s2, stageDet_noReid, S.ks2eq]; exact h2
  simp only [Prod.mk.injEq, Except.ok.injEq] at e2
  obtain ⟨rfl, rfl⟩ := e2
  have := S.disj23
  rw [S.ks3eq] at this
  exact this

/-- new objects do not depend on the other objects, nor on the ages of detections -/
theorem foldl_create_congr (cfg : Cfg K L D F X) (period : Int) (ct : Option (CoordTrans K))
    (rs : List Ref) (w v : World K L D F X) (h1 : w.count = v.count) (h2 : w.gcount = v.gcount)
    (h3 : w.initCount = v.initCount) (ha : ∀ r, ∃ a, v.heap r = { w.heap r with age := a }) :
    ∃ news, (rs.foldl (fun w r => createObj cfg w r period ct) w).objs = w.objs ++ news ∧
      (rs.foldl (fun w r => createObj cfg w r period ct) v).objs = v.objs ++ news := by
  induction rs generalizing w v with
  | nil => exact ⟨[], by simp, by simp⟩
  | cons r rs ih =>
    rw [List.foldl_cons, List.foldl_cons]
    obtain ⟨a, hr⟩ := ha r
    have hnew : newObj cfg w r period ct = newObj cfg v r period ct := by
      unfold newObj
      rw [h1, h2, h3, hr]
    obtain ⟨news, e1, e2⟩ := ih (createObj cfg w r period ct) (createObj cfg v r period ct)
      (by rw [createObj_eq, createObj_eq]; simp [h1]) (by rw [createObj_eq, createObj_eq]; simp [h2])
      (by rw [createObj_eq, createObj_eq]; simp [h3])
      (by
        intro q
        rw [createObj_eq, createObj_eq]
        obtain ⟨b, hb⟩ := ha q
        simp only [setAge]
        split
        · exact ⟨some 0, by rw [hr]⟩
        · exact ⟨b, hb⟩)
    refine ⟨newObj cfg w r period ct :: news, ?_, ?_⟩
    · rw [e1, createObj_eq]; simp
    · rw [e2, createObj_eq, hnew]; simp

end

end Norfair
