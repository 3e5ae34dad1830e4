import Verif.Lemmas.Ids

/-! What one successful `update` does to one object. -/

set_option linter.unusedSectionVars false

namespace Norfair

variable {K L D F X : Type}

section
variable [LinearOrder K] [Zero K] [LinearOrder D] [OrderTop D] [Zero D] [DecidableEq L]

theorem newObj_fields (cfg : Cfg K L D F X) (w : World K L D F X) (r : Ref) (period : Int)
    (ct : Option (CoordTrans K)) :
    ∃ g, newObj cfg w r period ct = { newObj cfg w r period none with absToRel := g } := by
  obtain ⟨g0, hg0⟩ := updateCT_fields ct (newObj cfg w r period none)
  exact ⟨g0, by rw [← hg0]; rfl⟩

/-- the object got a detection -/
theorem update_obj_cases {cfg : Cfg K L D F X} {w w' : World K L D F X} (hI : Inv w)
    {dets : Option (List Ref)} {period : Int} {ct : Option (CoordTrans K)} {act : List (Obj K L D F)}
    (h : update cfg w dets period ct = (w', .ok act)) {o o' : Obj K L D F} (ho : o ∈ w.objs)
    (ho' : o' ∈ w'.objs) (hk : o.initId = o'.initId) :
    o ∈ survivors cfg w.objs ∧
    ((∃ v, o' = { stepped cfg ct o with curMin := v }) ∨
      (∃ r ∈ dets.getD [], HitFields cfg period r o o' ∧ 0 ≤ o.hitCounter) ∨
      (cfg.reid ≠ none ∧ ((0 ≤ o.hitCounter ∧ o.isInit = false) ∨ (o.hitCounter < 0 ∧ cfg.reidMax ≠ none)) ∧
        ∃ r ∈ dets.getD [], ∃ oc ∈ survivors cfg w.objs, ∃ oc', oc.isInit = true ∧ 0 ≤ oc.hitCounter ∧
          oc.initId ≠ o.initId ∧ oc.initId ∉ w'.keys ∧ HitFields cfg period r oc oc' ∧
          MergeFields oc' o o')) := by
  obtain ⟨_, _, hits, merges, news, S⟩ := update_ok hI.nodup h
  have hI' : Inv w' := by
    have := (update_inv (cfg := cfg) hI dets period ct).1
    rw [h] at this; exact this
  have hmemd : ∀ {r k}, (r, k) ∈ hits → r ∈ dets.getD [] := by
    intro r k hrk
    exact S.perm.mem_iff.mp (List.mem_append_left _ (List.mem_map_of_mem (f := Prod.fst) hrk))
  have hcpos : ∀ p ∈ survivors cfg w.objs, p.initId ∈ hits.map Prod.snd → 0 ≤ p.hitCounter := by
    intro p hp hk
    obtain ⟨q, hq, e1, e2⟩ := S.hitAlive _ hk
    have : q = p := World.eq_of_mem_of_key hI.nodup ((survivors_sublist cfg w.objs).subset hq)
      ((survivors_sublist cfg w.objs).subset hp) e1
    subst this
    simpa [Obj.hcPos] using e2
  rcases S.mem_cases hI'.nodup ho' with ⟨p, hp, hpk, hpm, hcase⟩ | ⟨r, hr, hlt, _⟩
  · have hpo : p = o := World.eq_of_mem_of_key hI.nodup ((survivors_sublist cfg w.objs).subset hp) ho
      (hpk.trans hk.symm)
    subst hpo
    refine ⟨hp, ?_⟩
    rcases hcase with ⟨_, _, hv⟩ | ⟨r, hr, hf⟩ | ⟨r, oc, oc', hoc, hm, hr, hf, hmf⟩
    · exact Or.inl hv
    · exact Or.inr (Or.inl ⟨r, hmemd hr, hf.fields,
        hcpos p hp (List.mem_map_of_mem (f := Prod.snd) hr)⟩)
    · refine Or.inr (Or.inr ⟨?_, ?_, r, hmemd hr, oc, hoc, oc', ?_, ?_, ?_, ?_, hf.fields, hmf.fields⟩)
      · intro hn; rw [S.noreid hn] at hm; cases hm
      · obtain ⟨_, q, hq, hqk, hq'⟩ := S.targets _ (List.mem_map_of_mem (f := Prod.snd) hm)
        have : q = p := World.eq_of_mem_of_key hI.nodup ((survivors_sublist cfg w.objs).subset hq) ho hqk
        subst this
        simpa [Obj.hcPos] using hq'
      · exact S.candsInit oc ((survivors_sublist cfg w.objs).subset hoc)
          (List.mem_map_of_mem (f := Prod.fst) hm)
      · exact hcpos oc hoc (List.mem_map_of_mem (f := Prod.snd) hr)
      · intro he
        exact hpm (he ▸ List.mem_map_of_mem (f := Prod.fst) hm)
      · rw [S.keys, List.mem_append, not_or]
        refine ⟨?_, ?_⟩
        · intro hx
          have := (List.mem_filter.mp hx).2
          simp only [decide_eq_true_eq] at this
          exact this (List.mem_map_of_mem (f := Prod.fst) hm)
        · intro hx
          obtain ⟨i, _, hi⟩ := List.mem_map.mp hx
          have := (hI.bounded oc ((survivors_sublist cfg w.objs).subset hoc)).2
          simp only at hi
          omega
  · have := (hI.bounded o ho).2
    simp only at hlt
    omega

/-- an object that is not dropped for its counters is only lost by a merge, and then it was
initializing and alive -/
theorem update_obj_stays {cfg : Cfg K L D F X} {w w' : World K L D F X} (hI : Inv w)
    {dets : Option (List Ref)} {period : Int} {ct : Option (CoordTrans K)} {act : List (Obj K L D F)}
    (h : update cfg w dets period ct = (w', .ok act)) {o : Obj K L D F}
    (ho : o ∈ survivors cfg w.objs) :
    (∃ o' ∈ w'.objs, o'.initId = o.initId) ∨
      (cfg.reid ≠ none ∧ o.isInit = true ∧ 0 ≤ o.hitCounter ∧ o.initId ∉ w'.keys) := by
  obtain ⟨_, _, hits, merges, news, S⟩ := update_ok hI.nodup h
  have hmem := (survivors_sublist cfg w.objs).subset ho
  by_cases hm : o.initId ∈ merges.map Prod.fst
  · right
    refine ⟨?_, S.candsInit o hmem hm, ?_, ?_⟩
    · intro hn; rw [S.noreid hn] at hm; cases hm
    · obtain ⟨q, hq, e1, e2⟩ := S.hitAlive _ (S.candsHit _ hm)
      have : q = o := World.eq_of_mem_of_key hI.nodup ((survivors_sublist cfg w.objs).subset hq) hmem e1
      subst this
      simpa [Obj.hcPos] using e2
    · rw [S.keys, List.mem_append, not_or]
      refine ⟨?_, ?_⟩
      · intro hx
        have := (List.mem_filter.mp hx).2
        simp only [decide_eq_true_eq] at this
        exact this hm
      · intro hx
        obtain ⟨i, _, hi⟩ := List.mem_map.mp hx
        have := (hI.bounded o hmem).2
        simp only at hi
        omega
  · left
    obtain ⟨o', ho', hk, _⟩ := S.old o ho hm
    exact ⟨o', ho', hk⟩

/-- an object that is not in `w` was created by this call -/
theorem update_obj_new {cfg : Cfg K L D F X} {w w' : World K L D F X} (hI : Inv w)
    {dets : Option (List Ref)} {period : Int} {ct : Option (CoordTrans K)} {act : List (Obj K L D F)}
    (h : update cfg w dets period ct = (w', .ok act)) {o' : Obj K L D F} (ho' : o' ∈ w'.objs)
    (hk : o'.initId ∉ w.keys) :
    ∃ r ∈ dets.getD [], ∃ wi : World K L D F X, o' = newObj cfg wi r period ct ∧
      AgesOnly (startHeap w dets ct) wi.heap := by
  obtain ⟨_, _, hits, merges, news, S⟩ := update_ok hI.nodup h
  have hI' : Inv w' := by
    have := (update_inv (cfg := cfg) hI dets period ct).1
    rw [h] at this; exact this
  rcases S.mem_cases hI'.nodup ho' with ⟨p, hp, hpk, _⟩ | ⟨r, hr, _, wi, hwi, hh⟩
  · exact absurd (List.mem_map.mpr ⟨p, (survivors_sublist cfg w.objs).subset hp, hpk⟩) hk
  · exact ⟨r, S.perm.mem_iff.mp (List.mem_append_right _ hr), wi, hwi, hh⟩

theorem mem_survivors {cfg : Cfg K L D F X} {objs : List (Obj K L D F)} {o : Obj K L D F} :
    o ∈ survivors cfg objs ↔ o ∈ objs ∧
      ((cfg.reidMax = none ∧ 0 ≤ o.hitCounter) ∨
        (cfg.reidMax ≠ none ∧ (o.reidHitCounter = none ∨ ∃ r, o.reidHitCounter = some r ∧ 0 ≤ r))) := by
  unfold survivors
  cases cfg.reidMax with
  | none => simp [Obj.hcPos]
  | some n =>
    simp only [List.mem_filter, Obj.reidPos]
    cases o.reidHitCounter <;> simp

/-! ### Every detection is used exactly once -/

/-- elements of a list of pairs with different second components are determined by them -/
theorem eq_of_snd_nodup {α β : Type} {l : List (α × β)} (h : (l.map Prod.snd).Nodup) {p q : α × β}
    (hp : p ∈ l) (hq : q ∈ l) (e : p.2 = q.2) : p = q := List.inj_on_of_nodup_map h hp hq e

theorem eq_of_fst_nodup {α β : Type} {l : List (α × β)} (h : (l.map Prod.fst).Nodup) {p q : α × β}
    (hp : p ∈ l) (hq : q ∈ l) (e : p.1 = q.1) : p = q := List.inj_on_of_nodup_map h hp hq e

/-- where the detection given to object `k` ends up -/
def mergeTarget (merges : List (Nat × Nat)) (k : Nat) : Nat :=
  match merges.find? (fun p => p.1 = k) with
  | some p => p.2
  | none => k

theorem mergeTarget_of_mem {merges : List (Nat × Nat)} (h : (merges.map Prod.fst).Nodup) {k t : Nat}
    (hm : (k, t) ∈ merges) : mergeTarget merges k = t := by
  unfold mergeTarget
  cases hf : merges.find? (fun p => p.1 = k) with
  | none =>
    have := List.find?_eq_none.mp hf (k, t) hm
    simp at this
  | some p =>
    have h1 := List.mem_of_find?_eq_some hf
    have h2 : p.1 = k := by simpa using List.find?_some hf
    have := eq_of_fst_nodup h h1 hm h2
    subst this; rfl

theorem mergeTarget_of_not_mem {merges : List (Nat × Nat)} {k : Nat}
    (hm : k ∉ merges.map Prod.fst) : mergeTarget merges k = k := by
  unfold mergeTarget
  cases hf : merges.find? (fun p => p.1 = k) with
  | none => rfl
  | some p =>
    have h1 := List.mem_of_find?_eq_some hf
    have h2 : p.1 = k := by simpa using List.find?_some hf
    exact absurd (List.mem_map.mpr ⟨p, h1, h2⟩) hm

theorem update_detections_perm {cfg : Cfg K L D F X} {w w' : World K L D F X} (hI : Inv w)
    {dets : Option (List Ref)} {period : Int} {ct : Option (CoordTrans K)} {act : List (Obj K L D F)}
    (h : update cfg w dets period ct = (w', .ok act))
    (hfresh : ∀ o ∈ w.objs, o.lastDet ∉ dets.getD []) :
    ((w'.objs.map (·.lastDet)).filter (fun r => decide (r ∈ dets.getD []))).Perm (dets.getD []) := by
  obtain ⟨_, _, hits, merges, news, S⟩ := update_ok hI.nodup h
  have hI' : Inv w' := by
    have := (update_inv (cfg := cfg) hI dets period ct).1
    rw [h] at this; exact this
  have hsub : ∀ {p}, p ∈ survivors cfg w.objs → p ∈ w.objs :=
    fun hp => (survivors_sublist cfg w.objs).subset hp
  generalize hds : dets.getD [] = ds at *
  obtain ⟨N, hN, hF⟩ := S.created
  set A := w'.objs.take (w'.objs.length - news.length) with hA
  have hAN : w'.objs = A ++ N := by rw [← hN, hA, List.take_append_drop]
  have hNlen : N.length = news.length := hF.length_eq.symm
  have hNkeys : A.map (·.initId) = ((survivors cfg w.objs).map (·.initId)).filter
      (fun k => decide (k ∉ merges.map Prod.fst)) ∧
      N.map (·.initId) = (List.range news.length).map (fun i => w.initCount + 1 + i) := by
    have hk := S.keys
    unfold World.keys at hk
    rw [hAN, List.map_append] at hk
    exact List.append_inj' hk (by simp [hNlen])
  have hAle : ∀ o' ∈ A, o'.initId ≤ w.initCount := by
    intro o' ho'
    have : o'.initId ∈ A.map (·.initId) := List.mem_map_of_mem ho'
    rw [hNkeys.1] at this
    obtain ⟨p, hp, e⟩ := List.mem_map.mp (List.mem_filter.mp this).1
    rw [← e]; exact (hI.bounded p (hsub hp)).2
  have hNgt : ∀ o' ∈ N, w.initCount < o'.initId := by
    intro o' ho'
    have : o'.initId ∈ N.map (·.initId) := List.mem_map_of_mem ho'
    rw [hNkeys.2] at this
    obtain ⟨i, _, e⟩ := List.mem_map.mp this
    rw [← e]; omega
  -- the new objects
  have hNdet : N.map (·.lastDet) = news := by
    have : ∀ (news : List Ref) (N : List (Obj K L D F)), List.Forall₂ (fun r o =>
        ∃ wi : World K L D F X, o = newObj cfg wi r period ct ∧
        AgesOnly (startHeap w dets ct) wi.heap ∧ w.initCount ≤ wi.initCount) news N →
        N.map (·.lastDet) = news := by
      intro news N hF
      induction hF with
      | nil => rfl
      | cons h1 _ ih =>
        obtain ⟨wi, rfl, _⟩ := h1
        obtain ⟨g, hg⟩ := newObj_fields cfg wi _ period ct
        rw [List.map_cons, ih, hg]; rfl
    exact this news N hF
  have hnewsub : ∀ r ∈ news, r ∈ ds := fun r hr => S.perm.mem_iff.mp (List.mem_append_right _ hr)
  have hhitsub : ∀ p ∈ hits, p.1 ∈ ds := fun p hp =>
    S.perm.mem_iff.mp (List.mem_append_left _ (List.mem_map_of_mem hp))
  -- where each hit ends up
  have hhit : ∀ p ∈ hits, ∃ o' ∈ A, o'.initId = mergeTarget merges p.2 ∧ o'.lastDet = p.1 ∧
      w'.find (mergeTarget merges p.2) = some o' := by
    have hAmem : ∀ o' ∈ w'.objs, o'.initId ≤ w.initCount → o' ∈ A := by
      intro o' ho' hle
      rw [hAN] at ho'
      rcases List.mem_append.mp ho' with h1 | h1
      · exact h1
      · have := hNgt o' h1; omega
    rintro ⟨r, k⟩ hp
    have hkh : k ∈ hits.map Prod.snd := List.mem_map_of_mem (f := Prod.snd) hp
    by_cases hm : k ∈ merges.map Prod.fst
    · obtain ⟨⟨k', t⟩, hmt, e⟩ := List.mem_map.mp hm
      simp only at e; subst e
      rw [mergeTarget_of_mem S.candsNodup hmt]
      have htm : t ∈ merges.map Prod.snd := List.mem_map_of_mem (f := Prod.snd) hmt
      obtain ⟨htn, o, ho, hot, _⟩ := S.targets t htm
      obtain ⟨o', ho', hk', hcase⟩ := S.old o ho (by
        rw [hot]; exact fun hx => htn (S.candsHit _ hx))
      rw [hot] at hk' hcase
      refine ⟨o', hAmem o' ho' (by rw [hk', ← hot]; exact (hI.bounded o (hsub ho)).2), hk', ?_,
        by rw [← hk']; exact World.find_of_mem hI'.nodup ho'⟩
      rcases hcase with ⟨_, hx, _⟩ | ⟨r', hr', _⟩ | ⟨r', oc, oc', hoc, hm', hr', hf, hmf⟩
      · exact absurd htm hx
      · exact absurd (List.mem_map_of_mem (f := Prod.snd) hr') htn
      · have := eq_of_snd_nodup S.targetsNodup hm' hmt rfl
        have e1 : oc.initId = k' := congrArg Prod.fst this
        rw [e1] at hr'
        have e2 := eq_of_snd_nodup S.hitsNodup hr' hp rfl
        rw [hmf.fields.lastDet, hf.fields.lastDet]
        exact congrArg Prod.fst e2
    · rw [mergeTarget_of_not_mem hm]
      obtain ⟨o, ho, hok, _⟩ := S.hitAlive k hkh
      obtain ⟨o', ho', hk', hcase⟩ := S.old o ho (by rw [hok]; exact hm)
      rw [hok] at hk' hcase
      refine ⟨o', hAmem o' ho' (by rw [hk', ← hok]; exact (hI.bounded o (hsub ho)).2), hk', ?_,
        by rw [← hk']; exact World.find_of_mem hI'.nodup ho'⟩
      rcases hcase with ⟨hx, _⟩ | ⟨r', hr', hf⟩ | ⟨r', oc, oc', hoc, hm', hr', hf, hmf⟩
      · exact absurd hkh hx
      · have e2 := eq_of_snd_nodup S.hitsNodup hr' hp rfl
        rw [hf.fields.lastDet]
        exact congrArg Prod.fst e2
      · exact absurd hkh (S.targets k (List.mem_map_of_mem (f := Prod.snd) hm')).1
  have hAnodup : A.Nodup := by
    have := hI'.nodup
    unfold World.keys at this
    rw [hAN, List.map_append] at this
    exact (List.nodup_append.mp this).1.of_map
  -- the matched objects
  have hmatched : ((A.filter (fun o => decide (o.lastDet ∈ ds))).map some).Perm
      (hits.map (fun p => w'.find (mergeTarget merges p.2))) := by
    refine (List.perm_ext_iff_of_nodup
      ((hAnodup.filter _).map (Option.some_injective _)) ?_).mpr ?_
    · apply List.Nodup.map_on _ (S.hitsNodup.of_map)
      rintro ⟨r1, k1⟩ hp1 ⟨r2, k2⟩ hp2 he
      obtain ⟨o1, _, e1, _, f1⟩ := hhit _ hp1
      obtain ⟨o2, _, e2, _, f2⟩ := hhit _ hp2
      rw [f1, f2] at he
      have he' : mergeTarget merges k1 = mergeTarget merges k2 := by
        rw [← e1, ← e2, Option.some.inj he]
      apply eq_of_snd_nodup S.hitsNodup hp1 hp2
      simp only
      have hk1 : k1 ∈ hits.map Prod.snd := List.mem_map_of_mem (f := Prod.snd) hp1
      have hk2 : k2 ∈ hits.map Prod.snd := List.mem_map_of_mem (f := Prod.snd) hp2
      by_cases hm1 : k1 ∈ merges.map Prod.fst <;> by_cases hm2 : k2 ∈ merges.map Prod.fst
      · obtain ⟨⟨a1, t1⟩, hmt1, e⟩ := List.mem_map.mp hm1
        simp only at e; subst e
        obtain ⟨⟨a2, t2⟩, hmt2, e⟩ := List.mem_map.mp hm2
        simp only at e; subst e
        rw [mergeTarget_of_mem S.candsNodup hmt1, mergeTarget_of_mem S.candsNodup hmt2] at he'
        exact congrArg Prod.fst (eq_of_snd_nodup S.targetsNodup hmt1 hmt2 he')
      · obtain ⟨⟨a1, t1⟩, hmt1, e⟩ := List.mem_map.mp hm1
        simp only at e; subst e
        rw [mergeTarget_of_mem S.candsNodup hmt1, mergeTarget_of_not_mem hm2] at he'
        subst he'
        exact absurd hk2 (S.targets t1 (List.mem_map_of_mem (f := Prod.snd) hmt1)).1
      · obtain ⟨⟨a1, t1⟩, hmt1, e⟩ := List.mem_map.mp hm2
        simp only at e; subst e
        rw [mergeTarget_of_mem S.candsNodup hmt1, mergeTarget_of_not_mem hm1] at he'
        subst he'
        exact absurd hk1 (S.targets k1 (List.mem_map_of_mem (f := Prod.snd) hmt1)).1
      · rw [mergeTarget_of_not_mem hm1, mergeTarget_of_not_mem hm2] at he'
        exact he'
    · intro x
      constructor
      · intro hx
        obtain ⟨o', ho', rfl⟩ := List.mem_map.mp hx
        obtain ⟨hoA, hod⟩ := List.mem_filter.mp ho'
        simp only [decide_eq_true_eq] at hod
        have how : o' ∈ w'.objs := by rw [hAN]; exact List.mem_append_left _ hoA
        have hfind := World.find_of_mem hI'.nodup how
        rcases S.mem_cases hI'.nodup how with ⟨p, hp, hpk, hpm, hcase⟩ | ⟨_, _, hlt, _⟩
        · rcases hcase with ⟨_, _, v, rfl⟩ | ⟨r, hr, _⟩ | ⟨r, oc, oc', hoc, hm, hr, _⟩
          · exact absurd (by simpa using hod) (hfresh p (hsub hp))
          · refine List.mem_map.mpr ⟨_, hr, ?_⟩
            simp only
            rw [mergeTarget_of_not_mem hpm, hpk, hfind]
          · refine List.mem_map.mpr ⟨_, hr, ?_⟩
            simp only
            rw [mergeTarget_of_mem S.candsNodup hm, hpk, hfind]
        · have := hAle o' hoA
          simp only at hlt
          omega
      · intro hx
        obtain ⟨p, hp, rfl⟩ := List.mem_map.mp hx
        obtain ⟨o', ho', _, e, hf⟩ := hhit p hp
        rw [hf]
        refine List.mem_map.mpr ⟨o', List.mem_filter.mpr ⟨ho', ?_⟩, rfl⟩
        rw [e]; simpa using hhitsub p hp
  have hdets : (((A.filter (fun o => decide (o.lastDet ∈ ds))).map (·.lastDet)).map some).Perm
      ((hits.map Prod.fst).map some) := by
    have h1 := hmatched.map (Option.map (·.lastDet))
    have e1 : ((A.filter (fun o => decide (o.lastDet ∈ ds))).map some).map (Option.map (·.lastDet)) =
        ((A.filter (fun o => decide (o.lastDet ∈ ds))).map (·.lastDet)).map some := by
      simp [List.map_map, Function.comp_def]
    have e2 : (hits.map (fun p => w'.find (mergeTarget merges p.2))).map (Option.map (·.lastDet)) =
        (hits.map Prod.fst).map some := by
      rw [List.map_map, List.map_map]
      apply List.map_congr_left
      intro p hp
      obtain ⟨o', _, _, e, hf⟩ := hhit p hp
      simp [hf, e]
    rw [e1, e2] at h1
    exact h1
  have hdets' := (List.map_perm_map_iff (Option.some_injective _)).mp hdets
  rw [hAN, List.map_append, List.filter_append, hNdet, List.filter_map]
  have hnf : news.filter (fun r => decide (r ∈ ds)) = news :=
    List.filter_eq_self.mpr (fun r hr => by simpa using hnewsub r hr)
  rw [hnf]
  exact (List.Perm.append_right news hdets').trans S.perm

end

end Norfair
