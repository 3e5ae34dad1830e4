import Verif.Props.TrackerReid
import Verif.Props.TrackerRounds
import Verif.Spec.ReidRound

/-! C97: which objects ReID recognizes. -/

set_option linter.unusedSectionVars false

namespace Norfair.Props

open Norfair Norfair.Spec Norfair.Toy

variable {K L D F X : Type}

section
variable [LinearOrder K] [Zero K] [LinearOrder D] [OrderTop D] [Zero D] [DecidableEq L]

theorem leftOver_map {α β : Type} (f : α → β) (l : List α) (idx : List Nat) :
    leftOver (l.map f) idx = (leftOver l idx).map f := by
  unfold leftOver
  rw [List.length_map, List.map_filterMap]
  apply List.filterMap_congr
  intro i _
  split <;> simp

theorem objects_keys {w : World K L D F X} {keys : List Nat} (h : ∀ k ∈ keys, k ∈ w.keys) :
    (w.objects keys).map (·.initId) = keys := by
  induction keys with
  | nil => rfl
  | cons k ks ih =>
    obtain ⟨o, ho⟩ := World.find_isSome_of_mem (h k (by simp))
    unfold World.objects at ih ⊢
    rw [List.filterMap_cons_some ho, List.map_cons, ih (fun k hk => h k (by simp [hk])), (World.find_some ho).2]

theorem waiting_eq (cfg : Cfg K L D F X) (objs : List (Obj K L D F)) :
    deadKeys cfg objs = (objs.filter (fun o => decide (Waits cfg.reidMax o))).map (·.initId) := by
  unfold deadKeys survivors
  cases hr : cfg.reidMax with
  | none =>
    simp only
    rw [List.filter_eq_nil_iff.mpr]
    · rfl
    · intro o _; simp [Waits]
  | some n =>
    simp only
    rw [List.filter_filter]
    congr 1
    apply List.filter_congr
    intro o _
    rw [Bool.eq_iff_iff]
    cases h : o.reidHitCounter <;> simp [Obj.hcPos, Obj.reidPos, Waits, h]

/-- the entries of a matrix of ReID distances -/
theorem reidDistances_dist {g : ObjView K L D F X → ObjView K L D F X → Option (Option D)} {heap : Ref → Det K L X}
    {objs cands : List (Obj K L D F)} {M : Mat (Option D)} (hM : reidDistances g heap objs cands = some M)
    {i j : Nat} {c o : Obj K L D F} (hi : cands[i]? = some c) (hj : objs[j]? = some o) {x : D}
    (hval : M.val i j = some x) :
    ReidDist g ⟨c, heap c.lastDet, c.past.map heap⟩ ⟨o, heap o.lastDet, o.past.map heap⟩ x := by
  simp only [reidDistances, scalarDistances] at hM
  split at hM
  · cases hM
  · rename_i hany
    cases hM
    simp only [hi, hj] at hval
    unfold ReidDist
    by_cases hl : c.label = o.label
    · left
      refine ⟨hl, ?_⟩
      simp only [hl, if_true] at hval
      cases hfv : g (c.view heap) (o.view heap) with
      | none =>
        exfalso
        apply hany
        rw [List.any_eq_true]
        refine ⟨c, List.mem_of_getElem? hi, ?_⟩
        rw [List.any_eq_true]
        refine ⟨o, List.mem_of_getElem? hj, ?_⟩
        simp [hl, hfv]
      | some y =>
        rw [hfv] at hval
        simp only [Option.getD_some] at hval
        rw [hval] at hfv
        exact hfv
    · right
      refine ⟨hl, ?_⟩
      simp only [hl, if_false, Option.getD_some, Option.some.injEq] at hval
      exact hval.symm

theorem picks_filterMap {α : Type} {l : List α} {pairs : List (Nat × Nat)} {f : Nat × Nat → Nat} {as : List α}
    (h : Picks l (pairs.map f) as) : as = pairs.filterMap (fun p => l[f p]?) := by
  rw [h.eq_filterMap, List.filterMap_map]
  rfl

/-- **C97** With a ReID distance, a successful `update` has a third round of matching: the initializing objects that
got a detection in the second round, in the order in which they were matched, are compared with the initialized
objects that got none in the first round and, after them, the dead objects that are kept for ReID. The matched pairs
are a greedy matching for the ReID distances below the ReID threshold; the old object of such a pair takes over the
new one, which disappears. Nothing else differs from the same call without ReID (which leads to `w0`), but
`current_min_distance`. (`h1`, `h2`: the rounds change only `age`s of detections.) The distance of the tracker may be of any kind; the statements on
the first two rounds are for the scalar ones. -/
theorem C97_third_round_any {cfg : Cfg K L D F X} {g} (hg : cfg.reid = some g)
    {w w' : World K L D F X} (hw : Reachable cfg w) {dets : Option (List Ref)} {period : Int}
    {ct : Option (CoordTrans K)} {act : List (Obj K L D F)}
    (h : update cfg w dets period ct = (w', .ok act)) :
    ∃ w0 act0 h1 h2 d1 d2 d pairs1 pairs2 pairs rest1 rest2 cands olds,
      update { cfg with reid := none } w dets period ct = (w0, .ok act0) ∧
      (∀ r, ∃ a, h1 r = { startHeap w dets ct r with age := a }) ∧
      (∀ r, ∃ a, h2 r = { startHeap w dets ct r with age := a }) ∧
      (∀ f, cfg.dist = .scalar f → Round f cfg.thr (startHeap w dets ct) (compared cfg ct w.objs false) (dets.getD []) d1
        pairs1 rest1 w0.objs) ∧
      (∀ j o, (compared cfg ct w.objs false)[j]? = some o → j ∉ pairs1.map Prod.snd →
        ∃ v, { o with curMin := v } ∈ w0.objs) ∧
      (∀ f, cfg.dist = .scalar f → Round f cfg.thr h1 (compared cfg ct w.objs true) rest1 d2 pairs2 rest2 w0.objs) ∧
      (∀ j o, (compared cfg ct w.objs true)[j]? = some o → j ∉ pairs2.map Prod.snd →
        ∃ v, { o with curMin := v } ∈ w0.objs) ∧
      (∀ o ∈ w.objs, Waits cfg.reidMax o → (o.trackerStep cfg).updateCT ct ∈ w0.objs) ∧
      (∃ old news, w0.objs = old ++ news ∧ (∀ o ∈ old, o.initId ∈ w.objs.map (·.initId)) ∧
        news.map (·.lastDet) = rest2 ∧ ∀ o ∈ news, w.initCount < o.initId ∧ o.hitCounter = period ∧
          o.reidHitCounter = none ∧ o.isInit = decide (period ≤ cfg.initDelay)) ∧
      (∀ c ∈ cands, c ∈ w0.objs ∧ c.lastDet ∈ dets.getD [] ∧ ∃ c' ∈ w.objs, c'.initId = c.initId ∧ c'.isInit = true ∧
        c'.label = c.label ∧ ∀ r ∈ c.past, r ∈ c'.past ∨ r = c.lastDet) ∧
      cands.map (·.initId) = pairs2.filterMap (fun p => (compared cfg ct w.objs true)[p.2]?.map (·.initId)) ∧
      (∀ o ∈ olds, o ∈ w0.objs ∧ ∃ o' ∈ w.objs, o'.initId = o.initId ∧ o'.id = o.id ∧ o'.label = o.label ∧
        o'.lastDet = o.lastDet ∧ o'.past = o.past) ∧
      olds.map (·.initId) = (leftOver (compared cfg ct w.objs false) (pairs1.map Prod.snd) ++
        w.objs.filter (fun o => decide (Waits cfg.reidMax o))).map (·.initId) ∧
      ReidRound g cfg.reidThr h2 cands olds d pairs w0.objs w'.objs := by
  have hI : Inv w := hw.inv
  obtain ⟨w1, w2, w3, out1, out2, ks2, ks3, m3, S⟩ := update_stages hI.nodup h
  set v0 : World K L D F X := { w with heap := startHeap w dets ct } with hv0
  have hcore := updateCore_noReid_eq S.s1 (by rw [← S.ks2eq]; exact S.s2)
  have hupd : update cfg.noReid w dets period ct =
      (out2.unmatchedC.foldl (fun w r => createObj cfg w r period ct) w2,
        .ok (activeObjects (out2.unmatchedC.foldl (fun w r => createObj cfg w r period ct) w2))) := by
    rw [← hcore]
    unfold update at h ⊢
    simp only [updateCoreNone_eq] at h ⊢
    rw [hv0]
    unfold startHeap
    cases ct with
    | none => cases dets <;> rfl
    | some c =>
      cases dets with
      | none => simp at h
      | some l => rfl
  obtain ⟨u1, u2, u3, q1, q2, ks1, ls2, ls3, n3, d1, d2, p1, p2, R⟩ := update_rounds hI hupd
  have t1 := R.S.s1
  rw [stageDet_noReid] at t1
  cases t1.symm.trans S.s1
  have hls : ls2 = ks2 := R.S.ks2eq.trans S.ks2eq.symm
  subst hls
  have t2 := R.S.s2
  rw [stageDet_noReid] at t2
  cases t2.symm.trans S.s2
  obtain ⟨news, e3, e2⟩ := foldl_create_congr cfg period ct out2.unmatchedC w3 w2 S.reid.count
    S.reid.gcount S.reid.initCount (fun r => by
      obtain ⟨a, ha⟩ := (S.reid.heap r).1
      refine ⟨(w2.heap r).age, ?_⟩
      rw [ha])
  obtain ⟨news', f1, _, _, _, f5, _⟩ := foldl_create cfg period ct out2.unmatchedC w3
  have hnews : news' = news := List.append_cancel_left (f1.symm.trans e3)
  subst hnews
  set w0 := out2.unmatchedC.foldl (fun w r => createObj cfg w r period ct) w2 with hw0
  have hw' : w'.objs = w3.objs ++ news' := by rw [S.s4]; exact e3
  have hnk : ∀ k ∈ news'.map (·.initId), w.initCount < k := by
    intro k hk
    rw [f5] at hk
    obtain ⟨i, _, rfl⟩ := List.mem_map.mp hk
    rw [S.init3]
    show w.initCount < w.initCount + 1 + i
    omega
  have hn2 : w2.keys.Nodup := by rw [S.keys2]; exact S.nodup
  have hkw : ∀ k ∈ w2.keys, k ∈ w.objs.map (·.initId) := by
    intro k hk
    rw [S.keys2, advance_keys] at hk
    obtain ⟨o, ho, rfl⟩ := List.mem_map.mp hk
    exact List.mem_map_of_mem ((survivors_sublist cfg w.objs).subset ho)
  have hkb : ∀ k ∈ w.objs.map (·.initId), k ≤ w.initCount := by
    intro k hk
    obtain ⟨o, ho, rfl⟩ := List.mem_map.mp hk
    exact (hI.bounded o ho).2
  have hc2 : ∀ c ∈ out2.matchedO, c ∈ w2.keys := by
    intro c hc
    obtain ⟨o, ho, rfl, _⟩ := (S.mem2 c).mp (S.candsSub c hc)
    rw [S.keys2]
    exact World.mem_keys_of_find (find_advance (w := v0) hI.nodup ho)
  have hk1' : ∀ k ∈ stage1Keys cfg ct v0, k ∈ (advance cfg ct v0).keys := by
    intro k hk
    obtain ⟨o, ho, rfl, _⟩ := (S.mem1 k).mp hk
    exact World.mem_keys_of_find (find_advance (w := v0) hI.nodup ho)
  have hk2' : ∀ k ∈ ls2, k ∈ w1.keys := by
    intro k hk
    obtain ⟨o, ho, rfl, _⟩ := (S.mem2 k).mp hk
    rw [S.keys1]
    exact World.mem_keys_of_find (find_advance (w := v0) hI.nodup ho)
  have hk2 : ∀ k ∈ ks3, k ∈ w2.keys := by
    intro k hk
    rw [S.ks3eq] at hk
    rw [S.keys2]
    rcases List.mem_append.mp hk with hk | hk
    · have hk1 : k ∈ ks1 := by
        rw [R.E1.unmatchedO, mem_unmatchedOf] at hk
        obtain ⟨j, hj, _⟩ := hk
        exact List.mem_of_getElem? hj
      rw [R.ks1def] at hk1
      exact hk1' k hk1
    · obtain ⟨o, ho, rfl, _⟩ := mem_deadKeys (w := v0) hk
      exact World.mem_keys_of_find (find_advance (w := v0) hI.nodup ho)
  have hcl : (w2.objects out2.matchedO).length = out2.matchedO.length := World.objects_length hc2
  have hol : (w2.objects ks3).length = ks3.length := World.objects_length hk2
  -- the matching
  obtain ⟨d, pairs, hdist, G, P1, P2⟩ : ∃ (d : Nat → Nat → D) (pairs : List (Nat × Nat)),
      (∀ i j c o, (w2.objects out2.matchedO)[i]? = some c → (w2.objects ks3)[j]? = some o →
        ReidDist g ⟨c, w2.heap c.lastDet, c.past.map w2.heap⟩ ⟨o, w2.heap o.lastDet, o.past.map w2.heap⟩ (d i j)) ∧
      GreedyMatching out2.matchedO.length ks3.length d cfg.reidThr pairs ∧
      Picks out2.matchedO (pairs.map Prod.fst) (m3.map Prod.fst) ∧ Picks ks3 (pairs.map Prod.snd) (m3.map Prod.snd) := by
    by_cases hc : out2.matchedO = []
    · refine ⟨fun _ _ => ⊤, [], ?_, ⟨by simp, by simp, by simp, by simp, by simp, by simp [hc]⟩, ?_, ?_⟩
      · intro i j c o hi
        rw [hc] at hi
        simp [World.objects] at hi
      · rw [S.reid.noCands hc]; exact .nil
      · rw [S.reid.noCands hc]; exact .nil
    · obtain ⟨d, pairs, ⟨M, hM, hMd⟩, G, P1, P2⟩ := S.reid.greedy g hg hc
      refine ⟨d, pairs, ?_, G, P1, P2⟩
      intro i j c o hi hj
      exact reidDistances_dist hM hi hj (hMd i j (hcl ▸ (List.getElem?_eq_some_iff.mp hi).1)
        (hol ▸ (List.getElem?_eq_some_iff.mp hj).1))
  have hcmap : ∀ i : Nat, (w2.objects out2.matchedO)[i]?.map (fun o => o.initId) = out2.matchedO[i]? := by
    intro i
    rw [← List.getElem?_map, objects_keys hc2]
  have homap : ∀ i : Nat, (w2.objects ks3)[i]?.map (fun o => o.initId) = ks3[i]? := by
    intro i
    rw [← List.getElem?_map, objects_keys hk2]
  have hfst : pairs.filterMap (fun p => (w2.objects out2.matchedO)[p.1]?.map (fun o => o.initId)) = m3.map Prod.fst := by
    simp only [hcmap]
    exact (picks_filterMap P1).symm
  have hsnd : pairs.filterMap (fun p => (w2.objects ks3)[p.2]?.map (fun o => o.initId)) = m3.map Prod.snd := by
    simp only [homap]
    exact (picks_filterMap P2).symm
  have hdisj : ∀ c ∈ m3.map Prod.fst, c ∉ m3.map Prod.snd := fun c hc hc' =>
    S.disj23 c (S.reid.candsSub c hc) c (S.reid.keysSub c hc') rfl
  have hcomp : ∀ init, (compared cfg ct w.objs init).map (·.initId) = (roundObjs cfg v0 init).map (·.initId) := by
    intro init
    unfold compared roundObjs
    rw [List.map_map]
    apply List.map_congr_left
    intro o _
    exact stepped_initId cfg ct o
  have hround : ∀ b o, o ∈ roundObjs cfg v0 b → o ∈ survivors cfg w.objs ∧ 0 ≤ o.hitCounter ∧ o.isInit = b := by
    intro b o ho
    unfold roundObjs at ho
    rw [List.mem_filter, decide_eq_true_eq] at ho
    obtain ⟨h1, h2⟩ := (canMatch_iff ho.1).mp ho.2.1
    exact ⟨h1, h2, ho.2.2⟩
  obtain ⟨m1, S1, n1, sub1, perm1, mo1, un1, uo1, same1⟩ :=
    stageDet_ok cfg period _ _ S.ks1Nodup _ hk1' S.s1
  obtain ⟨m2, S2, n2, sub2, perm2, mo2, un2, uo2, same2⟩ :=
    stageDet_ok cfg period w1 ls2 S.ks2Nodup out1.unmatchedC hk2' S.s2
  have hin : ∀ {k o}, w2.find k = some o → o ∈ w0.objs := by
    intro k o ho
    rw [e2]
    exact List.mem_append_left _ (World.find_some ho).1
  have hgetc : ∀ {init : Bool} {j : Nat} {o}, (compared cfg ct w.objs init)[j]? = some o →
      ∃ q, (roundObjs cfg v0 init)[j]? = some q ∧ o = stepped cfg ct q := by
    intro init j o hj
    unfold compared at hj
    rw [List.getElem?_map] at hj
    obtain ⟨q, hq, rfl⟩ := Option.map_eq_some_iff.mp hj
    exact ⟨q, hq, rfl⟩
  have hnotpick : ∀ {ks : List Nat} {idx : List Nat} {as : List Nat} {j k : Nat}, ks.Nodup → Picks ks idx as →
      ks[j]? = some k → j ∉ idx → k ∉ as := by
    intro ks idx as j k hnd hP hj hn hk
    obtain ⟨i, hi, hi'⟩ := hP.mem hk
    have : j = i := (List.getElem?_inj (List.getElem?_eq_some_iff.mp hj).1 hnd).mp (hj.trans hi'.symm)
    exact hn (this ▸ hi)
  refine ⟨w0, _, w1.heap, w2.heap, d1, d2, d, p1, p2, pairs, out1.unmatchedC, out2.unmatchedC,
    w2.objects out2.matchedO, w2.objects ks3, hupd, fun r => (S.heap1 r).1, fun r => (S.heap2 r).1,
    fun f hf => (rounds_spec (cfg := cfg.noReid) hf R).1, ?_, fun f hf => (rounds_spec (cfg := cfg.noReid) hf R).2,
    ?_, ?_, ?_, ?_, ?_, ?_, ?_, ?_, hdist, by rw [hcl, hol]; exact G, ?_, ?_, ?_⟩
  · intro j o hj hnj
    obtain ⟨q, hq, rfl⟩ := hgetc hj
    have hk : ks1[j]? = some q.initId := by
      rw [R.ks1eq, List.getElem?_map]
      show (roundObjs cfg v0 false)[j]?.map _ = _
      rw [hq]; rfl
    have hnm := hnotpick (by rw [R.ks1def]; exact S.ks1Nodup) R.E1.matchedO hk hnj
    rw [mo1] at hnm
    obtain ⟨o', ho', hcase⟩ := S1.fate _ _ (find_advance (w := v0) hI.nodup (hround _ q (List.mem_of_getElem? hq)).1)
    rcases hcase with ⟨_, v, rfl⟩ | ⟨r, v, hr, _⟩
    · exact ⟨v, hin (same2 _ _ ho' (fun hx => S.disj12 _ (R.ks1def ▸ List.mem_of_getElem? hk) hx))⟩
    · exact absurd (List.mem_map_of_mem (f := Prod.snd) hr) hnm
  · intro j o hj hnj
    obtain ⟨q, hq, rfl⟩ := hgetc hj
    have hk : ls2[j]? = some q.initId := by
      rw [R.ks2eq, List.getElem?_map]
      show (roundObjs cfg v0 true)[j]?.map _ = _
      rw [hq]; rfl
    have hnm := hnotpick S.ks2Nodup R.E2.matchedO hk hnj
    rw [mo2] at hnm
    have hstart : w1.find q.initId = some (stepped cfg ct q) :=
      same1 _ _ (find_advance (w := v0) hI.nodup (hround _ q (List.mem_of_getElem? hq)).1)
        (fun hx => S.disj12 _ hx (List.mem_of_getElem? hk))
    obtain ⟨o', ho', hcase⟩ := S2.fate _ _ hstart
    rcases hcase with ⟨_, v, rfl⟩ | ⟨r, v, hr, _⟩
    · exact ⟨v, hin ho'⟩
    · exact absurd (List.mem_map_of_mem (f := Prod.snd) hr) hnm
  · intro o ho hW
    obtain ⟨hm, hneg, hc⟩ := hW
    have hs : o ∈ survivors cfg w.objs := by
      rw [mem_survivors]
      refine ⟨ho, Or.inr ⟨hm, ?_⟩⟩
      cases hh : o.reidHitCounter with
      | none => exact Or.inl rfl
      | some r => exact Or.inr ⟨r, rfl, hc r hh⟩
    have hno : ∀ p ∈ survivors cfg w.objs, p.initId = o.initId → 0 ≤ p.hitCounter → False := by
      intro p hp e h0
      have : p = o := World.eq_of_mem_of_key hI.nodup ((survivors_sublist cfg w.objs).subset hp) ho e
      subst this
      omega
    refine hin (k := o.initId) (same2 _ _ (same1 _ _ (find_advance (w := v0) hI.nodup hs) ?_) ?_)
    · intro hx
      obtain ⟨p, hp, e, h0, _⟩ := (S.mem1 _).mp hx
      exact hno p hp e h0
    · intro hx
      obtain ⟨p, hp, e, h0, _⟩ := (S.mem2 _).mp hx
      exact hno p hp e h0
  · obtain ⟨news2, b1, b2, b3, b4⟩ := R.news
    refine ⟨u3.objs, news2, b1, b4, b2, fun o ho => ⟨b3 o ho, ?_⟩⟩
    obtain ⟨news3, c1, _, _, _, _, c6⟩ := foldl_create cfg.noReid period ct out2.unmatchedC u3
    have hc : news3 = news2 := List.append_cancel_left (c1.symm.trans (by rw [← R.S.s4]; exact b1))
    subst hc
    obtain ⟨i, hi⟩ := List.mem_iff_getElem.mp ho
    obtain ⟨hi, rfl⟩ := hi
    obtain ⟨wi, hwi, _⟩ := (List.forall₂_iff_get.mp c6).2 i ((List.forall₂_iff_get.mp c6).1 ▸ hi) hi
    rw [List.get_eq_getElem, List.get_eq_getElem] at hwi
    obtain ⟨g0, hg0⟩ := newObj_fields cfg.noReid wi _ period ct
    rw [hwi, hg0]
    exact ⟨rfl, rfl, rfl⟩
  · intro o ho
    obtain ⟨k, hkm, hk⟩ := List.mem_filterMap.mp ho
    refine ⟨hin hk, ?_⟩
    obtain ⟨i, hi, hik⟩ := R.E2.matchedO.mem hkm
    obtain ⟨p, hp, rfl⟩ := List.mem_map.mp hi
    obtain ⟨r, k', o', hr, hk', ho', hlast, -⟩ := R.E2.hits p hp
    rw [hik] at hk'
    cases hk'
    rw [hk] at ho'
    cases ho'
    have hkr : k ∈ (roundObjs cfg v0 true).map (fun o => o.initId) := R.ks2eq ▸ List.mem_of_getElem? hik
    obtain ⟨q, hq, rfl⟩ := List.mem_map.mp hkr
    obtain ⟨o'', ho'', hcase⟩ := S2.fate _ _ (R.find2 q hq)
    rw [hk] at ho''
    cases ho''
    obtain ⟨hq1, hq2, hq3⟩ := hround _ q hq
    rcases hcase with ⟨hn, _⟩ | ⟨r', v, hr', hhit⟩
    · exact absurd (mo2 ▸ hkm) hn
    · refine ⟨?_, q, (survivors_sublist cfg w.objs).subset hq1, (World.find_some hk).2.symm, hq3, ?_⟩
      · rw [hlast]
        have := List.mem_of_getElem? hr
        rw [R.E1.unmatchedC, mem_unmatchedOf] at this
        obtain ⟨j, hj, _⟩ := this
        exact List.mem_of_getElem? hj
      · have hf := HitFate.fields (ct := ct) (o := q) ⟨v, hhit⟩
        refine ⟨hf.label.symm, ?_⟩
        rw [hf.lastDet]
        obtain ⟨h0, g0, c0, d0, -, -, -, -, rfl⟩ := hhit
        obtain ⟨g1, hg1⟩ := stepped_eq cfg ct q
        have hpast : ({ stepped cfg ct q with curMin := v } : Obj K L D F).past = q.past := by rw [hg1]; rfl
        show ∀ r ∈ (hitObj cfg h0 g0 c0 { stepped cfg ct q with curMin := v } r' period).obj.past, r ∈ q.past ∨ r = r'
        rcases hitObj_past_eq cfg h0 g0 c0 { stepped cfg ct q with curMin := v } r' period with ⟨-, e, -⟩ | e
        · rw [e, hpast]
          exact fun r hr => Or.inl hr
        · have := condAdd_mem e
          rw [hpast] at this
          exact fun r hr => (this r hr).imp_right And.left
  · rw [objects_keys hc2, picks_filterMap R.E2.matchedO]
    apply List.filterMap_congr
    intro p _
    rw [← List.getElem?_map, R.ks2eq, hcomp]
    rfl
  · intro o ho
    obtain ⟨k, hkm, hk⟩ := List.mem_filterMap.mp ho
    refine ⟨hin hk, ?_⟩
    have hq : ∃ q ∈ survivors cfg w.objs, q.initId = k ∧ ∃ v, o = { stepped cfg ct q with curMin := v } := by
      rw [S.ks3eq] at hkm
      rcases List.mem_append.mp hkm with hkm | hkm
      · obtain ⟨hk1, hkn⟩ := (uo1 k).mp hkm
        have hkr : k ∈ (roundObjs cfg v0 false).map (fun o => o.initId) := by
          have e : stage1Keys cfg ct v0 = (roundObjs cfg v0 false).map (fun o => o.initId) :=
            R.ks1def.symm.trans R.ks1eq
          rwa [← e]
        obtain ⟨q, hq, rfl⟩ := List.mem_map.mp hkr
        refine ⟨q, (hround _ q hq).1, rfl, ?_⟩
        obtain ⟨o', ho', hcase⟩ := S1.fate _ _ (R.find1 q hq)
        have := same2 _ _ ho' fun hx => S.disj12 _ hk1 hx
        rw [hk] at this
        cases this
        rcases hcase with ⟨_, v, rfl⟩ | ⟨r, v, hr, _⟩
        · exact ⟨v, rfl⟩
        · exact absurd (List.mem_map_of_mem (f := Prod.snd) hr) hkn
      · obtain ⟨q, hq, rfl, hneg, -⟩ := mem_deadKeys (w := v0) hkm
        refine ⟨q, hq, rfl, (stepped cfg ct q).curMin, ?_⟩
        have hno : ∀ p ∈ survivors cfg w.objs, p.initId = q.initId → 0 ≤ p.hitCounter → False := by
          intro p hp e h0
          have : p = q := World.eq_of_mem_of_key hI.nodup ((survivors_sublist cfg w.objs).subset hp)
            ((survivors_sublist cfg w.objs).subset hq) e
          subst this
          simp [Obj.hcPos, h0] at hneg
        have := same2 _ _ (same1 _ _ (find_advance (w := v0) hI.nodup hq) (fun hx => by
          obtain ⟨p, hp, e, h0, _⟩ := (S.mem1 _).mp hx
          exact hno p hp e h0)) (fun hx => by
          obtain ⟨p, hp, e, h0, _⟩ := (S.mem2 _).mp hx
          exact hno p hp e h0)
        rw [hk] at this
        cases this
        rfl
    obtain ⟨q, hq, -, v, rfl⟩ := hq
    obtain ⟨g1, hg1⟩ := stepped_eq cfg ct q
    refine ⟨q, (survivors_sublist cfg w.objs).subset hq, ?_⟩
    rw [hg1]
    exact ⟨rfl, rfl, rfl, rfl, rfl⟩
  · rw [objects_keys hk2, S.ks3eq, List.map_append, R.E1.unmatchedO, leftOver_eq, waiting_eq, ← leftOver_map, R.ks1eq,
      hcomp]
    rfl
  · rw [List.map_append, objects_keys hc2, objects_keys hk2]
    exact List.nodup_append.mpr ⟨R.E2.matchedO.nodup R.E2.greedy.colsNodup S.ks2Nodup, S.ks3Nodup, S.disj23⟩
  · intro p hp
    obtain ⟨i, hi⟩ := List.mem_iff_getElem?.mp hp
    have hilt := (List.getElem?_eq_some_iff.mp hi).1
    have hl := P1.length_eq
    rw [List.length_map, List.length_map] at hl
    have hg1 := (List.forall₂_iff_get.mp P1).2 i (by simpa using hilt) (by simpa [← hl] using hilt)
    have hg2 := (List.forall₂_iff_get.mp P2).2 i (by simpa using hilt) (by simpa [← hl] using hilt)
    simp only [List.get_eq_getElem, List.getElem_map] at hg1 hg2
    rw [(List.getElem?_eq_some_iff.mp hi).2] at hg1 hg2
    set ck := m3[i]'(by rw [← hl]; exact hilt) with hck
    have hmem : ck ∈ m3 := List.getElem_mem _
    obtain ⟨c, k⟩ := ck
    simp only at hg1 hg2
    have hc : c ∈ m3.map Prod.fst := List.mem_map_of_mem (f := Prod.fst) hmem
    have hk : k ∈ m3.map Prod.snd := List.mem_map_of_mem (f := Prod.snd) hmem
    obtain ⟨oc, hoc⟩ := World.find_isSome_of_mem (hc2 c (S.reid.candsSub c hc))
    obtain ⟨o, ho⟩ := World.find_isSome_of_mem (hk2 k (S.reid.keysSub k hk))
    obtain ⟨o', ho', hcase⟩ := S.reid.fate k _ ho (fun hx => hdisj k hx hk)
    rcases hcase with ⟨hn, _⟩ | ⟨c', oc', v', hc', hoc', hmerge⟩
    · exact absurd hk hn
    · have : (c', k) = (c, k) := List.inj_on_of_nodup_map S.reid.keysNodup hc' hmem rfl
      cases this
      rw [hoc] at hoc'
      cases hoc'
      obtain ⟨hp, hag, herr, rfl⟩ := hmerge
      have hmem' := (World.find_some ho').1
      unfold mergeObj at hmem'
      simp only [mul_comm _ (2 : Int)] at hmem'
      refine ⟨oc, o, _, by rw [World.objects_getElem? hc2, hg1]; exact hoc,
        by rw [World.objects_getElem? hk2, hg2]; exact ho, by rw [hw']; exact List.mem_append_left _ hmem',
        fun r hr => condAddAll_mem _ _ _ r hr⟩
  · rw [hfst, hw', e2, List.map_append, List.map_append, List.filter_append]
    congr 1
    · exact S.reid.left
    · rw [List.filter_eq_self.mpr]
      intro k hk
      simp only [decide_eq_true_eq]
      intro hc
      have := hkb k (hkw k (hc2 k (S.reid.candsSub k hc)))
      have := hnk k hk
      omega
  · rw [hfst, hsnd]
    intro o ho n1 n2
    rw [e2] at ho
    rw [hw']
    rcases List.mem_append.mp ho with ho | ho
    · obtain ⟨o', ho', hcase⟩ := S.reid.fate _ _ (World.find_of_mem hn2 ho) n1
      rcases hcase with ⟨_, v, rfl, _⟩ | ⟨c, _, _, hc, _⟩
      · exact ⟨v, List.mem_append_left _ (World.find_some ho').1⟩
      · exact absurd (List.mem_map_of_mem (f := Prod.snd) hc) n2
    · exact ⟨o.curMin, List.mem_append_right _ ho⟩

/-- **C97** With a ReID distance, a successful `update` has a third round of matching: the initializing objects that
got a detection in the second round, in the order in which they were matched, are compared with the initialized
objects that got none in the first round and, after them, the dead objects that are kept for ReID. The matched pairs
are a greedy matching for the ReID distances below the ReID threshold; the old object of such a pair takes over the
new one, which disappears. Nothing else differs from the same call without ReID (which leads to `w0`), but
`current_min_distance`. (`h1`, `h2`: the rounds change only `age`s of detections.) -/
theorem C97_third_round {cfg : Cfg K L D F X} {f} (hf : cfg.dist = .scalar f) {g} (hg : cfg.reid = some g)
    {w w' : World K L D F X} (hw : Reachable cfg w) {dets : Option (List Ref)} {period : Int}
    {ct : Option (CoordTrans K)} {act : List (Obj K L D F)}
    (h : update cfg w dets period ct = (w', .ok act)) :
    ∃ w0 act0 h1 h2 d1 d2 d pairs1 pairs2 pairs rest1 rest2 cands olds,
      update { cfg with reid := none } w dets period ct = (w0, .ok act0) ∧
      (∀ r, ∃ a, h1 r = { startHeap w dets ct r with age := a }) ∧
      (∀ r, ∃ a, h2 r = { startHeap w dets ct r with age := a }) ∧
      Round f cfg.thr (startHeap w dets ct) (compared cfg ct w.objs false) (dets.getD []) d1 pairs1 rest1
        w0.objs ∧
      (∀ j o, (compared cfg ct w.objs false)[j]? = some o → j ∉ pairs1.map Prod.snd →
        ∃ v, { o with curMin := v } ∈ w0.objs) ∧
      Round f cfg.thr h1 (compared cfg ct w.objs true) rest1 d2 pairs2 rest2 w0.objs ∧
      (∀ j o, (compared cfg ct w.objs true)[j]? = some o → j ∉ pairs2.map Prod.snd →
        ∃ v, { o with curMin := v } ∈ w0.objs) ∧
      (∀ o ∈ w.objs, Waits cfg.reidMax o → (o.trackerStep cfg).updateCT ct ∈ w0.objs) ∧
      (∃ old news, w0.objs = old ++ news ∧ (∀ o ∈ old, o.initId ∈ w.objs.map (·.initId)) ∧
        news.map (·.lastDet) = rest2 ∧ ∀ o ∈ news, w.initCount < o.initId ∧ o.hitCounter = period ∧
          o.reidHitCounter = none ∧ o.isInit = decide (period ≤ cfg.initDelay)) ∧
      (∀ c ∈ cands, c ∈ w0.objs) ∧
      cands.map (·.initId) = pairs2.filterMap (fun p => (compared cfg ct w.objs true)[p.2]?.map (·.initId)) ∧
      (∀ o ∈ olds, o ∈ w0.objs) ∧
      olds.map (·.initId) = (leftOver (compared cfg ct w.objs false) (pairs1.map Prod.snd) ++
        w.objs.filter (fun o => decide (Waits cfg.reidMax o))).map (·.initId) ∧
      ReidRound g cfg.reidThr h2 cands olds d pairs w0.objs w'.objs := by
  obtain ⟨w0, act0, h1, h2, d1, d2, d, pairs1, pairs2, pairs, rest1, rest2, cands, olds, hu, a1, a2, r1, a3, r2, a4, a5, a6,
    a7, a8, a9, a10, a11⟩ := C97_third_round_any hg hw h
  exact ⟨w0, act0, h1, h2, d1, d2, d, pairs1, pairs2, pairs, rest1, rest2, cands, olds, hu, a1, a2, r1 f hf, a3, r2 f hf, a4,
    a5, a6, fun c hc => (a7 c hc).1, a8, fun o ho => (a9 o ho).1, a10, a11⟩

end

/-- the hypotheses are met: the object of 50 and 51, matched in the second round of the last call, is recognized as the
object of 0, 1 and 2, that is alive but was not matched in the first round -/
example : ∃ act, update rcfg (run rcfg w0 [[0], [1], [2], [50]]) (some [51]) 1 none =
    ((update rcfg (run rcfg w0 [[0], [1], [2], [50]]) (some [51]) 1 none).1, .ok act) := exists_ok (by decide +kernel)

example : Reachable rcfg (run rcfg w0 [[0], [1], [2], [50]]) := ⟨w0, ⟨rfl, rfl, rfl⟩, run_reaches _ _ _ _ (.refl _)⟩

example : (run rcfg w0 [[0], [1], [2], [50]]).objs.map (fun o => (o.initId, o.isInit, o.lastDet)) =
      [(1, false, 2), (2, true, 50)] ∧
    ((update { rcfg with reid := none } (run rcfg w0 [[0], [1], [2], [50]]) (some [51]) 1 none).1.objs.map
      fun o => (o.initId, o.lastDet)) = [(1, 2), (2, 51)] ∧
    ((update rcfg (run rcfg w0 [[0], [1], [2], [50]]) (some [51]) 1 none).1.objs.map
      fun o => (o.initId, o.id, o.lastDet)) = [(1, some 1, 51)] := by decide +kernel

end Norfair.Props
