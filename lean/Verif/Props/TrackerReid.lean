import Verif.Lemmas.StageExact
import Verif.Lemmas.Sys
import Verif.Lemmas.ObjFields
import Verif.Props.Toy

/-! C20: what the ReID stage of `update` does. -/

set_option linter.unusedSectionVars false

namespace Norfair.Props

open Norfair Norfair.Spec Norfair.Toy

variable {K L D F X : Type}

section
variable [LinearOrder K] [Zero K] [LinearOrder D] [OrderTop D] [Zero D] [DecidableEq L]

/-- The object `o` takes over the object `c`: `o'` is `o` with everything that `merge` copies
from `c`, and the past detections `past`. -/
def Takeover (o c : Obj K L D F) (past : List Ref) : Obj K L D F :=
  { o with
    reidHitCounter := none
    hitCounter := 2 * o.initialPeriod
    lastDet := c.lastDet
    lastDistance := c.lastDistance
    curMin := c.curMin
    pointHits := c.pointHits
    once := c.once
    filter := c.filter
    past := past }

/-- **C20** A successful `update` does the same as the same call of a tracker without ReID distance
(state `w0`), followed by merging the pairs `merges` of (initializing object, old object):
the initializing object disappears, the old one keeps its identity and takes over the rest, and nothing
else changes (but `current_min_distance`). No object takes part in two merges. -/
theorem C20_reid_merge {cfg : Cfg K L D F X} {w w' : World K L D F X} (hw : Reachable cfg w)
    {dets : Option (List Ref)} {period : Int} {ct : Option (CoordTrans K)} {act : List (Obj K L D F)}
    (h : update cfg w dets period ct = (w', .ok act)) :
    ∃ w0 act0 merges, update { cfg with reid := none } w dets period ct = (w0, .ok act0) ∧
      (merges.map Prod.fst).Nodup ∧ (merges.map Prod.snd).Nodup ∧
      (∀ c ∈ merges.map Prod.fst, c ∉ merges.map Prod.snd) ∧
      (cfg.reid = none → merges = []) ∧
      w'.objs.map (·.initId) =
        (w0.objs.map (·.initId)).filter (fun k => decide (k ∉ merges.map Prod.fst)) ∧
      (∀ o0 ∈ w0.objs, o0.initId ∉ merges.map Prod.fst → o0.initId ∉ merges.map Prod.snd →
        ∃ v, { o0 with curMin := v } ∈ w'.objs) ∧
      ∀ c k, (c, k) ∈ merges →
        ∃ oc ∈ w.objs, oc.initId = c ∧ oc.isInit = true ∧ 0 ≤ oc.hitCounter ∧
        ∃ oc0 ∈ w0.objs, oc0.initId = c ∧ oc0.lastDet ∈ dets.getD [] ∧
        ∃ o ∈ w.objs, o.initId = k ∧
          ((0 ≤ o.hitCounter ∧ o.isInit = false) ∨ (o.hitCounter < 0 ∧ cfg.reidMax ≠ none)) ∧
        ∃ o0 ∈ w0.objs, o0.initId = k ∧ o0.id = o.id ∧ o0.globalId = o.globalId ∧ o0.label = o.label ∧
          oc0.label = o.label ∧ o0.age = o.age + 1 ∧ o0.initialPeriod = o.initialPeriod ∧
          o0.isInit = o.isInit ∧ o0.lastDet = o.lastDet ∧
        ∃ past, Takeover o0 oc0 past ∈ w'.objs ∧ (∀ r ∈ past, r ∈ o0.past ∨ r ∈ oc0.past) := by
  obtain ⟨s0, hs0, hr⟩ := hw
  have hI : Inv w := (hr.inv (Inv.initial hs0)).1
  obtain ⟨w1, w2, w3, out1, out2, ks2, ks3, m3, S⟩ := update_stages hI.nodup h
  set v0 : World K L D F X := { w with heap := startHeap w dets ct } with hv0
  have hcore := updateCore_noReid_eq S.s1 (by rw [← S.ks2eq]; exact S.s2)
  have hupd : update { cfg with reid := none } w dets period ct =
      (out2.unmatchedC.foldl (fun w r => createObj cfg w r period ct) w2,
        .ok (activeObjects (out2.unmatchedC.foldl (fun w r => createObj cfg w r period ct) w2))) := by
    rw [← hcore]
    unfold update at h ⊢
    simp only [updateCoreNone_eq] at h ⊢
    unfold Cfg.noReid
    rw [hv0]
    unfold startHeap
    cases ct with
    | none => cases dets <;> rfl
    | some c =>
      cases dets with
      | none => simp at h
      | some l => rfl
  obtain ⟨m1, S1, n1, sub1, perm1, mo1, un1, uo1, same1⟩ :=
    stageDet_ok cfg period _ _ S.ks1Nodup _ (by
      intro k hk
      obtain ⟨o, ho, rfl, _⟩ := (S.mem1 k).mp hk
      exact World.mem_keys_of_find (find_advance hI.nodup ho)) S.s1
  have hk2 : ∀ k ∈ ks2, k ∈ w1.keys := by
    intro k hk
    rw [S.keys1]
    obtain ⟨o, ho, rfl, _⟩ := (S.mem2 k).mp hk
    exact World.mem_keys_of_find (find_advance (w := v0) hI.nodup ho)
  obtain ⟨m2, S2, n2, sub2, perm2, mo2, un2, uo2, same2⟩ :=
    stageDet_ok cfg period w1 ks2 S.ks2Nodup out1.unmatchedC hk2 S.s2
  obtain ⟨d2, pairs2, E2⟩ := stageDet_exact cfg period w1 ks2 S.ks2Nodup out1.unmatchedC hk2 S.s2
  obtain ⟨news, e3, e2⟩ := foldl_create_congr cfg period ct out2.unmatchedC w3 w2 S.reid.count
    S.reid.gcount S.reid.initCount (fun r => by
      obtain ⟨a, ha⟩ := (S.reid.heap r).1
      refine ⟨(w2.heap r).age, ?_⟩
      rw [ha])
  obtain ⟨news', f1, _, _, _, f5, _⟩ := foldl_create cfg period ct out2.unmatchedC w3
  have hnews : news' = news := List.append_cancel_left (f1.symm.trans e3)
  subst hnews
  have hw' : w'.objs = w3.objs ++ news' := by rw [S.s4]; exact e3
  have hnk : ∀ k ∈ news'.map (·.initId), w.initCount < k := by
    intro k hk
    rw [f5] at hk
    obtain ⟨i, _, rfl⟩ := List.mem_map.mp hk
    rw [S.init3]
    show w.initCount < w.initCount + 1 + i
    omega
  have hcand : ∀ c ∈ m3.map Prod.fst, ∃ oc ∈ w.objs, oc.initId = c ∧ oc.isInit = true ∧
      0 ≤ oc.hitCounter := by
    intro c hc
    obtain ⟨oc, ho, e, h1, h2⟩ := (S.mem2 c).mp (S.candsSub c (S.reid.candsSub c hc))
    exact ⟨oc, (survivors_sublist cfg w.objs).subset ho, e, h2, h1⟩
  have hdisj : ∀ c ∈ m3.map Prod.fst, c ∉ m3.map Prod.snd := fun c hc hc' =>
    S.disj23 c (S.reid.candsSub c hc) c (S.reid.keysSub c hc') rfl
  have hn2 : w2.keys.Nodup := by rw [S.keys2]; exact S.nodup
  -- the old objects of the third stage
  have htarget : ∀ k ∈ ks3, ∃ o ∈ w.objs, o.initId = k ∧
      ((0 ≤ o.hitCounter ∧ o.isInit = false) ∨ (o.hitCounter < 0 ∧ cfg.reidMax ≠ none)) ∧
      ∃ v, w2.find k = some { stepped cfg ct o with curMin := v } := by
    intro k hk
    rw [S.ks3eq] at hk
    rcases List.mem_append.mp hk with hk | hk
    · obtain ⟨hk1, hkm⟩ := (uo1 k).mp hk
      obtain ⟨o, ho, rfl, h1, h2⟩ := (S.mem1 k).mp hk1
      refine ⟨o, (survivors_sublist cfg w.objs).subset ho, rfl, Or.inl ⟨h1, h2⟩, ?_⟩
      obtain ⟨o', ho', hcase⟩ := S1.fate _ _ (find_advance (w := v0) hI.nodup ho)
      rcases hcase with ⟨_, v, rfl⟩ | ⟨r, v, hr, _⟩
      · exact ⟨v, same2 _ _ ho' (fun hx => S.disj12 _ hk1 hx)⟩
      · exact absurd (List.mem_map_of_mem (f := Prod.snd) hr) hkm
    · obtain ⟨o, ho, rfl, h1, h2⟩ := mem_deadKeys (w := w) hk
      have hneg : o.hitCounter < 0 := by
        unfold Obj.hcPos at h1
        simpa using h1
      refine ⟨o, (survivors_sublist cfg w.objs).subset ho, rfl, Or.inr ⟨hneg, h2⟩, (stepped cfg ct o).curMin, ?_⟩
      have hno : ∀ p ∈ survivors cfg v0.objs, p.initId = o.initId → 0 ≤ p.hitCounter → False := by
        intro p hp e h0
        have : p = o := World.eq_of_mem_of_key hI.nodup ((survivors_sublist cfg w.objs).subset hp)
          ((survivors_sublist cfg w.objs).subset ho) e
        subst this
        omega
      apply same2
      · apply same1 _ _ (find_advance (w := v0) hI.nodup ho)
        intro hx
        obtain ⟨p, hp, e, h0, _⟩ := (S.mem1 _).mp hx
        exact hno p hp e h0
      · intro hx
        obtain ⟨p, hp, e, h0, _⟩ := (S.mem2 _).mp hx
        exact hno p hp e h0
  refine ⟨_, _, m3, hupd, S.reid.candsNodup, S.reid.keysNodup, hdisj, S.reid.noreid, ?_, ?_, ?_⟩
  · rw [hw', e2, List.map_append, List.map_append, List.filter_append]
    congr 1
    · exact S.reid.left
    · rw [List.filter_eq_self.mpr]
      intro k hk
      simp only [decide_eq_true_eq]
      intro hc
      obtain ⟨oc, ho, rfl, _⟩ := hcand k hc
      have := (hI.bounded oc ho).2
      have := hnk _ hk
      omega
  · intro o0 ho0 h1 h2
    rw [e2] at ho0
    rw [hw']
    rcases List.mem_append.mp ho0 with ho0 | ho0
    · obtain ⟨o', ho', hcase⟩ := S.reid.fate _ _ (World.find_of_mem hn2 ho0) h1
      rcases hcase with ⟨_, v, rfl, _⟩ | ⟨c, _, _, hc, _⟩
      · exact ⟨v, List.mem_append.mpr (Or.inl (World.find_some ho').1)⟩
      · exact absurd (List.mem_map_of_mem (f := Prod.snd) hc) h2
    · exact ⟨o0.curMin, List.mem_append.mpr (Or.inr ho0)⟩
  · intro c k hck
    have hc : c ∈ m3.map Prod.fst := List.mem_map_of_mem (f := Prod.fst) hck
    have hk : k ∈ m3.map Prod.snd := List.mem_map_of_mem (f := Prod.snd) hck
    obtain ⟨oc, hoc, hocid, hocI, hocH⟩ := hcand c hc
    refine ⟨oc, hoc, hocid, hocI, hocH, ?_⟩
    have hcm := S.reid.candsSub c hc
    obtain ⟨j, hj, hjc⟩ := E2.matchedO.mem hcm
    obtain ⟨p, hp, rfl⟩ := List.mem_map.mp hj
    obtain ⟨r, k', oc0, g1, g2, g3, g4, _⟩ := E2.hits p hp
    rw [hjc] at g2
    cases g2
    have hrd : r ∈ dets.getD [] := by
      have : r ∈ out1.unmatchedC := List.mem_of_getElem? g1
      exact perm1.subset (List.mem_append.mpr (Or.inr this))
    refine ⟨oc0, by rw [e2]; exact List.mem_append.mpr (Or.inl (World.find_some g3).1),
      (World.find_some g3).2, by rw [g4]; exact hrd, ?_⟩
    obtain ⟨o, ho, hok, hcond, v, hv⟩ := htarget k (S.reid.keysSub k hk)
    refine ⟨o, ho, hok, hcond, _, by rw [e2]; exact List.mem_append.mpr (Or.inl (World.find_some hv).1),
      by simpa using hok, by simp, by simp, by simp, ?_, by simp, by simp, by simp, by simp, ?_⟩
    · -- the labels
      have hreid : cfg.reid ≠ none := fun e => by rw [S.reid.noreid e] at hck; cases hck
      obtain ⟨f, hf⟩ := Option.ne_none_iff_exists'.mp hreid
      have hcne : out2.matchedO ≠ [] := List.ne_nil_of_mem hcm
      obtain ⟨d, pairs, ⟨M, hM, hMd⟩, G, P1, P2⟩ := S.reid.greedy f hf hcne
      obtain ⟨i, hi⟩ := List.mem_iff_getElem?.mp hck
      have q1 : (m3.map Prod.fst)[i]? = some c := by rw [List.getElem?_map, hi]; rfl
      have q2 : (m3.map Prod.snd)[i]? = some k := by rw [List.getElem?_map, hi]; rfl
      have l1 : i < pairs.length := by
        have := P1.length_eq
        rw [List.length_map, List.length_map] at this
        rw [this]
        exact (List.getElem?_eq_some_iff.mp hi).1
      have hl1 := (List.forall₂_iff_get.mp P1).2 i (by simpa using l1)
        (by rw [List.length_map]; exact (List.getElem?_eq_some_iff.mp hi).1)
      have hl2 := (List.forall₂_iff_get.mp P2).2 i (by simpa using l1)
        (by rw [List.length_map]; exact (List.getElem?_eq_some_iff.mp hi).1)
      simp only [List.get_eq_getElem, List.getElem_map] at hl1 hl2
      have hm3i : m3[i]'((List.getElem?_eq_some_iff.mp hi).1) = (c, k) :=
        (List.getElem?_eq_some_iff.mp hi).2
      rw [hm3i] at hl1 hl2
      have hbelow := G.below _ (List.getElem_mem l1)
      have hrange := G.inRange _ (List.getElem_mem l1)
      have hval := hMd _ _ hrange.1 hrange.2
      obtain ⟨_, _, hspec⟩ := reidDistances_spec hM
      have hcands2 : ∀ c ∈ out2.matchedO, c ∈ w2.keys := by
        intro c hc
        rw [S2.keys]; exact hk2 c (S.candsSub c hc)
      have hkeys2 : ∀ k ∈ ks3, k ∈ w2.keys := by
        intro k hk
        obtain ⟨_, _, _, _, v, hv⟩ := htarget k hk
        exact World.mem_keys_of_find hv
      by_contra hne
      have := hspec _ _ oc0 _ (by rw [World.objects_getElem? hcands2, hl1]; exact g3)
        (by rw [World.objects_getElem? hkeys2, hl2]; exact hv)
        (by simpa using hne)
      rw [hval] at this
      rw [Option.some.inj this] at hbelow
      exact not_top_lt hbelow
    · obtain ⟨o', ho', hcase⟩ := S.reid.fate k _ hv (fun hx => hdisj k hx hk)
      rcases hcase with ⟨hn, _⟩ | ⟨c', oc', v', hc', hoc', hmerge⟩
      · exact absurd hk hn
      · have : (c', k) = (c, k) := List.inj_on_of_nodup_map S.reid.keysNodup hc' hck rfl
        cases this
        rw [g3] at hoc'
        cases hoc'
        obtain ⟨hp, hag, herr, rfl⟩ := hmerge
        have hmem := (World.find_some ho').1
        unfold mergeObj at hmem
        simp only [mul_comm _ (2 : Int)] at hmem
        exact ⟨_, by rw [hw']; exact List.mem_append.mpr (Or.inl hmem),
          fun r hr => condAddAll_mem _ _ _ r hr⟩

end

/-- In the fifth call object 2, still initializing, is merged into object 1, which was initialized
and not matched: object 1 takes over the detection and the counters, object 2 disappears. -/
example :
    (run rcfg w0 [[0], [1], [2], [50]]).objs.map
      (fun o => (o.initId, o.isInit, o.hitCounter, o.lastDet)) =
        [(1, false, 2, 2), (2, true, 1, 50)] ∧
    (update { rcfg with reid := none } (run rcfg w0 [[0], [1], [2], [50]]) (some [51]) 1 none).1.objs.map
      (fun o => (o.initId, o.isInit, o.hitCounter, o.lastDet)) =
        [(1, false, 1, 2), (2, false, 2, 51)] ∧
    (update rcfg (run rcfg w0 [[0], [1], [2], [50]]) (some [51]) 1 none).1.objs.map
      (fun o => (o.initId, o.isInit, o.hitCounter, o.lastDet)) =
        [(1, false, 2, 51)] := by decide +kernel

example : ∃ act, update rcfg (run rcfg w0 [[0], [1], [2], [50]]) (some [51]) 1 none =
    ((update rcfg (run rcfg w0 [[0], [1], [2], [50]]) (some [51]) 1 none).1, .ok act) :=
  exists_ok (by decide +kernel)

end Norfair.Props
