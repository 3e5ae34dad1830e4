import Verif.Lemmas.Rounds
import Verif.Lemmas.Past
import Verif.Lemmas.Trace
import Verif.Lemmas.Sys
import Verif.Lemmas.PointsInv
import Verif.Lemmas.FilterLaws
import Verif.Props.Toy
import Verif.Props.TrackerPoints

/-! C64-C67: which detection goes to which object, `current_min_distance`, and that `update` gets
through. -/

set_option linter.unusedSectionVars false

namespace Norfair.Props

open Norfair Norfair.Spec Norfair.Toy

variable {K L D F X : Type}

section
variable [LinearOrder K] [Zero K] [LinearOrder D] [OrderTop D] [Zero D] [DecidableEq L]

/-- the alive objects that are initializing (or not), in the order of `tracked_objects`, each after its
step (prediction) in this call -/
def compared (cfg : Cfg K L D F X) (ct : Option (CoordTrans K)) (objs : List (Obj K L D F)) (init : Bool) :
    List (Obj K L D F) :=
  (objs.filter (fun o => decide (CanMatch cfg.reidMax o ∧ o.isInit = init))).map
    (fun o => (o.trackerStep cfg).updateCT ct)

/-- the two rounds of a successful call, in the words of the specification -/
theorem rounds_spec {cfg : Cfg K L D F X} {f} (hf : cfg.dist = .scalar f) {w w' : World K L D F X}
    {dets : Option (List Ref)} {period : Int} {ct : Option (CoordTrans K)} {w1 w2 w3 : World K L D F X}
    {out1 out2 : StageOut Ref} {ks1 ks2 ks3 : List Nat} {m3 : List (Nat × Nat)} {d1 d2 : Nat → Nat → D}
    {p1 p2 : List (Nat × Nat)}
    (R : TwoRounds cfg { w with heap := startHeap w dets ct } (dets.getD []) period ct w' w1 w2 w3 out1 out2
      ks1 ks2 ks3 m3 d1 d2 p1 p2) :
    Round f cfg.thr (startHeap w dets ct) (compared cfg ct w.objs false) (dets.getD []) d1 p1 out1.unmatchedC
      w'.objs ∧
    Round f cfg.thr w1.heap (compared cfg ct w.objs true) out1.unmatchedC d2 p2 out2.unmatchedC w'.objs := by
  have hlen1 : ks1.length = (compared cfg ct w.objs false).length := by
    rw [R.ks1eq]; simp [compared, roundObjs]
  have hlen2 : ks2.length = (compared cfg ct w.objs true).length := by
    rw [R.ks2eq]; simp [compared, roundObjs]
  constructor
  · refine ⟨?_, by rw [← hlen1]; exact R.E1.greedy, by rw [R.E1.unmatchedC, leftOver_eq], ?_⟩
    · intro i j r o hi hj
      have hne : dets.getD [] ≠ [] := List.ne_nil_of_mem (List.mem_of_getElem? hi)
      have := R.E1.dist hne
      rw [R.objs1] at this
      exact distancesOk_scalar hf this hi hj
    · intro p hp
      obtain ⟨r, k, o', a1, a2, a3, a4, a5⟩ := R.E1.hits p hp
      rw [R.ks1eq, List.getElem?_map] at a2
      obtain ⟨o, ho, rfl⟩ := Option.map_eq_some_iff.mp a2
      have hk1 : o.initId ∈ ks1 := by
        rw [R.ks1eq]; exact List.mem_map_of_mem (List.mem_of_getElem? ho)
      refine ⟨r, stepped cfg ct o, a1, ?_, ?_⟩
      · unfold compared
        rw [List.getElem?_map]
        exact Option.map_eq_some_iff.mpr ⟨o, ho, rfl⟩
      · intro q hq hqid
        rw [stepped_initId] at hqid
        have hnot : o.initId ∉ ks3 := by
          rw [R.matchedOut _ hk1, R.E1.unmatchedO, mem_unmatchedOf]
          rintro ⟨j, hj, hjn⟩
          rw [R.ks1eq] at hj
          have hnd := R.S.ks1Nodup
          rw [← R.ks1def, R.ks1eq] at hnd
          have : j = p.2 := (List.getElem?_inj (List.getElem?_eq_some_iff.mp hj).1 hnd).mp
            (hj.trans (by rw [List.getElem?_map, ho]; rfl))
          exact hjn (this ▸ List.mem_map_of_mem hp)
        have hkw : o.initId ∈ w.keys := List.mem_map_of_mem (by
          have := List.mem_of_getElem? ho
          unfold roundObjs at this
          exact (List.mem_filter.mp this).1)
        have e1 := R.final _ hkw hnot q hq hqid
        have e2 := R.same2 _ hk1 _ a3
        rw [e1] at e2
        cases e2
        exact ⟨a4, a5⟩
  · refine ⟨?_, by rw [← hlen2]; exact R.E2.greedy, by rw [R.E2.unmatchedC, leftOver_eq], ?_⟩
    · intro i j r o hi hj
      have hne : out1.unmatchedC ≠ [] := List.ne_nil_of_mem (List.mem_of_getElem? hi)
      have := R.E2.dist hne
      rw [R.objs2] at this
      exact distancesOk_scalar hf this hi hj
    · intro p hp
      obtain ⟨r, k, o', a1, a2, a3, a4, a5⟩ := R.E2.hits p hp
      rw [R.ks2eq, List.getElem?_map] at a2
      obtain ⟨o, ho, rfl⟩ := Option.map_eq_some_iff.mp a2
      have hk2 : o.initId ∈ ks2 := by
        rw [R.ks2eq]; exact List.mem_map_of_mem (List.mem_of_getElem? ho)
      refine ⟨r, stepped cfg ct o, a1, ?_, ?_⟩
      · unfold compared
        rw [List.getElem?_map]
        exact Option.map_eq_some_iff.mpr ⟨o, ho, rfl⟩
      · intro q hq hqid
        rw [stepped_initId] at hqid
        have hkw : o.initId ∈ w.keys := List.mem_map_of_mem (by
          have := List.mem_of_getElem? ho
          unfold roundObjs at this
          exact (List.mem_filter.mp this).1)
        have e1 := R.final _ hkw (R.notKs3 _ hk2) q hq hqid
        rw [e1] at a3
        cases a3
        exact ⟨a4, a5⟩

/-- **C64** A successful `update` with a scalar distance matches in two rounds: first all detections
with the initialized alive objects, then the detections left over with the initializing ones; each
round is a greedy matching for the distances between the detections and the predicted objects. The
detections still left over start new objects, in order. The compared objects are still tracked
afterwards (with ReID, an initializing one may have been merged into another object). (`h1`: the first
round may have changed `age`s of detections.) -/
theorem C64_two_greedy_rounds {cfg : Cfg K L D F X} {f} (hf : cfg.dist = .scalar f)
    {w w' : World K L D F X} (hw : Reachable cfg w) {dets : Option (List Ref)} {period : Int}
    {ct : Option (CoordTrans K)} {act : List (Obj K L D F)}
    (h : update cfg w dets period ct = (w', .ok act)) :
    ∃ h1 d1 d2 pairs1 pairs2 rest1 rest2,
      (∀ r, ∃ a, h1 r = { startHeap w dets ct r with age := a }) ∧
      Round f cfg.thr (startHeap w dets ct) (compared cfg ct w.objs false) (dets.getD []) d1 pairs1 rest1
        w'.objs ∧
      Round f cfg.thr h1 (compared cfg ct w.objs true) rest1 d2 pairs2 rest2 w'.objs ∧
      ∃ old news, w'.objs = old ++ news ∧ news.map (·.lastDet) = rest2 ∧
        (∀ o ∈ old, o.initId ∈ w.objs.map (·.initId)) ∧
        (∀ o ∈ news, o.initId ∉ w.objs.map (·.initId)) ∧
        (∀ o ∈ compared cfg ct w.objs false, o.initId ∈ old.map (·.initId)) ∧
        (cfg.reid = none → ∀ o ∈ compared cfg ct w.objs true, o.initId ∈ old.map (·.initId)) := by
  obtain ⟨s0, hs0, hr⟩ := hw
  have hI : Inv w := (hr.inv (Inv.initial hs0)).1
  obtain ⟨w1, w2, w3, out1, out2, ks1, ks2, ks3, m3, d1, d2, p1, p2, R⟩ := update_rounds hI h
  obtain ⟨news, n1, n2, n3, n4⟩ := R.news
  have hfresh : ∀ o ∈ news, o.initId ∉ w.objs.map (·.initId) := by
    intro o ho hx
    obtain ⟨p, hp, e⟩ := List.mem_map.mp hx
    have := (hI.bounded p hp).2
    have := n3 o ho
    simp only at this e
    omega
  have hkeep : ∀ init, (∀ k ∈ (roundObjs cfg w init).map (·.initId), ∃ o' ∈ w'.objs, o'.initId = k) →
      ∀ o ∈ compared cfg ct w.objs init, o.initId ∈ w3.objs.map (·.initId) := by
    intro init hst o ho
    obtain ⟨q, hq, rfl⟩ := List.mem_map.mp ho
    obtain ⟨o', ho', e⟩ := hst q.initId (List.mem_map_of_mem (f := fun o : Obj K L D F => o.initId) hq)
    refine List.mem_map.mpr ⟨o', ?_, e.trans (stepped_initId cfg ct q).symm⟩
    rw [n1] at ho'
    rcases List.mem_append.mp ho' with h' | h'
    · exact h'
    · exact absurd (List.mem_map.mpr ⟨q, (List.mem_filter.mp hq).1, e.symm⟩) (hfresh o' h')
  refine ⟨w1.heap, d1, d2, p1, p2, out1.unmatchedC, out2.unmatchedC, ?_, ?_, ?_,
    w3.objs, news, n1, n2, n4, hfresh, ?_, ?_⟩
  · intro r
    exact (R.S.heap1 r).1
  · exact (rounds_spec hf R).1
  · exact (rounds_spec hf R).2
  · exact hkeep false (by have := R.stays1; rw [R.ks1eq] at this; exact this)
  · exact fun hre => hkeep true (by have := R.stays2 hre; rw [R.ks2eq] at this; exact this)

/-- the distance is a function -/
theorem scalarDist_unique {f : Det K L X → ObjView K L D F X → Option (Option D)} {d : Det K L X}
    {v : ObjView K L D F X} {x y : D} (hx : ScalarDist f d v x) (hy : ScalarDist f d v y) : x = y := by
  rcases hx with ⟨h1, h2⟩ | ⟨h1, h2⟩ <;> rcases hy with ⟨h3, h4⟩ | ⟨h3, h4⟩
  · rw [h2] at h4
    cases h4
    rfl
  · exact absurd h1 h3
  · exact absurd h3 h1
  · rw [h2, h4]

theorem mem_leftOver {α : Type} {l : List α} {idx : List Nat} {a : α} (h : a ∈ leftOver l idx) :
    ∃ i, l[i]? = some a ∧ i ∉ idx := by
  unfold leftOver at h
  obtain ⟨i, _, hi⟩ := List.mem_filterMap.mp h
  split at hi
  · cases hi
  · exact ⟨i, hi, by assumption⟩

/-- **C65** No match is missed: if a detection starts a new object although an initialized alive object
is closer than the threshold, then that object got a detection of this call that is at least as close. -/
theorem C65_no_missed_match {cfg : Cfg K L D F X} {f} (hf : cfg.dist = .scalar f)
    {w w' : World K L D F X} (hw : Reachable cfg w) {dets : Option (List Ref)} {period : Int}
    {ct : Option (CoordTrans K)} {act : List (Obj K L D F)}
    (h : update cfg w dets period ct = (w', .ok act)) {o n : Obj K L D F} (ho : o ∈ w.objs)
    (hc : CanMatch cfg.reidMax o) (hi : o.isInit = false) (hn : n ∈ w'.objs)
    (hnew : n.initId ∉ w.objs.map (·.initId)) {x : D}
    (hx : ScalarDist f (startHeap w dets ct n.lastDet)
      (((o.trackerStep cfg).updateCT ct).view (startHeap w dets ct)) x) (hlt : x < cfg.thr) :
    ∃ o' ∈ w'.objs, o'.initId = o.initId ∧ o'.lastDet ∈ dets.getD [] ∧
      ∃ y ≤ x, o'.lastDistance = some y := by
  obtain ⟨h1, d1, d2, p1, p2, rest1, rest2, ha, R1, R2, old, news, e, e2, hold, hnews, _, _⟩ :=
    C64_two_greedy_rounds hf hw h
  have hn2 : n ∈ news := by
    rw [e] at hn
    rcases List.mem_append.mp hn with hn | hn
    · exact absurd (hold n hn) hnew
    · exact hn
  have hr2 : n.lastDet ∈ rest2 := by rw [← e2]; exact List.mem_map_of_mem hn2
  rw [R2.rest] at hr2
  obtain ⟨i2, hi2, _⟩ := mem_leftOver hr2
  have hr1 : n.lastDet ∈ rest1 := List.mem_of_getElem? hi2
  rw [R1.rest] at hr1
  obtain ⟨i, hi1, hin⟩ := mem_leftOver hr1
  have hoc : (o.trackerStep cfg).updateCT ct ∈ compared cfg ct w.objs false :=
    List.mem_map_of_mem (f := fun o => (o.trackerStep cfg).updateCT ct)
      (List.mem_filter.mpr ⟨ho, by simpa using ⟨hc, hi⟩⟩)
  obtain ⟨j, hj⟩ := List.mem_iff_getElem?.mp hoc
  have hd : d1 i j = x := scalarDist_unique (R1.dist i j _ _ hi1 hj) hx
  obtain ⟨p, hp, hor, hpre⟩ := R1.greedy.stable i (List.getElem?_eq_some_iff.mp hi1).1 j
    (List.getElem?_eq_some_iff.mp hj).1 (by rw [hd]; exact hlt)
  have hp2 : p.2 = j := by
    rcases hor with hor | hor
    · exact absurd (List.mem_map.mpr ⟨p, hp, hor⟩) hin
    · exact hor
  obtain ⟨r, q, hr, hq, hout⟩ := R1.outcome p hp
  rw [hp2, hj] at hq
  cases hq
  obtain ⟨s0, hs0, hrr⟩ := hw
  have hI : Inv w := (hrr.inv (Inv.initial hs0)).1
  obtain ⟨w1, w2, w3, out1, out2, ks1, ks2, ks3, m3, d1', d2', p1', p2', R⟩ := update_rounds hI h
  have hk : o.initId ∈ ks1 := by
    rw [R.ks1eq]
    exact List.mem_map_of_mem (f := fun o : Obj K L D F => o.initId)
      (List.mem_filter.mpr ⟨ho, by simpa using ⟨hc, hi⟩⟩)
  obtain ⟨o', ho', hid⟩ := R.stays1 _ hk
  have hst : ((o.trackerStep cfg).updateCT ct).initId = o.initId := stepped_initId cfg ct o
  obtain ⟨a1, a2⟩ := hout o' ho' (hid.trans hst.symm)
  refine ⟨o', ho', hid, by rw [a1]; exact List.mem_of_getElem? hr, _, ?_, a2⟩
  rw [← hd]
  rcases hpre with hlt' | ⟨heq, _⟩
  · exact hlt'.le
  · exact heq.le

/-- **C66** (partial; the full statement "after a successful update `current_min_distance` of an
initialized alive object is its smallest distance to a detection of this call if that is below the
threshold, and `None` otherwise" is false, see `C66_stale`: the code skips it if all distances of the
round are 0, or if there are no detections. Missing: these cases, and the calls in which ReID compares new objects with
old ones, which overwrites the value (`C66_false_reid`); it does not if no alive object is initializing.) `δ r` is the
distance of detection `r`. -/
theorem C66_reid_partial {cfg : Cfg K L D F X} {f} (hf : cfg.dist = .scalar f)
    {w w' : World K L D F X} (hw : Reachable cfg w)
    (hreid : cfg.reid = none ∨ ∀ p ∈ w.objs, CanMatch cfg.reidMax p → p.isInit = false)
    {dets : Option (List Ref)} {period : Int} {ct : Option (CoordTrans K)} {act : List (Obj K L D F)}
    (h : update cfg w dets period ct = (w', .ok act)) {o o' : Obj K L D F} (ho : o ∈ w.objs)
    (hc : CanMatch cfg.reidMax o) (hi : o.isInit = false) (ho' : o' ∈ w'.objs)
    (hid : o'.initId = o.initId) {δ : Ref → D}
    (hδ : ∀ r ∈ dets.getD [], ScalarDist f (startHeap w dets ct r)
      (((o.trackerStep cfg).updateCT ct).view (startHeap w dets ct)) (δ r))
    (hnz : ∃ r ∈ dets.getD [], δ r ≠ 0) :
    ∃ r ∈ dets.getD [], (∀ r' ∈ dets.getD [], δ r ≤ δ r') ∧
      o'.curMin = if δ r < cfg.thr then some (δ r) else none := by
  obtain ⟨s0, hs0, hrr⟩ := hw
  have hI : Inv w := (hrr.inv (Inv.initial hs0)).1
  obtain ⟨w1, w2, w3, out1, out2, ks1, ks2, ks3, m3, d1, d2, p1, p2, R⟩ := update_rounds hI h
  have hmem : o ∈ roundObjs cfg w false := List.mem_filter.mpr ⟨ho, by simpa using ⟨hc, hi⟩⟩
  obtain ⟨j, hj⟩ := List.mem_iff_getElem?.mp hmem
  have hkj : ks1[j]? = some o.initId := by
    rw [R.ks1eq, List.getElem?_map]
    exact Option.map_eq_some_iff.mpr ⟨o, hj, rfl⟩
  have hk : o.initId ∈ ks1 := List.mem_of_getElem? hkj
  obtain ⟨o1, ho1⟩ := World.find_isSome_of_mem (w := w1) (k := o.initId) (by
    rw [R.S.keys1]
    exact World.mem_keys_of_find (R.find1 o hmem))
  have hfin : o'.curMin = o1.curMin := by
    have e2 := R.same2 _ hk _ ho1
    obtain ⟨news, n1, n2, n3, n4⟩ := R.news
    have ho3 : o' ∈ w3.objs := by
      rw [n1] at ho'
      rcases List.mem_append.mp ho' with h' | h'
      · exact h'
      · have := n3 o' h'
        rw [hid] at this
        have := (hI.bounded o ho).2
        simp only at *
        omega
    have h3 : w3 = w2 := by
      obtain ⟨out3, hs3⟩ := R.S.s3
      unfold reidStage at hs3
      rcases hreid with hreid | hno
      · rw [hreid] at hs3
        exact (congrArg Prod.fst hs3).symm
      · have hks : ks2 = [] := by
          rw [R.ks2eq, List.map_eq_nil_iff, roundObjs, List.filter_eq_nil_iff]
          intro p hp hq
          simp only [decide_eq_true_eq] at hq
          rw [hno p hp hq.1] at hq
          exact absurd hq.2 (by simp)
        have hmo : out2.matchedO = [] := by
          have := R.E2.matchedO.eq_filterMap
          rw [hks] at this
          simpa using this
        rw [hmo] at hs3
        split at hs3
        · exact (congrArg Prod.fst hs3).symm
        · simp only [stageReid, List.length_nil, if_true] at hs3
          exact (congrArg Prod.fst hs3).symm
    rw [h3] at ho3
    have hn2 : w2.keys.Nodup := by rw [R.S.keys2]; exact R.S.nodup
    have := World.eq_of_mem_of_key hn2 ho3 (World.find_some e2).1 (hid.trans (World.find_some e2).2.symm)
    rw [this]
  have hne : dets.getD [] ≠ [] := by
    obtain ⟨r, hr, _⟩ := hnz
    exact List.ne_nil_of_mem hr
  have hdist := R.E1.dist hne
  rw [R.objs1] at hdist
  have hjo : ((roundObjs cfg { w with heap := startHeap w dets ct } false).map (stepped cfg ct))[j]? =
      some (stepped cfg ct o) := by
    rw [List.getElem?_map]
    exact Option.map_eq_some_iff.mpr ⟨o, hj, rfl⟩
  have hval : ∀ i r, (dets.getD [])[i]? = some r → d1 i j = δ r := fun i r hi' =>
    scalarDist_unique (distancesOk_scalar hf hdist hi' hjo) (hδ r (List.mem_of_getElem? hi'))
  have hjlt : j < ks1.length := (List.getElem?_eq_some_iff.mp hkj).1
  obtain ⟨i, hi', hmin, hcm⟩ := (R.E1.mins j _ _ o1 hkj (R.find1 o hmem) ho1).1 ⟨hne, by
    obtain ⟨r, hr, hr0⟩ := hnz
    obtain ⟨i, hi'⟩ := List.mem_iff_getElem?.mp hr
    exact ⟨i, (List.getElem?_eq_some_iff.mp hi').1, j, hjlt, by rw [hval i r hi']; exact hr0⟩⟩
  have hget : (dets.getD [])[i]? = some (dets.getD [])[i] := List.getElem?_eq_getElem hi'
  refine ⟨(dets.getD [])[i], List.getElem_mem hi', ?_, ?_⟩
  · intro r' hr'
    obtain ⟨i', hi''⟩ := List.mem_iff_getElem?.mp hr'
    rw [← hval i _ hget, ← hval i' _ hi'']
    exact hmin i' (List.getElem?_eq_some_iff.mp hi'').1
  · rw [hfin, hcm, hval i _ hget]

/-- **C66** without ReID -/
theorem C66_current_min_partial {cfg : Cfg K L D F X} {f} (hf : cfg.dist = .scalar f)
    (hreid : cfg.reid = none) {w w' : World K L D F X} (hw : Reachable cfg w)
    {dets : Option (List Ref)} {period : Int} {ct : Option (CoordTrans K)} {act : List (Obj K L D F)}
    (h : update cfg w dets period ct = (w', .ok act)) {o o' : Obj K L D F} (ho : o ∈ w.objs)
    (hc : CanMatch cfg.reidMax o) (hi : o.isInit = false) (ho' : o' ∈ w'.objs)
    (hid : o'.initId = o.initId) {δ : Ref → D}
    (hδ : ∀ r ∈ dets.getD [], ScalarDist f (startHeap w dets ct r)
      (((o.trackerStep cfg).updateCT ct).view (startHeap w dets ct)) (δ r))
    (hnz : ∃ r ∈ dets.getD [], δ r ≠ 0) :
    ∃ r ∈ dets.getD [], (∀ r' ∈ dets.getD [], δ r ≤ δ r') ∧
      o'.curMin = if δ r < cfg.thr then some (δ r) else none :=
  C66_reid_partial hf hw (Or.inl hreid) h ho hc hi ho' hid hδ hnz

/-- the estimate of the object is an array of the shape agreed on for its label -/
def ObjShape (fo : FilterOps K F) (shape : L → Nat × Nat) (o : Obj K L D F) : Prop :=
  o.numPoints = (shape o.label).1 ∧ o.dimPoints = (shape o.label).2 ∧
    (fo.getX o.filter).length = 2 * (o.dimPoints * o.numPoints)

theorem _root_.Norfair.PointsOk.objShape {fo : FilterOps K F} {Ok : F → Prop} (hL : FilterLaws fo Ok)
    {shape : L → Nat × Nat} {o : Obj K L D F} (h : PointsOk fo Ok shape o) : ObjShape fo shape o :=
  ⟨h.n, h.dim, by rw [hL.len _ h.ok, h.dimZ]; rfl⟩

/-- a distance that never raises and is never NaN on a well-formed detection and an object with points of
the right shape -/
def TotalDist (fo : FilterOps K F) (shape : L → Nat × Nat) : DistFn K L D F X → Prop
  | .scalar f => ∀ d v, DetOk shape d → ObjShape fo shape v.obj → ∃ x, f d v = some (some x)
  | .vectorized _ f => ∀ cs os, ∃ M, f cs os = some M ∧ ∀ i j, ∃ x, M.val i j = some x

/-- **C67** `update` gets through: if the distance functions neither raise nor give NaN, the fill values
of the matching loop are not below the thresholds, and all calls so far and this one have well-formed
detections (points of the shape agreed on for their label, one score per point), then the call does not
raise, unless a transformation is passed without detections. -/
theorem C67_update_succeeds {cfg : Cfg K L D F X} {Ok : F → Prop} (hL : FilterLaws cfg.flt Ok)
    {shape : L → Nat × Nat} (hs : ∀ a b, Compat cfg a b → shape a = shape b)
    (hd : TotalDist cfg.flt shape cfg.dist)
    (hr : ∀ f, cfg.reid = some f → ∀ c o, ObjShape cfg.flt shape c.obj → ObjShape cfg.flt shape o.obj →
      ∃ x, f c o = some (some x))
    (hfill : cfg.thr ≤ cfg.fill) (hrfill : cfg.reid ≠ none → cfg.reidThr ≤ cfg.reidFill)
    {w0 w : World K L D F X} (h0 : w0.Initial)
    (hw : Reaches cfg (fun _ _ => True)
      (fun dets _ ct w => CallOk shape (dets.getD []) ct w.heap) w0 w)
    (dets : Option (List Ref)) (period : Int) (ct : Option (CoordTrans K))
    (hcall : CallOk shape (dets.getD []) ct w.heap) (hct : ct = none ∨ dets ≠ none) :
    ∃ act, (update cfg w dets period ct).2 = .ok act := by
  cases he : (update cfg w dets period ct).2 with
  | ok act => exact ⟨act, rfl⟩
  | error e =>
    exfalso
    have hI : Inv w := (hw.inv (Inv.initial h0)).1
    rcases update_error cfg w hI.nodup dets period ct (Prod.ext rfl he) with ⟨_, h1, h2, _⟩ | ⟨w1, hm, hc⟩
    · rcases hct with hct | hct
      · exact h1 hct
      · exact hct h2
    · have hpts : ∀ o ∈ w.objs, PointsOk cfg.flt Ok shape o := WfReaches.pointsOk hL hs h0 hw
      obtain ⟨hcall1, hpts1⟩ := hm.objInv (pointsOk_inv hL hs (dets.getD []) period ct) hcall hpts
      have hreach : Reachable cfg w := ⟨w0, h0, hw.mono (fun _ _ h => h) (fun _ _ _ _ _ => trivial)⟩
      have hages := (hm.objInv (pastAges_inv cfg (dets.getD []) period ct) trivial hreach.pastAges).2
      have hnt := hc.no_typeError hages
      cases hc with
      | distance h =>
        unfold DistGives at h
        unfold TotalDist at hd
        split at h
        · rename_i f hf
          rw [hf] at hd
          obtain ⟨r, hr, o, ho, _, hv⟩ := h
          obtain ⟨x, hx⟩ := hd (w1.heap r) (o.view w1.heap) (hcall1.2 r hr) ((hpts1 o ho).objShape hL)
          rw [hx] at hv
          cases hv
        · rename_i str f hf
          rw [hf] at hd
          obtain ⟨_, cs, os, _, _, _, _, ⟨_, hv⟩ | ⟨M, i, j, _, _, _, hv⟩⟩ := h
          · obtain ⟨M, hM, _⟩ := hd cs os
            rw [hM] at hv
            cases hv
          · cases hv
      | nan h =>
        unfold DistGives at h
        unfold TotalDist at hd
        split at h
        · rename_i f hf
          rw [hf] at hd
          obtain ⟨r, hr, o, ho, _, hv⟩ := h
          obtain ⟨x, hx⟩ := hd (w1.heap r) (o.view w1.heap) (hcall1.2 r hr) ((hpts1 o ho).objShape hL)
          rw [hx] at hv
          cases hv
        · rename_i str f hf
          rw [hf] at hd
          obtain ⟨_, cs, os, _, _, _, _, ⟨hv, _⟩ | ⟨M, i, j, hM, _, _, hv⟩⟩ := h
          · cases hv
          · obtain ⟨M', hM', hx⟩ := hd cs os
            rw [hM] at hM'
            cases hM'
            obtain ⟨x, hx⟩ := hx i j
            rw [hx] at hv
            cases hv
      | reidDistance h =>
        obtain ⟨f, hf, c, hc, o, ho, _, hv⟩ := h
        obtain ⟨x, hx⟩ := hr f hf (c.view w1.heap) (o.view w1.heap) ((hpts1 c hc).objShape hL)
          ((hpts1 o ho).objShape hL)
        rw [hx] at hv
        cases hv
      | reidNan h =>
        obtain ⟨f, hf, c, hc, o, ho, _, hv⟩ := h
        obtain ⟨x, hx⟩ := hr f hf (c.view w1.heap) (o.view w1.heap) ((hpts1 c hc).objShape hL)
          ((hpts1 o ho).objShape hL)
        rw [hx] at hv
        cases hv
      | diverges h => exact absurd hfill (not_le.mpr h)
      | reidDiverges h1 h2 => exact absurd (hrfill h1) (not_le.mpr h2)
      | hit o r e hfo hro hcp herr =>
        rcases hitObj_noShape (g := w1.gcount) (c := w1.count) (period := period)
          (hpts1 o (World.find_some hfo).1) (hcall1.2 r hro) (hs _ _ hcp) with h | ⟨h, _⟩
        · rw [h] at herr; cases herr
        · rw [h] at herr; cases herr; exact hnt rfl
      | merge o c e hfo hfc hne hre herr =>
        unfold mergeObj at herr
        simp only at herr
        split at herr
        · cases herr; exact hnt rfl
        · cases herr

end

/-! ### Examples -/

/-- C64, C65: objects at 1 (initialized) and 51 (initializing); detections at 4, 2 and 55. The detection
at 2 is closest to the first object, the one at 55 goes to the second object in the second round, the
one at 4 starts a new object. -/
example : (run cfg w0 [[0], [1, 51]]).objs.map (fun o => (o.initId, o.isInit, o.lastDet)) =
      [(1, false, 1), (2, true, 51)] ∧
    (run cfg w0 [[0], [1, 51], [4, 2, 55]]).objs.map (fun o => (o.initId, o.lastDet, o.lastDistance)) =
      [(1, 2, some 1), (2, 55, some 4), (3, 4, none)] := by decide +kernel

example : ∃ w' act, update cfg (run cfg w0 [[0], [1, 51]]) (some [4, 2, 55]) 1 none = (w', .ok act) ∧
    Reachable cfg (run cfg w0 [[0], [1, 51]]) := by
  obtain ⟨act, h⟩ := exists_ok (r := update cfg (run cfg w0 [[0], [1, 51]]) (some [4, 2, 55]) 1 none)
    (by decide +kernel)
  exact ⟨_, act, h, run_reachable _ _⟩

/-- C65: all hypotheses hold for the object at 1 and the new object of the detection at 4 -/
example : ∃ o ∈ (run cfg w0 [[0], [1, 51]]).objs, CanMatch cfg.reidMax o ∧ o.isInit = false ∧
    ∃ n ∈ (update cfg (run cfg w0 [[0], [1, 51]]) (some [4, 2, 55]) 1 none).1.objs,
      n.initId ∉ (run cfg w0 [[0], [1, 51]]).objs.map (·.initId) ∧
      ScalarDist Toy.dist (startHeap (run cfg w0 [[0], [1, 51]]) (some [4, 2, 55]) none n.lastDet)
        (((o.trackerStep cfg).updateCT none).view
          (startHeap (run cfg w0 [[0], [1, 51]]) (some [4, 2, 55]) none)) 3 := by
  refine ⟨(run cfg w0 [[0], [1, 51]]).objs[0]'(by decide +kernel), List.getElem_mem _, by decide +kernel,
    by decide +kernel, (update cfg (run cfg w0 [[0], [1, 51]]) (some [4, 2, 55]) 1 none).1.objs[2]'
      (by decide +kernel), List.getElem_mem _, by decide +kernel, Or.inl ⟨by decide +kernel, by decide +kernel⟩⟩

/-- C66: distances 3 and 1 of the detections to the object at 1 -/
example : (run cfg w0 [[0], [1], [4, 2]]).objs.map (fun o => (o.initId, o.curMin)) =
    [(1, some 1), (2, none)] := by decide +kernel

/-- C66: hypotheses of the theorem for the first object, with `δ r = r - 1` -/
example : ∀ r ∈ [4, 2], ScalarDist Toy.dist (startHeap (run cfg w0 [[0], [1]]) (some [4, 2]) none r)
    (((((run cfg w0 [[0], [1]]).objs[0]'(by decide +kernel)).trackerStep cfg).updateCT none).view
      (startHeap (run cfg w0 [[0], [1]]) (some [4, 2]) none)) ((r - 1 : Nat) : WithTop Nat) := by
  intro r hr
  have : r = 4 ∨ r = 2 := by simpa using hr
  rcases this with rfl | rfl
  · exact Or.inl ⟨by decide +kernel, by decide +kernel⟩
  · exact Or.inl ⟨by decide +kernel, by decide +kernel⟩

/-- detections `k` and `10 + k` both sit at `k` -/
def w10 : TWorld := ⟨fun r => det (r % 10 : Nat), 0, 0, 0, []⟩

/-- **C66** (the full statement is false) The object was at distance 3 from its detection in the second
call. In the third call the only detection is at distance 0; in another third call there are no
detections. In both cases `current_min_distance` is still 3. -/
theorem C66_stale : ∃ w, Reachable cfg w ∧ (∃ o ∈ w.objs, CanMatch cfg.reidMax o ∧ o.isInit = false ∧
    (∃ w' act, update cfg w (some [13]) 1 none = (w', .ok act) ∧
      ScalarDist Toy.dist (startHeap w (some [13]) none 13)
        (((o.trackerStep cfg).updateCT none).view (startHeap w (some [13]) none)) 0 ∧
      ∃ o' ∈ w'.objs, o'.initId = o.initId ∧ o'.lastDistance = some 0 ∧ o'.curMin = some 3) ∧
    ∃ w' act, update cfg w none 1 none = (w', .ok act) ∧
      ∃ o' ∈ w'.objs, o'.initId = o.initId ∧ o'.curMin = some 3) := by
  obtain ⟨act, h⟩ := exists_ok (r := update cfg (run cfg w10 [[0], [3]]) (some [13]) 1 none)
    (by decide +kernel)
  obtain ⟨act2, h2⟩ := exists_ok (r := update cfg (run cfg w10 [[0], [3]]) none 1 none)
    (by decide +kernel)
  refine ⟨run cfg w10 [[0], [3]], ⟨w10, ⟨rfl, rfl, rfl⟩, run_reaches _ _ _ _ (.refl _)⟩,
    (run cfg w10 [[0], [3]]).objs[0]'(by decide +kernel), List.getElem_mem _, by decide +kernel,
    by decide +kernel, ⟨_, act, h, Or.inl ⟨by decide +kernel, by decide +kernel⟩, ?_⟩, _, act2, h2, ?_⟩
  · exact ⟨(update cfg (run cfg w10 [[0], [3]]) (some [13]) 1 none).1.objs[0]'(by decide +kernel),
      List.getElem_mem _, by decide +kernel⟩
  · exact ⟨(update cfg (run cfg w10 [[0], [3]]) none 1 none).1.objs[0]'(by decide +kernel),
      List.getElem_mem _, by decide +kernel⟩

/-- absolute difference of the first coordinates, in absolute coordinates -/
def absDist (d : TDet) (o : ObjView Int Nat (WithTop Nat) (NoFilter Int) Unit) :
    Option (Option (WithTop Nat)) :=
  match d.absPoints.data, noFilterOps.getX o.obj.filter with
  | a :: _, b :: _ => some (some ((a - b).natAbs : Nat))
  | _, _ => none

/-- C67: this distance raises on empty arrays, but is total on detections and objects with one point on
the line -/
theorem absDist_total : TotalDist (K := Int) (L := Nat) noFilterOps (fun _ : Nat => (1, 1))
    (.scalar absDist) := by
  intro d v ⟨d1, d2, d3, _⟩ ⟨h1, h2, h3⟩
  rw [d1, d2] at d3
  rw [h1, h2] at h3
  unfold absDist
  cases hd : d.absPoints.data with
  | nil => rw [hd] at d3; cases d3
  | cons a l =>
    cases hv : noFilterOps.getX v.obj.filter with
    | nil => rw [hv] at h3; cases h3
    | cons b m => exact ⟨_, rfl⟩

theorem heap_ok : ∀ r, DetOk (fun _ : Nat => (1, 1)) (heap r) :=
  fun _ => ⟨rfl, rfl, rfl, by intro s hs; cases hs⟩

/-- C67: every call with existing detections succeeds, after any run of the tracker with this distance -/
example (ls : List (List Ref)) (l : List Ref)
    (hheap : ∀ r, DetOk (fun _ : Nat => (1, 1)) ((run { cfg with dist := .scalar absDist } w0 ls).heap r)) :
    ∃ act, (update { cfg with dist := .scalar absDist } (run { cfg with dist := .scalar absDist } w0 ls)
      (some l) 1 none).2 = .ok act := by
  refine C67_update_succeeds (shape := fun _ => (1, 1)) noFilter_laws (fun _ _ _ => rfl) absDist_total
    (by intro f h; cases h) (by decide +kernel) (by intro h; exact absurd rfl h) w0_initial ?_ (some l) 1 none
    ⟨(by intro _ h; cases h), fun r _ => hheap r⟩ (Or.inl rfl)
  exact run_wf _ (fun _ => (1, 1)) ls (fun _ _ hw => ⟨(by intro _ h; cases h), fun r _ => hw r⟩) w0 w0
    (Inv.initial w0_initial) heap_ok (.refl _)

end Norfair.Props
