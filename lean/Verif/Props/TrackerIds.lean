import Verif.Lemmas.Ids
import Verif.Lemmas.Sys
import Verif.Props.Toy

/-!
Property theorems C05-C09, C23, C28: NaN handling, identities, counts of objects, errors.

`Reachable cfg w`: `w` is the state of a tracker after any history of `update` calls, successful or
raising, with any activity of the rest of the process in between.
-/

set_option linter.unusedSectionVars false

namespace Norfair.Props

open Norfair

variable {K L D F X : Type}

section
variable [LinearOrder K] [Zero K] [LinearOrder D] [OrderTop D] [Zero D] [DecidableEq L]

/-! ### C05 -/

/-- **C05** (each comparison of detections, scalar distance) the NaN error is raised exactly if the
function raised for no pair and returned NaN for some pair with equal labels; then nothing was changed. -/
theorem C05_stage_nan_iff {cfg : Cfg K L D F X}
    {f : Det K L X → ObjView K L D F X → Option (Option D)} (hd : cfg.dist = .scalar f) (period : Int)
    (w : World K L D F X) (keys : List Nat) (dets : List Ref) :
    ((stageDet cfg period w keys dets).2 = .error .nan ↔
      (∀ r ∈ dets, ∀ o ∈ w.objects keys, (w.heap r).label = o.label →
        f (w.heap r) (o.view w.heap) ≠ none) ∧
      ∃ r ∈ dets, ∃ o ∈ w.objects keys, (w.heap r).label = o.label ∧
        f (w.heap r) (o.view w.heap) = some none) ∧
    ((stageDet cfg period w keys dets).2 = .error .nan → (stageDet cfg period w keys dets).1 = w) := by
  unfold stageDet
  split
  · rename_i h0
    have : dets = [] := List.length_eq_zero_iff.mp h0
    subst this
    simp
  · have hdd : detDistances cfg w.heap (w.objects keys) dets =
        scalarDistances (fun r => (w.heap r).label) (fun o : Obj K L D F => o.label)
          (fun r o => f (w.heap r) (o.view w.heap)) (w.objects keys) dets := by
      unfold detDistances; rw [hd]
    split
    · rename_i hM
      rw [hdd, scalarDistances_none] at hM
      obtain ⟨r, hr, o, ho, hl, hf⟩ := hM
      refine ⟨⟨fun h => by simp at h, fun h => absurd hf (h.1 r hr o ho hl)⟩, fun h => by simp at h⟩
    · rename_i M hM
      rw [hdd] at hM
      have hnan := scalarDistances_nan hM
      have hno : ∀ r ∈ dets, ∀ o ∈ w.objects keys, (w.heap r).label = o.label →
          f (w.heap r) (o.view w.heap) ≠ none := by
        intro r hr o ho hl hf
        rw [scalarDistances_none.mpr ⟨r, hr, o, ho, hl, hf⟩] at hM
        cases hM
      split
      · rename_i hn
        exact ⟨⟨fun _ => ⟨hno, hnan.mp hn⟩, fun _ => rfl⟩, fun _ => rfl⟩
      · rename_i hn
        have hres : ∀ (a : World K L D F X × Except Err (StageOut Ref)), a.2 ≠ .error .nan →
            ((a.2 = .error .nan ↔ (∀ r ∈ dets, ∀ o ∈ w.objects keys, (w.heap r).label = o.label →
                f (w.heap r) (o.view w.heap) ≠ none) ∧
              ∃ r ∈ dets, ∃ o ∈ w.objects keys, (w.heap r).label = o.label ∧
                f (w.heap r) (o.view w.heap) = some none) ∧ (a.2 = .error .nan → a.1 = w)) := by
          intro a ha
          exact ⟨⟨fun h => absurd h ha, fun h => absurd (hnan.mpr h.2) hn⟩, fun h => absurd h ha⟩
        simp only
        split
        · exact hres _ (by simp)
        · split
          · apply hres
            intro h
            rcases hitLoop_err_kind _ _ _ _ _ _ _ _ _ h with h | h <;> cases h
          · exact hres _ (by simp)

/-- **C05** (the ReID comparison) -/
theorem C05_reid_nan_iff {cfg : Cfg K L D F X}
    (f : ObjView K L D F X → ObjView K L D F X → Option (Option D))
    (w : World K L D F X) (keys cands : List Nat) :
    ((stageReid cfg f w keys cands).2 = .error .nan ↔
      (∀ c ∈ w.objects cands, ∀ o ∈ w.objects keys, c.label = o.label →
        f (c.view w.heap) (o.view w.heap) ≠ none) ∧
      ∃ c ∈ w.objects cands, ∃ o ∈ w.objects keys, c.label = o.label ∧
        f (c.view w.heap) (o.view w.heap) = some none) ∧
    ((stageReid cfg f w keys cands).2 = .error .nan → (stageReid cfg f w keys cands).1 = w) := by
  unfold stageReid
  split
  · rename_i h0
    have : cands = [] := List.length_eq_zero_iff.mp h0
    subst this
    simp [World.objects]
  · split
    · rename_i hM
      unfold reidDistances at hM
      rw [scalarDistances_none] at hM
      obtain ⟨r, hr, o, ho, hl, hf⟩ := hM
      refine ⟨⟨fun h => by simp at h, fun h => absurd hf (h.1 r hr o ho hl)⟩, fun h => by simp at h⟩
    · rename_i M hM
      unfold reidDistances at hM
      have hnan := scalarDistances_nan hM
      have hno : ∀ c ∈ w.objects cands, ∀ o ∈ w.objects keys, c.label = o.label →
          f (c.view w.heap) (o.view w.heap) ≠ none := by
        intro r hr o ho hl hf
        rw [scalarDistances_none.mpr ⟨r, hr, o, ho, hl, hf⟩] at hM
        cases hM
      split
      · rename_i hn
        exact ⟨⟨fun _ => ⟨hno, hnan.mp hn⟩, fun _ => rfl⟩, fun _ => rfl⟩
      · rename_i hn
        have hres : ∀ (a : World K L D F X × Except Err (StageOut Nat)), a.2 ≠ .error .nan →
            ((a.2 = .error .nan ↔ (∀ c ∈ w.objects cands, ∀ o ∈ w.objects keys, c.label = o.label →
                f (c.view w.heap) (o.view w.heap) ≠ none) ∧
              ∃ c ∈ w.objects cands, ∃ o ∈ w.objects keys, c.label = o.label ∧
                f (c.view w.heap) (o.view w.heap) = some none) ∧ (a.2 = .error .nan → a.1 = w)) := by
          intro a ha
          exact ⟨⟨fun h => absurd h ha, fun h => absurd (hnan.mpr h.2) hn⟩, fun h => absurd h ha⟩
        simp only
        split
        · exact hres _ (by simp)
        · split
          · apply hres
            intro h
            have := mergeLoop_err_kind _ _ _ _ _ _ _ _ h
            cases this
          · exact hres _ (by simp)

/-- **C05** (whole call) NaN for a detection and an initialized, alive object with the same label makes
`update` raise (the NaN error, or the exception of the distance function if that raised too); no object
is matched and none is created: all that happened is that stale objects were dropped and the others
advanced by one frame. -/
theorem C05_nan_rejected {cfg : Cfg K L D F X}
    {f : Det K L X → ObjView K L D F X → Option (Option D)} (hd : cfg.dist = .scalar f)
    {w : World K L D F X} (hw : Reachable cfg w) (dets : List Ref) (period : Int)
    (ct : Option (CoordTrans K)) {r : Ref} (hr : r ∈ dets) {o : Obj K L D F}
    (ho : o ∈ survivors cfg w.objs) (halive : 0 ≤ o.hitCounter) (hinit : o.isInit = false)
    (hl : (w.heap r).label = o.label)
    (hnan : f (startHeap w (some dets) ct r) ((stepped cfg ct o).view (startHeap w (some dets) ct))
      = some none) :
    ((update cfg w (some dets) period ct).2 = .error .nan ∨
      (update cfg w (some dets) period ct).2 = .error .distance) ∧
    (∀ o' ∈ (update cfg w (some dets) period ct).1.objs, ∃ p ∈ w.objs, o'.initId = p.initId ∧
      o'.lastDet = p.lastDet ∧ o'.past = p.past ∧ o'.hitCounter = p.hitCounter - 1 ∧ o'.id = p.id ∧
      o'.lastDistance = p.lastDistance ∧ o'.filter = cfg.flt.predict p.filter) := by
  -- the call after the transformation of the detections
  have hcore : update cfg w (some dets) period ct =
      updateCore cfg { w with heap := startHeap w (some dets) ct } dets period ct := by
    cases ct <;> rfl
  have hlab : ∀ q, (startHeap w (some dets) ct q).label = (w.heap q).label := by
    intro q
    cases ct with
    | none => rfl
    | some c =>
      have : ∀ (l : List Ref) (h : Ref → Det K L X), (l.foldl (transformDet c) h q).label = (h q).label := by
        intro l
        induction l with
        | nil => exact fun _ => rfl
        | cons a l ih =>
          intro h
          rw [List.foldl_cons, ih]
          obtain ⟨b, hb⟩ := transformDet_fields c h a q
          rw [hb]
      exact this dets w.heap
  set w1 : World K L D F X := { w with heap := startHeap w (some dets) ct } with hw1
  have hnod : w1.keys.Nodup := hw.inv.nodup
  set w0 := advance cfg ct w1 with hw0
  set ks := w0.keysWhere (aliveKeys cfg w1.objs) (fun o => !o.isInit) with hks
  have hfind : w0.find o.initId = some (stepped cfg ct o) := find_advance hnod ho
  have hkmem : o.initId ∈ ks := by
    rw [hks, World.mem_keysWhere]
    refine ⟨?_, _, hfind, by simp [hinit]⟩
    unfold aliveKeys
    have hpos : o.hcPos = true := by simp [Obj.hcPos, halive]
    cases cfg.reidMax with
    | none => exact List.mem_map_of_mem ho
    | some n => exact List.mem_map_of_mem (List.mem_filter.mpr ⟨ho, hpos⟩)
  have hobj : stepped cfg ct o ∈ w0.objects ks :=
    List.mem_filterMap.mpr ⟨o.initId, hkmem, hfind⟩
  have hlen : ¬ dets.length = 0 := by
    intro h; rw [List.length_eq_zero_iff.mp h] at hr; cases hr
  -- the first stage raises and changes nothing
  have hst : (stageDet cfg period w0 ks dets = (w0, .error .nan) ∨
      stageDet cfg period w0 ks dets = (w0, .error .distance)) := by
    have hdd : detDistances cfg w0.heap (w0.objects ks) dets =
        scalarDistances (fun r => (w0.heap r).label) (fun o : Obj K L D F => o.label)
          (fun r o => f (w0.heap r) (o.view w0.heap)) (w0.objects ks) dets := by
      unfold detDistances; rw [hd]
    unfold stageDet
    rw [if_neg hlen]
    split
    · right; rfl
    · rename_i M hM
      left
      rw [hdd] at hM
      rw [if_pos ((scalarDistances_nan hM).mpr ⟨r, hr, _, hobj, ?_, hnan⟩)]
      rw [stepped_label, ← hl]
      exact hlab r
  have hup : update cfg w (some dets) period ct = (w0, .error .nan) ∨
      update cfg w (some dets) period ct = (w0, .error .distance) := by
    rw [hcore]
    unfold updateCore
    simp only
    rcases hst with h | h
    · left; rw [← hw0, ← hks, h]
    · right; rw [← hw0, ← hks, h]
  have hobjs : ∀ o' ∈ w0.objs, ∃ p ∈ w.objs, o'.initId = p.initId ∧
      o'.lastDet = p.lastDet ∧ o'.past = p.past ∧ o'.hitCounter = p.hitCounter - 1 ∧ o'.id = p.id ∧
      o'.lastDistance = p.lastDistance ∧ o'.filter = cfg.flt.predict p.filter := by
    intro o' ho'
    obtain ⟨p, hp, g, rfl, _⟩ := advance_mem ho'
    exact ⟨p, hp, rfl, rfl, rfl, rfl, rfl, rfl, rfl⟩
  rcases hup with h | h
  · rw [h]; exact ⟨Or.inl rfl, hobjs⟩
  · rw [h]; exact ⟨Or.inr rfl, hobjs⟩

/-- **C05** (converse) if neither distance function ever returns NaN, `update` never raises the NaN
error. -/
theorem C05_no_nan_no_error {cfg : Cfg K L D F X} {w : World K L D F X} (hw : Reachable cfg w)
    (hdist : match cfg.dist with
      | .scalar f => ∀ d v, f d v ≠ some none
      | .vectorized _ f => ∀ cs os M i j, f cs os = some M → i < cs.length → j < os.length →
          M.val i j ≠ none)
    (hreid : ∀ f, cfg.reid = some f → ∀ a b, f a b ≠ some none)
    (dets : Option (List Ref)) (period : Int) (ct : Option (CoordTrans K)) :
    (update cfg w dets period ct).2 ≠ .error .nan := by
  intro he
  rcases update_error cfg w hw.inv.nodup dets period ct (w' := (update cfg w dets period ct).1)
    (Prod.ext rfl he) with ⟨h, _⟩ | ⟨w1, _, hc⟩
  · cases h
  · generalize he' : Err.nan = e at hc
    cases hc with
    | nan h =>
      unfold DistGives at h
      split at h
      · rename_i f hd
        obtain ⟨r, _, o, _, _, hf⟩ := h
        rw [hd] at hdist
        exact hdist _ _ hf
      · rename_i s f hd
        rw [hd] at hdist
        obtain ⟨_, cs, os, _, _, _, _, ⟨h, _⟩ | ⟨M, i, j, h1, h2, h3, h4⟩⟩ := h
        · cases h
        · exact hdist cs os M i j h1 h2 h3 (Option.some.inj h4).symm
    | reidNan h =>
      obtain ⟨f, hf, c, _, o, _, _, h⟩ := h
      exact hreid f hf _ _ h
    | hit o r e hf hr hcm h =>
      subst he'
      rcases hitObj_err cfg w1.heap w1.gcount w1.count o r period with h' | h' | h' <;>
        rw [h'] at h <;> cases h
    | merge o c e hf hfc hne hr h =>
      subst he'
      simp only [mergeObj] at h
      split at h <;> cases h
    | _ => cases he'

/-! ### C06 -/

/-- **C06** At any two moments of the life of a tracker, objects with the same id are the same object
(`initId` is the object identity: see `C06_identity_never_reused`); ids are positive. -/
theorem C06_ids_unique {cfg : Cfg K L D F X} {w1 w2 : World K L D F X} (h1 : Reachable cfg w1)
    (h2 : Reaches' cfg w1 w2) {o1 o2 : Obj K L D F} (ho1 : o1 ∈ w1.objs) (ho2 : o2 ∈ w2.objs)
    {i : Nat} (e1 : o1.id = some i) (e2 : o2.id = some i) : o1.initId = o2.initId ∧ 1 ≤ i := by
  obtain ⟨hI, hE⟩ := h2.inv h1.inv
  have hr := h1.inv.idRange o1 ho1 i e1
  rcases hE.newId o2 ho2 i e2 with h | ⟨p, hp, hk, hpi⟩
  · omega
  · exact ⟨(h1.inv.idInj o1 ho1 p hp i e1 hpi).trans hk, hr.1⟩

/-- **C06** (identity) in every state all objects have different `initializing_id`s, in order of
creation, and an `initializing_id` that was given out before `w1` and is not in use in `w1` never
comes back: an object that was dropped or merged away does not reappear. -/
theorem C06_identity_never_reused {cfg : Cfg K L D F X} {w1 w2 : World K L D F X}
    (h1 : Reachable cfg w1) (h2 : Reaches' cfg w1 w2) :
    (w1.objs.map (·.initId)).Pairwise (· < ·) ∧
    ∀ o2 ∈ w2.objs, o2.initId ≤ w1.initCount → ∃ o1 ∈ w1.objs, o1.initId = o2.initId := by
  obtain ⟨hI, hE⟩ := h2.inv h1.inv
  refine ⟨h1.inv.sorted, fun o2 ho2 hle => ?_⟩
  rcases hE.origin o2 ho2 with h | ⟨o, ho, hk, _⟩
  · omega
  · exact ⟨o, ho, hk⟩

/-! ### C07 -/

/-- **C07** As long as a tracker holds an object, its label, `initializing_id` and initial period stay,
it never goes back to initializing, and its id and global_id stay once they are set. -/
theorem C07_identity_stable {cfg : Cfg K L D F X} {w1 w2 : World K L D F X} (h1 : Reachable cfg w1)
    (h2 : Reaches' cfg w1 w2) {o1 o2 : Obj K L D F} (ho1 : o1 ∈ w1.objs) (ho2 : o2 ∈ w2.objs)
    (hk : o1.initId = o2.initId) :
    o2.label = o1.label ∧ o2.initialPeriod = o1.initialPeriod ∧
    o2.numPoints = o1.numPoints ∧ o2.dimPoints = o1.dimPoints ∧
    (o1.isInit = false → o2.isInit = false) ∧
    (∀ i, o1.id = some i → o2.id = some i) ∧ (∀ g, o1.globalId = some g → o2.globalId = some g) := by
  obtain ⟨hI, hE⟩ := h2.inv h1.inv
  rcases hE.origin o2 ho2 with h | ⟨o, ho, hk', e1, e2, e3, e4, _, e5, e6, e7⟩
  · have := (h1.inv.bounded o1 ho1).2; omega
  · have : o = o1 := World.eq_of_mem_of_key h1.inv.nodup ho ho1 (hk'.trans hk.symm)
    subst this
    refine ⟨e1, e4, e2, e3, e5, fun i hi => ?_, fun g hg => ?_⟩
    · rw [e6 (by rw [hi]; simp), hi]
    · rw [e7 (by rw [hg]; simp), hg]

/-! ### C09 -/

/-- **C09** -/
theorem C09_update_returns_active {cfg : Cfg K L D F X} {w w' : World K L D F X}
    (hw : Reachable cfg w) {dets : Option (List Ref)} {period : Int} {ct : Option (CoordTrans K)}
    {act : List (Obj K L D F)} (h : update cfg w dets period ct = (w', .ok act)) :
    (∀ o, o ∈ act ↔ o ∈ w'.objs ∧ o.isInit = false ∧ 0 ≤ o.hitCounter) ∧
    (act.map (·.initId)).Pairwise (· < ·) ∧
    (∀ o ∈ act, ∃ i g, o.id = some i ∧ o.globalId = some g) ∧
    (∀ o ∈ w'.objs, o.id = none ↔ o.isInit = true) ∧
    currentObjectCount w' = act.length := by
  obtain ⟨hact, _⟩ := update_ok hw.inv.nodup h
  have hI : Inv w' := by
    have := (update_inv (cfg := cfg) hw.inv dets period ct).1
    rw [h] at this; exact this
  subst hact
  refine ⟨fun o => mem_activeObjects, ?_, ?_, fun o ho => (hI.initIff o ho).symm, rfl⟩
  · exact hI.sorted.sublist (List.filter_sublist.map _)
  · intro o ho
    obtain ⟨hm, hi, _⟩ := mem_activeObjects.mp ho
    have hid : o.id ≠ none := by
      intro h0; rw [(hI.initIff o hm).mpr h0] at hi; cases hi
    have hg : o.globalId ≠ none := fun h0 => hid ((hI.globIff o hm).mpr h0)
    obtain ⟨i, hi⟩ := Option.ne_none_iff_exists'.mp hid
    obtain ⟨g, hg⟩ := Option.ne_none_iff_exists'.mp hg
    exact ⟨i, g, hi, hg⟩

/-! ### C23 -/

/-- **C23** `total_object_count` never decreases, every id handed out so far is at most
`total_object_count`, ids handed out later are larger, and `current_object_count` is at most
`total_object_count`. -/
theorem C23_total_count {cfg : Cfg K L D F X} {w1 w2 : World K L D F X} (h1 : Reachable cfg w1)
    (h2 : Reaches' cfg w1 w2) :
    totalObjectCount w1 ≤ totalObjectCount w2 ∧
    (∀ o ∈ w1.objs, ∀ i, o.id = some i → i ≤ totalObjectCount w1) ∧
    (∀ o ∈ w2.objs, ∀ i, o.id = some i →
      totalObjectCount w1 < i ∨ ∃ p ∈ w1.objs, p.initId = o.initId ∧ p.id = some i) ∧
    currentObjectCount w1 ≤ totalObjectCount w1 := by
  obtain ⟨hI, hE⟩ := h2.inv h1.inv
  refine ⟨hE.count, fun o ho i hi => (h1.inv.idRange o ho i hi).2, hE.newId, ?_⟩
  have hact : ∀ o ∈ activeObjects w1, ∃ i, o.id = some i := by
    intro o ho
    obtain ⟨hm, hi, _⟩ := mem_activeObjects.mp ho
    apply Option.ne_none_iff_exists'.mp
    intro h0; rw [(h1.inv.initIff o hm).mpr h0] at hi; cases hi
  unfold currentObjectCount totalObjectCount
  have hnd : (activeObjects w1).Nodup := by
    have := h1.inv.nodup
    exact (List.Nodup.of_map _ (this.sublist (List.filter_sublist.map _)))
  have := length_le_of_nodup_range (l := (activeObjects w1).map (fun o => o.id.getD 0))
    (n := w1.count) ?_ ?_
  · simpa using this
  · apply List.Nodup.map_on _ hnd
    intro a ha b hb hab
    obtain ⟨i, hi⟩ := hact a ha
    obtain ⟨j, hj⟩ := hact b hb
    rw [hi, hj] at hab
    simp only [Option.getD_some] at hab
    subst hab
    have ha' := (mem_activeObjects.mp ha).1
    have hb' := (mem_activeObjects.mp hb).1
    exact World.eq_of_mem_of_key h1.inv.nodup ha' hb' (h1.inv.idInj a ha' b hb' i hi hj)
  · intro i hi
    obtain ⟨o, ho, rfl⟩ := List.mem_map.mp hi
    obtain ⟨i, hi⟩ := hact o ho
    rw [hi]
    exact h1.inv.idRange o (mem_activeObjects.mp ho).1 i hi

/-- **C23** Without ReID every id handed out by a successful `update` belongs to an object that this
update returns. (The hypotheses on the configuration are those checked by the constructor.) -/
theorem C23_new_ids_returned {cfg : Cfg K L D F X} {w w' : World K L D F X} (hw : Reachable cfg w)
    (hreid : cfg.reid = none) (hd : 0 ≤ cfg.initDelay) (hm : cfg.initDelay < cfg.hitCounterMax)
    {dets : Option (List Ref)} {period : Int} (hp : 0 ≤ period) {ct : Option (CoordTrans K)}
    {act : List (Obj K L D F)} (h : update cfg w dets period ct = (w', .ok act)) (i : Nat)
    (h1 : totalObjectCount w < i) (h2 : i ≤ totalObjectCount w') : ∃ o ∈ act, o.id = some i := by
  have hh := update_idsHeld hw.inv hreid hd (by omega) dets period hp ct
  have hI := (update_inv (cfg := cfg) hw.inv dets period ct).1
  rw [h] at hh hI
  obtain ⟨o, ho, hid, h0⟩ := hh i h1 h2
  obtain ⟨hact, _⟩ := update_ok hw.inv.nodup h
  subst hact
  refine ⟨o, mem_activeObjects.mpr ⟨ho, ?_, h0⟩, hid⟩
  by_contra hi
  rw [(hI.initIff o ho).mp (by simpa using hi)] at hid
  cases hid

/-- **C23** Without ReID, after any sequence of successful calls, the ids of all objects ever returned
are exactly `1, ..., total_object_count`: it is the number of distinct objects ever returned. -/
theorem C23_total_is_number_returned {cfg : Cfg K L D F X} {w0 w : World K L D F X}
    {fs : List (Frame K L D F X)} (h0 : w0.Initial) (h : Trace cfg w0 fs w)
    (hreid : cfg.reid = none) (hd : 0 ≤ cfg.initDelay) (hm : cfg.initDelay < cfg.hitCounterMax)
    (hok : ∀ f ∈ fs, 0 ≤ f.period ∧ ∃ act, f.out = .ok act) (i : Nat) :
    (∃ f ∈ fs, ∃ act, f.out = .ok act ∧ ∃ o ∈ act, o.id = some i) ↔
      1 ≤ i ∧ i ≤ totalObjectCount w := by
  constructor
  · rintro ⟨f, hf, act, hout, o, ho, hid⟩
    obtain ⟨hr1, ha, hout', hr2⟩ := h.frame f hf
    have hreach : Reachable cfg f.before := ⟨w0, h0, hr1⟩
    have hup : update cfg f.before f.dets f.period f.ct = (f.after, .ok act) := by
      rw [ha, ← hout, hout']
    obtain ⟨hact, _⟩ := update_ok hreach.inv.nodup hup
    have hra : Reachable cfg f.after := by rw [ha]; exact hreach.update _ _ _
    subst hact
    have := hra.inv.idRange o (mem_activeObjects.mp ho).1 i hid
    exact ⟨this.1, this.2.trans (hr2.inv hra.inv).2.count⟩
  · intro hi
    induction h with
    | nil => rw [totalObjectCount, h0.2.1] at hi; omega
    | @call w' fs dets period ct ht ih =>
      by_cases hle : i ≤ totalObjectCount fs
      · obtain ⟨f, hf, h'⟩ := ih (fun f hf => hok f (List.mem_append_left _ hf)) ⟨hi.1, hle⟩
        exact ⟨f, List.mem_append_left _ hf, h'⟩
      · obtain ⟨hp, act, hact⟩ := hok _ (List.mem_append_right _ (List.mem_singleton.mpr rfl))
        simp only at hp hact
        obtain ⟨o, ho, hid⟩ := C23_new_ids_returned (w := fs) ⟨_, h0, ht.reaches⟩ hreid hd hm hp
          (w' := (update cfg fs dets period ct).1) (act := act) (Prod.ext rfl hact) i
          (by omega) hi.2
        exact ⟨_, List.mem_append_right _ (List.mem_singleton.mpr rfl), act, hact, o, ho, hid⟩
    | env heap g _ he ih => exact ih hok hi

/-! ### C28 -/

/-- **C28** The `TypeError` of `update` happens exactly for a call with a transformation and without
detections; that call changes nothing. No other `TypeError` (ages of past detections) can occur in any
history. -/
theorem C28_typeError_iff {cfg : Cfg K L D F X} {w : World K L D F X} (hw : Reachable cfg w)
    (dets : Option (List Ref)) (period : Int) (ct : Option (CoordTrans K)) :
    ((update cfg w dets period ct).2 = .error .typeError ↔ ct ≠ none ∧ dets = none) ∧
    ((update cfg w dets period ct).2 = .error .typeError → (update cfg w dets period ct).1 = w) := by
  refine ⟨typeError_iff hw dets period ct, fun h => ?_⟩
  obtain ⟨h1, rfl⟩ := (typeError_iff hw dets period ct).mp h
  cases ct with
  | none => exact absurd rfl h1
  | some c => rfl

/-- **C28** A raising `update` leaves the tracker consistent: whatever happens afterwards, ids stay
unique and below `total_object_count`, every tracked object keeps label and ids, and the next
successful call returns exactly the active objects. -/
theorem C28_survives_errors {cfg : Cfg K L D F X} {w w1 w2 w3 : World K L D F X}
    (hw : Reachable cfg w) {dets : Option (List Ref)} {period : Int} {ct : Option (CoordTrans K)}
    {e : Err} (herr : update cfg w dets period ct = (w1, .error e)) (hnext : Reaches' cfg w1 w2)
    {dets' : Option (List Ref)} {period' : Int} {ct' : Option (CoordTrans K)}
    {act : List (Obj K L D F)} (hok : update cfg w2 dets' period' ct' = (w3, .ok act)) :
    (∀ o, o ∈ act ↔ o ∈ w3.objs ∧ o.isInit = false ∧ 0 ≤ o.hitCounter) ∧
    (w3.objs.map (·.initId)).Pairwise (· < ·) ∧
    (∀ o ∈ w3.objs, ∀ p ∈ w3.objs, ∀ i, o.id = some i → p.id = some i → o = p) ∧
    (∀ o ∈ w3.objs, ∀ i, o.id = some i → 1 ≤ i ∧ i ≤ totalObjectCount w3) ∧
    (∀ o ∈ w3.objs, o.id = none ↔ o.isInit = true) ∧
    (∀ o ∈ w.objs, ∀ o' ∈ w3.objs, o.initId = o'.initId → o'.label = o.label ∧
      (∀ i, o.id = some i → o'.id = some i) ∧ ∀ g, o.globalId = some g → o'.globalId = some g) := by
  have hw1 : Reachable cfg w1 := by
    have := hw.update dets period ct
    rw [herr] at this; exact this
  have hw2 := hw1.trans hnext
  have hr : Reaches' cfg w w3 := by
    have h1 : Reaches' cfg w w1 := by
      have := Reaches.call (cfg := cfg) (E := fun _ _ => True) (P := fun _ _ _ _ => True)
        dets period ct (.refl w) trivial
      rw [herr] at this; exact this
    have h3 : Reaches' cfg w2 w3 := by
      have := Reaches.call (cfg := cfg) (E := fun _ _ => True) (P := fun _ _ _ _ => True)
        dets' period' ct' (.refl w2) trivial
      rw [hok] at this; exact this
    exact (h1.trans' hnext).trans' h3
  have hI : Inv w3 := (hr.inv hw.inv).1
  obtain ⟨a1, a2, a3, a4, a5⟩ := C09_update_returns_active hw2 hok
  refine ⟨a1, hI.sorted, ?_, hI.idRange, a4, ?_⟩
  · intro o ho p hp i h1 h2
    exact World.eq_of_mem_of_key hI.nodup ho hp (hI.idInj o ho p hp i h1 h2)
  · intro o ho o' ho' hk
    obtain ⟨b1, _, _, _, _, b2, b3⟩ := C07_identity_stable hw hr ho ho' hk
    exact ⟨b1, b2, b3⟩

end

/-! ### C08 -/

section
variable {ι : Type} {D F : ι → Type} [DecidableEq ι] [LinearOrder K] [Zero K] [DecidableEq L]
  [∀ i, LinearOrder (D i)] [∀ i, OrderTop (D i)] [∀ i, Zero (D i)]

/-- **C08** In a process with any number of trackers, whatever the interleaving of their calls: objects
seen at any two moments with the same global_id are the same object of the same tracker. -/
theorem C08_global_ids_unique {cfg : (i : ι) → Cfg K L (D i) (F i) X} {s0 s1 s2 : Sys K L X D F}
    (h0 : s0.Initial) (h1 : SysReaches cfg s0 s1) (h2 : SysReaches cfg s1 s2) {i j : ι}
    {o1 : Obj K L (D i) (F i)} {o2 : Obj K L (D j) (F j)} (ho1 : o1 ∈ (s1.own i).objs)
    (ho2 : o2 ∈ (s2.own j).objs) {g : Nat} (e1 : o1.globalId = some g) (e2 : o2.globalId = some g) :
    i = j ∧ o1.initId = o2.initId := by
  have hI1 := (h1.inv (SysInv.initial h0)).1
  have hE := (h2.inv hI1).2
  have hr := ((hI1.inv i).gidRange o1 ho1 g e1).2
  rcases (hE.each j).newGid o2 ho2 g e2 with h | ⟨p, hp, hk, hpg⟩
  · have : (s1.world j).gcount = (s1.world i).gcount := rfl
    omega
  · have hij := hI1.cross i j o1 ho1 p hp g e1 hpg
    subst hij
    exact ⟨rfl, ((hI1.inv i).gidInj o1 ho1 p hp g e1 hpg).trans hk⟩

end

/-! ### Examples: the hypotheses are met by concrete non-trivial cases -/

open Toy

/-- two objects with ids 1 and 2, and a third one initializing -/
example : (run cfg w0 [[0, 50], [1, 51], [2, 52, 100]]).objs.map
      (fun o => (o.initId, o.id, o.globalId, o.isInit)) =
    [(1, some 1, some 1, false), (2, some 2, some 2, false), (3, none, none, true)] := by decide +kernel

/-- C06/C07: object 1 dies, later a new object gets a fresh id and the old identity is gone -/
example : (run cfg w0 [[0], [1], [], [], [], [], [], [0], [1]]).objs.map (fun o => (o.initId, o.id)) =
    [(2, some 2)] ∧
    Reaches' cfg (run cfg w0 [[0], [1]]) (run cfg (run cfg w0 [[0], [1]]) [[], [], [], [], [], [0], [1]]) :=
  ⟨by decide +kernel, run_reaches _ _ _ _ (.refl _)⟩

/-- C05: a distance that is NaN for detection 7 -/
def nanCfg : TCfg := { cfg with dist := .scalar fun d o => if d.points.data = [7] then some none else dist d o }

example : (update nanCfg (run nanCfg w0 [[0], [1]]) (some [7, 1]) 1 none).2 = .error .nan ∧
    (update nanCfg (run nanCfg w0 [[0], [1]]) (some [7, 1]) 1 none).1.objs.map
      (fun o => (o.id, o.lastDet, o.hitCounter)) = [(some 1, 1, 1)] ∧
    (run nanCfg w0 [[0], [1]]).objs.map (fun o => (o.id, o.lastDet, o.hitCounter, o.isInit)) =
      [(some 1, 1, 2, false)] := by
  refine ⟨errOf_some.mp (by decide +kernel), by decide +kernel, by decide +kernel⟩

/-- C05 (converse): the distances of the example trackers never give NaN -/
example : (∀ d v, Toy.dist d v ≠ some none) ∧ (∀ a b, Toy.reidDist a b ≠ some none) := by
  constructor
  · intro d v
    unfold Toy.dist
    split <;> simp
  · intro a b
    unfold Toy.reidDist
    split <;> simp

/-- C05 (ReID comparison): object 1 is dead, object 2 becomes a candidate, the ReID distance is NaN -/
example : errOf (update { rcfg with reid := some fun _ _ => some none }
    (run { rcfg with reid := some fun _ _ => some none } w0 [[0], [1], [2], [50]]) (some [51]) 1 none) =
      some .nan := by decide +kernel

/-- C09: an update that returns one object out of three -/
example : returned (update cfg (run cfg w0 [[0, 50], [1], [2]]) (some [3, 100]) 1 none) =
      some [(1, some 1, 4)] ∧
    (update cfg (run cfg w0 [[0, 50], [1], [2]]) (some [3, 100]) 1 none).1.objs.map (·.initId) =
      [1, 3] ∧ Reachable cfg (run cfg w0 [[0, 50], [1], [2]]) :=
  ⟨by decide +kernel, by decide +kernel, run_reachable _ _⟩

/-- C28: a NaN error, then a working update -/
example : errOf (update nanCfg (run nanCfg w0 [[0], [1]]) (some [7, 1]) 1 none) = some .nan ∧
    returned (update nanCfg (update nanCfg (run nanCfg w0 [[0], [1]]) (some [7, 1]) 1 none).1 (some [2]) 1 none)
      = some [(1, some 1, 2)] := by decide +kernel

/-- C23: the constructor conditions hold for the example tracker, and the counts of a run -/
example : cfg.reid = none ∧ 0 ≤ cfg.initDelay ∧ cfg.initDelay < cfg.hitCounterMax ∧
    totalObjectCount (run cfg w0 [[0, 50], [1, 51], [2, 52, 100]]) = 2 ∧
    currentObjectCount (run cfg w0 [[0, 50], [1, 51], [2, 52, 100]]) = 2 := by
  refine ⟨rfl, by decide, by decide, by decide +kernel, by decide +kernel⟩

/-- C23: a run of successful calls -/
example : Trace cfg w0 (frames cfg w0 [[0, 50], [1, 51], [2]]) (run cfg w0 [[0, 50], [1, 51], [2]]) ∧
    ∀ f ∈ frames cfg w0 [[0, 50], [1, 51], [2]], 0 ≤ f.period ∧ ∃ act, f.out = .ok act := by
  refine ⟨run_trace _ _ _, ?_⟩
  simp only [frames, List.mem_cons, List.not_mem_nil, or_false]
  have hok : ∀ r : TWorld × Except Err (List TObj), (returned r).isSome = true → ∃ act, r.2 = .ok act :=
    fun r h => (exists_ok h).imp fun a ha => by rw [ha]
  rintro f (rfl | rfl | rfl) <;> exact ⟨by decide, hok _ (by decide +kernel)⟩

/-- **C23** (why "without ReID") with ReID an initializing object can get an id and be merged away
inside one update: here the second id is handed out but never returned by any update. -/
theorem C23_reid_skips_ids :
    totalObjectCount (run rcfg w0 [[0], [1], [2], [50], [51], [52]]) = 2 ∧
    (run rcfg w0 [[0], [1], [2], [50], [51]]).objs.map (fun o => (o.initId, o.id)) = [(1, some 1)] ∧
    (run rcfg w0 [[0], [1], [2], [50]]).objs.map (fun o => (o.initId, o.id)) =
      [(1, some 1), (2, none)] := by decide +kernel

/-- C08: two trackers used in turn -/
example : ∃ s0 s1 : Sys Int Nat Unit (fun _ : Bool => WithTop Nat) (fun _ => NoFilter Int),
    s0.Initial ∧ SysReaches (fun _ => cfg) s0 s1 ∧
    ((s1.own false).objs.map (·.globalId), (s1.own true).objs.map (·.globalId)) =
      ([some 1], [some 2]) := by
  let s0 : Sys Int Nat Unit (fun _ : Bool => WithTop Nat) (fun _ => NoFilter Int) :=
    ⟨heap, 0, fun _ => ⟨0, 0, []⟩⟩
  let st (s : Sys Int Nat Unit (fun _ : Bool => WithTop Nat) (fun _ => NoFilter Int)) (b : Bool)
    (l : List Ref) := s.put b (update cfg (s.world b) (some l) 1 none).1
  refine ⟨s0, st (st (st (st s0 false [0]) true [1]) false [2]) true [3], fun _ => ⟨rfl, rfl, rfl⟩, ?_, ?_⟩
  · exact .call true _ _ _ (.call false _ _ _ (.call true _ _ _ (.call false _ _ _ (.refl _))))
  · decide +kernel

end Norfair.Props
