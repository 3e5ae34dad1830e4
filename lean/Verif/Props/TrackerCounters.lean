import Verif.Lemmas.Frames
import Verif.Spec.Frames
import Verif.Props.TrackerIds

/-!
Property theorems C10, C11, C13, C14, C15, C20, C21, C22: what happens to the counters of an object.
-/

set_option linter.unusedSectionVars false

namespace Norfair.Props

open Norfair Norfair.Spec

variable {K L D F X : Type}

section
variable [LinearOrder K] [Zero K] [LinearOrder D] [OrderTop D] [Zero D] [DecidableEq L]

/-! ### C10 -/

/-- **C10** After a successful update the last detections that are among the given ones are, as a
multiset, exactly the given ones: no detection is dropped, none is used twice (if the list contains a
detection twice, it is used twice). -/
theorem C10_detections_used_once {cfg : Cfg K L D F X} {w w' : World K L D F X}
    (hw : Reachable cfg w) {dets : Option (List Ref)} {period : Int} {ct : Option (CoordTrans K)}
    {act : List (Obj K L D F)} (h : update cfg w dets period ct = (w', .ok act))
    (hfresh : ∀ o ∈ w.objs, o.lastDet ∉ dets.getD []) :
    ((w'.objs.map (·.lastDet)).filter (fun r => decide (r ∈ dets.getD []))).Perm (dets.getD []) :=
  update_detections_perm hw.inv h hfresh

/-- **C10** for different detections: each of them is the last detection of exactly one object. -/
theorem C10_unique_owner {cfg : Cfg K L D F X} {w w' : World K L D F X}
    (hw : Reachable cfg w) {dets : List Ref} {period : Int} {ct : Option (CoordTrans K)}
    {act : List (Obj K L D F)} (h : update cfg w (some dets) period ct = (w', .ok act))
    (hfresh : ∀ o ∈ w.objs, o.lastDet ∉ dets) (hnd : dets.Nodup) {r : Ref} (hr : r ∈ dets) :
    ∃ o ∈ w'.objs, o.lastDet = r ∧ ∀ p ∈ w'.objs, p.lastDet = r → p = o := by
  have hp := C10_detections_used_once hw h hfresh
  simp only [Option.getD_some] at hp
  obtain ⟨o, ho, e⟩ := List.mem_map.mp (List.mem_filter.mp (hp.mem_iff.mpr hr)).1
  refine ⟨o, ho, e, fun p hp' hpe => ?_⟩
  have hnd' := hp.nodup_iff.mpr hnd
  rw [List.filter_map] at hnd'
  exact List.inj_on_of_nodup_map hnd'
    (List.mem_filter.mpr ⟨hp', by simp [hpe, hr]⟩)
    (List.mem_filter.mpr ⟨ho, by simp [e, hr]⟩) (hpe.trans e.symm)

/-! ### C11 -/

/-- **C11** One successful update, seen from one object `o` (with new detections). If it got none of
the detections its counter went down by one and nothing else but its filter prediction, age and
transformation changed. If it got a detection, its counter is `min (old - 1 + 2 * period)
hit_counter_max` - unless (with ReID) another, initializing, object disappeared into it. -/
theorem C11_counter_steps {cfg : Cfg K L D F X} {w w' : World K L D F X}
    (hw : Reachable cfg w) {dets : Option (List Ref)} {period : Int} {ct : Option (CoordTrans K)}
    {act : List (Obj K L D F)} (h : update cfg w dets period ct = (w', .ok act))
    {o o' : Obj K L D F} (ho : o ∈ w.objs) (ho' : o' ∈ w'.objs) (hk : o.initId = o'.initId)
    (hfresh : o.lastDet ∉ dets.getD []) :
    (o'.lastDet ∉ dets.getD [] → o'.lastDet = o.lastDet ∧ o'.hitCounter = o.hitCounter - 1 ∧
      o'.isInit = o.isInit ∧ o'.id = o.id ∧ o'.lastDistance = o.lastDistance ∧
      o'.pointHits = o.pointHits.map (· - 1) ∧ o'.once = o.once ∧ o'.past = o.past ∧
      o'.filter = cfg.flt.predict o.filter) ∧
    (o'.lastDet ∈ dets.getD [] →
      (0 ≤ o.hitCounter ∧ o'.hitCounter = min (o.hitCounter - 1 + 2 * period) cfg.hitCounterMax) ∨
      (cfg.reid ≠ none ∧ o'.hitCounter = 2 * o.initialPeriod ∧ o'.isInit = o.isInit ∧
        ∃ c ∈ w.objs, c.isInit = true ∧ c ≠ o ∧ ∀ p ∈ w'.objs, p.initId ≠ c.initId)) := by
  obtain ⟨hs, hc⟩ := update_obj_cases hw.inv h ho ho' hk
  rcases hc with ⟨v, rfl⟩ | ⟨r, hr, hf, h0⟩ | ⟨hre, _, r, hr, oc, hoc, oc', h1, _, h2, h3, hf, hm⟩
  · obtain ⟨g, hg⟩ := stepped_eq cfg ct o
    rw [hg]
    exact ⟨fun _ => ⟨rfl, rfl, rfl, rfl, rfl, rfl, rfl, rfl, rfl⟩, fun hx => absurd hx hfresh⟩
  · refine ⟨fun hx => absurd (by rw [hf.lastDet]; exact hr) hx, fun _ => Or.inl ⟨h0, hf.hitCounter⟩⟩
  · refine ⟨fun hx => absurd (by rw [hm.lastDet, hf.lastDet]; exact hr) hx, fun _ => Or.inr
      ⟨hre, hm.hitCounter, hm.isInit, oc, (survivors_sublist cfg w.objs).subset hoc, h1, ?_, ?_⟩⟩
    · intro e; exact h2 (congrArg _ e)
    · intro p hp e
      exact h3 (e ▸ List.mem_map_of_mem hp)

/-- **C11** A new object starts with `hit_counter = period`, with the detection it was made from. -/
theorem C11_new_objects {cfg : Cfg K L D F X} {w w' : World K L D F X}
    (hw : Reachable cfg w) {dets : Option (List Ref)} {period : Int} {ct : Option (CoordTrans K)}
    {act : List (Obj K L D F)} (h : update cfg w dets period ct = (w', .ok act))
    {o' : Obj K L D F} (ho' : o' ∈ w'.objs) (hnew : ∀ o ∈ w.objs, o.initId ≠ o'.initId) :
    o'.hitCounter = period ∧ o'.lastDet ∈ dets.getD [] ∧ o'.age = 0 ∧ o'.initialPeriod = period ∧
    o'.isInit = decide (period ≤ cfg.initDelay) ∧ o'.reidHitCounter = none ∧
    o'.lastDistance = none ∧ o'.label = (w.heap o'.lastDet).label := by
  obtain ⟨r, hr, wi, rfl, ha⟩ := update_obj_new hw.inv h ho' (by
    intro hx
    obtain ⟨o, ho, e⟩ := List.mem_map.mp hx
    exact hnew o ho e)
  obtain ⟨g, hg⟩ := newObj_fields cfg wi r period ct
  rw [hg]
  refine ⟨rfl, hr, rfl, rfl, rfl, rfl, rfl, ?_⟩
  show (wi.heap r).label = (w.heap r).label
  rw [ha.label]
  unfold startHeap
  split
  · rename_i c l
    have : ∀ (l : List Ref) (h : Ref → Det K L X), (l.foldl (transformDet c) h r).label = (h r).label := by
      intro l
      induction l with
      | nil => exact fun _ => rfl
      | cons a l ih =>
        intro h
        rw [List.foldl_cons, ih]
        obtain ⟨b, hb⟩ := transformDet_fields c h a r
        rw [hb]
    exact this l w.heap
  · rfl

/-! ### C13 -/

/-- one call in which an initialized object gets no detection -/
theorem missed_call {cfg : Cfg K L D F X} {w w' : World K L D F X}
    (hI : Inv w) {dets : Option (List Ref)} {period : Int} {ct : Option (CoordTrans K)}
    {act : List (Obj K L D F)} (h : update cfg w dets period ct = (w', .ok act))
    {o : Obj K L D F} (ho : o ∈ w.objs) (hinit : o.isInit = false ∨ cfg.reid = none)
    (hmiss : ∀ o' ∈ w'.objs, o'.initId = o.initId → o'.lastDet ∉ dets.getD []) :
    (o ∈ survivors cfg w.objs → ∃ v, ({ stepped cfg ct o with curMin := v } : Obj K L D F) ∈ w'.objs) ∧
    (o ∉ survivors cfg w.objs → ∀ o' ∈ w'.objs, o'.initId ≠ o.initId) := by
  constructor
  · intro hs
    rcases update_obj_stays hI h hs with ⟨o', ho', hk⟩ | ⟨h1, h2, _⟩
    · obtain ⟨_, hc⟩ := update_obj_cases hI h ho ho' hk.symm
      rcases hc with ⟨v, rfl⟩ | ⟨r, hr, hf, _⟩ | ⟨_, _, r, hr, oc, _, oc', _, _, _, _, hf, hm⟩
      · exact ⟨v, ho'⟩
      · exact absurd (by rw [hf.lastDet]; exact hr) (hmiss o' ho' hk)
      · exact absurd (by rw [hm.lastDet, hf.lastDet]; exact hr) (hmiss o' ho' hk)
    · rcases hinit with h3 | h3
      · rw [h3] at h2; cases h2
      · exact absurd h3 h1
  · intro hs o' ho' hk
    exact hs (update_obj_cases hI h ho ho' hk.symm).1

theorem find_eq_of_mem {w : World K L D F X} (hI : Inv w) {a b : Obj K L D F} (ha : a ∈ w.objs)
    (hb : b ∈ w.objs) (hk : a.initId = b.initId) : a = b :=
  World.eq_of_mem_of_key hI.nodup ha hb hk

/-- **C13** Without ReID counters: an initialized object with hit counter `h` that gets no detection in
the next `n` successful updates has hit counter `h - n` as long as `n ≤ h + 1`, and is gone if
`n > h + 1`. -/
theorem C13_inertia {cfg : Cfg K L D F X} (hmax : cfg.reidMax = none) {w w' : World K L D F X}
    {fs : List (Frame K L D F X)} (hw : Reachable cfg w) (h : Trace cfg w fs w')
    {o : Obj K L D F} (ho : o ∈ w.objs) (hinit : o.isInit = false) (hh : -1 ≤ o.hitCounter)
    (hfs : ∀ f ∈ fs, Succeeds f ∧ Missed o.initId f) :
    ((fs.length : Int) ≤ o.hitCounter + 1 → ∃ o' ∈ w'.objs, o'.initId = o.initId ∧
      o'.hitCounter = o.hitCounter - fs.length ∧ o'.isInit = false ∧ o'.id = o.id) ∧
    (o.hitCounter + 1 < (fs.length : Int) → ∀ o' ∈ w'.objs, o'.initId ≠ o.initId) := by
  induction h with
  | nil =>
    exact ⟨fun _ => ⟨o, ho, rfl, by simp, hinit, rfl⟩, fun hlt => by simp at hlt; omega⟩
  | env heap g _ he ih => exact ih hfs
  | @call fs w1 dets period ct ht ih =>
    obtain ⟨ih1, ih2⟩ := ih (fun f hf => hfs f (List.mem_append_left _ hf))
    obtain ⟨⟨act, hact⟩, hmiss⟩ := hfs _ (List.mem_append_right _ (List.mem_singleton.mpr rfl))
    have hI1 := (hw.trans ht.reaches).inv
    have hup : update cfg w1 dets period ct = ((update cfg w1 dets period ct).1, .ok act) :=
      Prod.ext rfl hact
    simp only [List.length_append, List.length_singleton, Nat.cast_add, Nat.cast_one]
    by_cases hn : (fs.length : Int) ≤ o.hitCounter + 1
    · obtain ⟨o1, ho1, hk1, hc1, hi1, hid1⟩ := ih1 hn
      obtain ⟨hm1, hm2⟩ := missed_call hI1 hup ho1 (Or.inl hi1) (by
        intro o' ho' hk'; exact hmiss o' ho' (hk'.trans hk1))
      constructor
      · intro hle
        obtain ⟨v, hv⟩ := hm1 (mem_survivors.mpr ⟨ho1, Or.inl ⟨hmax, by omega⟩⟩)
        refine ⟨_, hv, by simp [hk1], ?_, by simp [hi1], by simp [hid1]⟩
        simp [hc1]; omega
      · intro hlt o' ho' hk
        refine hm2 ?_ o' ho' (hk.trans hk1.symm)
        rw [mem_survivors]
        rintro ⟨_, ⟨_, h0⟩ | ⟨h0, _⟩⟩
        · omega
        · exact h0 hmax
    · constructor
      · intro hle; omega
      · intro _ o' ho' hk
        have hgone := ih2 (by omega)
        rcases (update_inv (cfg := cfg) hI1 dets period ct).2.origin o' ho' with hlt | ⟨p, hp, e, _⟩
        · have h1 := (hw.inv.bounded o ho).2
          have h2 := (ht.reaches.inv hw.inv).2.initCount
          omega
        · exact hgone p hp (e.trans hk)

/-- **C13** hence it is returned by exactly the next `h` updates, -/
theorem C13_returned_iff {cfg : Cfg K L D F X} (hmax : cfg.reidMax = none) {w w' : World K L D F X}
    {fs : List (Frame K L D F X)} {f : Frame K L D F X} (hw : Reachable cfg w)
    (h : Trace cfg w (fs ++ [f]) w')
    {o : Obj K L D F} (ho : o ∈ w.objs) (hinit : o.isInit = false) (hh : -1 ≤ o.hitCounter)
    (hfs : ∀ f' ∈ fs ++ [f], Succeeds f' ∧ Missed o.initId f') :
    Returned o.initId f ↔ ((fs.length + 1 : Nat) : Int) ≤ o.hitCounter := by
  have hfr := h.frame f (List.mem_append_right _ (List.mem_singleton.mpr rfl))
  -- cut the trace right after `f`
  have hcut : Trace cfg w (fs ++ [f]) f.after := by
    have : ∀ {a gs b}, Trace cfg a gs b → ∀ fs f, gs = fs ++ [f] → Trace cfg a (fs ++ [f]) f.after := by
      intro a gs b ht
      induction ht with
      | nil => intro fs f e; simp at e
      | env heap g _ he ih => exact fun fs f e => ih fs f e
      | call dets period ct ht ih =>
        intro fs f e
        obtain ⟨e1, e2⟩ := List.append_inj' e rfl
        simp only [List.cons.injEq, and_true] at e2
        subst e1; subst e2
        exact .call dets period ct ht
    exact this h fs f rfl
  obtain ⟨h1, h2⟩ := C13_inertia hmax hw hcut ho hinit hh hfs
  obtain ⟨act, hact⟩ := (hfs f (List.mem_append_right _ (List.mem_singleton.mpr rfl))).1
  have hreach : Reachable cfg f.before := hw.trans hfr.1
  have hup : update cfg f.before f.dets f.period f.ct = (f.after, .ok act) :=
    Prod.ext hfr.2.1.symm (hfr.2.2.1.symm.trans hact)
  have hret := (C09_update_returns_active hreach hup).1
  simp only [List.length_append, List.length_singleton] at h1 h2
  constructor
  · rintro ⟨act', e, o', ho', hk⟩
    rw [hact] at e; cases e
    obtain ⟨hm, hi, h0⟩ := (hret o').mp ho'
    by_contra hlt
    by_cases hle : ((fs.length + 1 : Nat) : Int) ≤ o.hitCounter + 1
    · obtain ⟨o1, ho1, hk1, hc1, _⟩ := h1 hle
      have hra : Reachable cfg f.after := by
        have := hreach.update f.dets f.period f.ct
        rwa [hup] at this
      have : o1 = o' := find_eq_of_mem hra.inv ho1 hm (hk1.trans hk.symm)
      subst this
      omega
    · exact h2 (by omega) o' hm hk
  · intro hle
    obtain ⟨o1, ho1, hk1, hc1, hi1, _⟩ := h1 (by omega)
    exact ⟨act, hact, o1, (hret o1).mpr ⟨ho1, hi1, by omega⟩, hk1⟩

/-- **C13** and once it is gone neither the object nor its id ever comes back. -/
theorem C13_never_again {cfg : Cfg K L D F X} (hmax : cfg.reidMax = none) {w w' w'' : World K L D F X}
    {fs : List (Frame K L D F X)} (hw : Reachable cfg w) (h : Trace cfg w fs w')
    {o : Obj K L D F} (ho : o ∈ w.objs) (hinit : o.isInit = false) (hh : -1 ≤ o.hitCounter)
    (hfs : ∀ f ∈ fs, Succeeds f ∧ Missed o.initId f) (hlong : o.hitCounter + 1 < (fs.length : Int))
    (hlater : Reaches' cfg w' w'') :
    ∀ o' ∈ w''.objs, o'.initId ≠ o.initId ∧ o'.id ≠ o.id := by
  have hgone := (C13_inertia hmax hw h ho hinit hh hfs).2 hlong
  have hw' := hw.trans h.reaches
  have hle : o.initId ≤ w'.initCount :=
    ((hw.inv.bounded o ho).2).trans (h.reaches.inv hw.inv).2.initCount
  have hkey : ∀ o' ∈ w''.objs, o'.initId ≠ o.initId := by
    intro o' ho' hk
    obtain ⟨o1, ho1, e⟩ := (C06_identity_never_reused hw' hlater).2 o' ho' (by omega)
    exact hgone o1 ho1 (e.trans hk)
  intro o' ho'
  refine ⟨hkey o' ho', fun hid => ?_⟩
  have hsome : o.id ≠ none := fun hn => by
    rw [(hw.inv.initIff o ho).mpr hn] at hinit; cases hinit
  obtain ⟨i, hi⟩ := Option.ne_none_iff_exists'.mp hsome
  have := (C06_ids_unique hw (h.reaches.trans' hlater) ho ho' hi (hid.trans hi)).1
  exact hkey o' ho' this.symm

/-! ### C21 -/

/-- **C21** With `reid_hit_counter_max = r`: an initialized object with hit counter `h ≥ 0` that gets no
detection (and no ReID match) in the next `n` successful updates is alive for `h` updates, dead with
ReID counter counting down from `r` for `r + 2` updates, and then gone. -/
theorem C21_dead_objects {cfg : Cfg K L D F X} {r : Int} (hmax : cfg.reidMax = some r) (hr : 0 ≤ r)
    {w w' : World K L D F X} {fs : List (Frame K L D F X)} (hw : Reachable cfg w)
    (h : Trace cfg w fs w') {o : Obj K L D F} (ho : o ∈ w.objs) (hinit : o.isInit = false)
    (hh : 0 ≤ o.hitCounter) (hnone : o.reidHitCounter = none)
    (hfs : ∀ f ∈ fs, Succeeds f ∧ Missed o.initId f) :
    ((fs.length : Int) ≤ o.hitCounter + r + 2 → ∃ o' ∈ w'.objs, o'.initId = o.initId ∧
      o'.hitCounter = o.hitCounter - fs.length ∧ o'.isInit = false ∧ o'.id = o.id ∧
      o'.reidHitCounter = if (fs.length : Int) ≤ o.hitCounter then none
        else some (r - (fs.length - o.hitCounter - 1))) ∧
    (o.hitCounter + r + 2 < (fs.length : Int) → ∀ o' ∈ w'.objs, o'.initId ≠ o.initId) := by
  induction h with
  | nil =>
    refine ⟨fun _ => ⟨o, ho, rfl, by simp, hinit, rfl, ?_⟩, fun hlt => by simp at hlt; omega⟩
    simp [hh, hnone]
  | env heap g _ he ih => exact ih hfs
  | @call fs w1 dets period ct ht ih =>
    obtain ⟨ih1, ih2⟩ := ih (fun f hf => hfs f (List.mem_append_left _ hf))
    obtain ⟨⟨act, hact⟩, hmiss⟩ := hfs _ (List.mem_append_right _ (List.mem_singleton.mpr rfl))
    have hI1 := (hw.trans ht.reaches).inv
    have hup : update cfg w1 dets period ct = ((update cfg w1 dets period ct).1, .ok act) :=
      Prod.ext rfl hact
    simp only [List.length_append, List.length_singleton, Nat.cast_add, Nat.cast_one]
    by_cases hn : (fs.length : Int) ≤ o.hitCounter + r + 2
    · obtain ⟨o1, ho1, hk1, hc1, hi1, hid1, hre1⟩ := ih1 hn
      obtain ⟨hm1, hm2⟩ := missed_call hI1 hup ho1 (Or.inl hi1) (by
        intro o' ho' hk'; exact hmiss o' ho' (hk'.trans hk1))
      constructor
      · intro hle
        obtain ⟨v, hv⟩ := hm1 (mem_survivors.mpr ⟨ho1, Or.inr ⟨by rw [hmax]; simp, by
          by_cases h0 : (fs.length : Int) ≤ o.hitCounter
          · left; rw [hre1, if_pos h0]
          · right; rw [hre1, if_neg h0]; exact ⟨_, rfl, by omega⟩⟩⟩)
        refine ⟨_, hv, by simp [hk1], ?_, by simp [hi1], by simp [hid1], ?_⟩
        · simp [hc1]; omega
        · simp only [stepped_reidHitCounter, hre1]
          by_cases h0 : (fs.length : Int) ≤ o.hitCounter
          · rw [if_pos h0]
            simp only [hc1, hmax]
            by_cases h1 : (fs.length : Int) + 1 ≤ o.hitCounter
            · have h2 : ¬ o.hitCounter - (fs.length : Int) ≤ 0 := by omega
              rw [if_pos h1, if_neg h2]
            · have h2 : o.hitCounter - (fs.length : Int) ≤ 0 := by omega
              rw [if_neg h1, if_pos h2]
              congr 1; omega
          · have h2 : ¬ (fs.length : Int) + 1 ≤ o.hitCounter := by omega
            rw [if_neg h0, if_neg h2]
            simp only [Option.some.injEq]
            omega
      · intro hlt o' ho' hk
        refine hm2 ?_ o' ho' (hk.trans hk1.symm)
        rw [mem_survivors]
        rintro ⟨_, ⟨h0, _⟩ | ⟨_, h0 | ⟨q, h0, h00⟩⟩⟩
        · rw [hmax] at h0; cases h0
        · rw [hre1, if_neg (by omega)] at h0; cases h0
        · rw [hre1, if_neg (by omega)] at h0
          have := Option.some.inj h0
          omega
    · constructor
      · intro hle; omega
      · intro _ o' ho' hk
        have hgone := ih2 (by omega)
        rcases (update_inv (cfg := cfg) hI1 dets period ct).2.origin o' ho' with hlt | ⟨p, hp, e, _⟩
        · have h1 := (hw.inv.bounded o ho).2
          have h2 := (ht.reaches.inv hw.inv).2.initCount
          omega
        · exact hgone p hp (e.trans hk)

end

/-! ### Examples -/

open Toy

/-- C10: three fresh detections; two are given to objects 1 and 2, one starts object 3 -/
example : Reachable cfg (run cfg w0 [[0, 50], [1, 51]]) ∧
    (∃ act, update cfg (run cfg w0 [[0, 50], [1, 51]]) (some [100, 52, 2]) 1 none =
      (run cfg w0 [[0, 50], [1, 51], [100, 52, 2]], .ok act)) ∧
    (∀ o ∈ (run cfg w0 [[0, 50], [1, 51]]).objs, o.lastDet ∉ [100, 52, 2]) ∧ [100, 52, 2].Nodup ∧
    (run cfg w0 [[0, 50], [1, 51], [100, 52, 2]]).objs.map (fun o => (o.initId, o.lastDet)) =
      [(1, 2), (2, 52), (3, 100)] :=
  ⟨run_reachable _ _, exists_ok (by decide +kernel), by decide +kernel, by decide, by decide +kernel⟩

/-- C11: in the last update object 1 is matched (2 to 3), object 2 is not (2 to 1), object 3 is new -/
example : (run cfg w0 [[0, 50], [1, 51]]).objs.map (fun o => (o.initId, o.hitCounter)) =
      [(1, 2), (2, 2)] ∧
    (run cfg w0 [[0, 50], [1, 51], [2, 100]]).objs.map (fun o => (o.initId, o.hitCounter)) =
      [(1, 3), (2, 1), (3, 1)] ∧
    (∃ act, update cfg (run cfg w0 [[0, 50], [1, 51]]) (some [2, 100]) 1 none =
      (run cfg w0 [[0, 50], [1, 51], [2, 100]], .ok act)) :=
  ⟨by decide +kernel, by decide +kernel, exists_ok (by decide +kernel)⟩

/-- C11, ReID case: object 2 disappears into object 1, whose counter becomes 2 * 1 -/
example : (run rcfg w0 [[0], [1], [2], [50]]).objs.map (fun o => (o.initId, o.hitCounter, o.lastDet)) =
      [(1, 2, 2), (2, 1, 50)] ∧
    (run rcfg w0 [[0], [1], [2], [50], [51]]).objs.map (fun o => (o.initId, o.hitCounter, o.lastDet)) =
      [(1, 2, 51)] := by decide +kernel

/-- C13: hit counter 2, then four updates without a match: returned twice, tracked after three, then gone -/
example : (run cfg w0 [[0], [1]]).objs.map (fun o => (o.initId, o.isInit, o.hitCounter)) =
      [(1, false, 2)] ∧
    (∀ f ∈ frames cfg (run cfg w0 [[0], [1]]) [[50], [51], [], []], Succeeds f ∧ Missed 1 f) ∧
    Trace cfg (run cfg w0 [[0], [1]]) (frames cfg (run cfg w0 [[0], [1]]) [[50], [51], [], []])
      (run cfg (run cfg w0 [[0], [1]]) [[50], [51], [], []]) ∧
    (frames cfg (run cfg w0 [[0], [1]]) [[50], [51], [], []]).map
      (fun f => f.after.objs.any (fun o => o.initId = 1)) = [true, true, true, false] := by
  refine ⟨by decide +kernel, ?_, run_trace _ _ _, by decide +kernel⟩
  simp only [frames, List.mem_cons, List.not_mem_nil, or_false]
  have hok : ∀ r : TWorld × Except Err (List TObj), (returned r).isSome = true → ∃ act, r.2 = .ok act :=
    fun r h => (exists_ok h).imp fun a ha => by rw [ha]
  rintro f (rfl | rfl | rfl | rfl)
  all_goals
    refine ⟨hok _ (by decide +kernel), ?_⟩
    unfold Missed given
    decide +kernel

/-- C21: hit counter 2 and `reid_hit_counter_max = 5`: still there after 9 missed updates, gone after 10 -/
example : (run rcfg w0 [[0], [1]]).objs.map (fun o => (o.initId, o.isInit, o.hitCounter, o.reidHitCounter)) =
      [(1, false, 2, none)] ∧ rcfg.reidMax = some 5 ∧
    (∀ f ∈ frames rcfg (run rcfg w0 [[0], [1]]) [[], [], [], [], [], [], [], [], [], []],
      Succeeds f ∧ Missed 1 f) ∧
    (frames rcfg (run rcfg w0 [[0], [1]]) [[], [], [], [], [], [], [], [], [], []]).map
      (fun f => f.after.objs.map (·.reidHitCounter)) =
      [[none], [none], [some 5], [some 4], [some 3], [some 2], [some 1], [some 0], [some (-1)], []] := by
  refine ⟨by decide +kernel, rfl, ?_, by decide +kernel⟩
  have hok : ∀ r : TWorld × Except Err (List TObj), (returned r).isSome = true → ∃ act, r.2 = .ok act :=
    fun r h => (exists_ok h).imp fun a ha => by rw [ha]
  simp only [frames, List.mem_cons, List.not_mem_nil, or_false]
  rintro f (rfl | rfl | rfl | rfl | rfl | rfl | rfl | rfl | rfl | rfl)
  all_goals
    refine ⟨hok _ (by decide +kernel), ?_⟩
    unfold Missed given
    decide +kernel

end Norfair.Props
