import Verif.Lemmas.Age
import Verif.Props.TrackerCounters

/-!
Property theorems C14, C15, C22: objects that are matched all the time, and the age of objects.
-/

set_option linter.unusedSectionVars false

namespace Norfair.Props

open Norfair Norfair.Spec

variable {K L D F X : Type}

section
variable [LinearOrder K] [Zero K] [LinearOrder D] [OrderTop D] [Zero D] [DecidableEq L]

/-- a trace can be cut right after its last call -/
theorem trace_cut {cfg : Cfg K L D F X} {w w' : World K L D F X} {fs : List (Frame K L D F X)}
    {f : Frame K L D F X} (h : Trace cfg w (fs ++ [f]) w') : Trace cfg w (fs ++ [f]) f.after := by
  have : ∀ {a gs b}, Trace cfg a gs b → ∀ fs f, gs = fs ++ [f] → Trace cfg a (fs ++ [f]) f.after := by
    intro a gs b ht
    induction ht with
    | nil => intro fs f e; simp at e
    | env heap g _ he ih => exact fun fs f e => ih fs f e
    | call dets period ct ht ih =>
      intro fs f e
      obtain ⟨e1, e2⟩ := List.append_inj' e rfl
      simp only [List.cons.injEq, and_true] at e2
      subst e1; subst e2
      exact .call dets period ct ht
  exact this h fs f rfl

/-- the last call of a trace returned exactly the active objects of the state after it -/
theorem returned_iff {cfg : Cfg K L D F X} {w w' : World K L D F X} {fs : List (Frame K L D F X)}
    {f : Frame K L D F X} (hw : Reachable cfg w) (h : Trace cfg w fs w') (hf : f ∈ fs)
    (hs : Succeeds f) (k : Nat) :
    Returned k f ↔ ∃ o ∈ f.after.objs, o.initId = k ∧ o.isInit = false ∧ 0 ≤ o.hitCounter := by
  obtain ⟨act, hact⟩ := hs
  have hfr := h.frame f hf
  have hreach : Reachable cfg f.before := hw.trans hfr.1
  have hup : update cfg f.before f.dets f.period f.ct = (f.after, .ok act) :=
    Prod.ext hfr.2.1.symm (hfr.2.2.1.symm.trans hact)
  have hret := (C09_update_returns_active hreach hup).1
  constructor
  · rintro ⟨act', e, o, ho, hk⟩
    rw [hact] at e; cases e
    obtain ⟨h1, h2, h3⟩ := (hret o).mp ho
    exact ⟨o, h1, hk, h2, h3⟩
  · rintro ⟨o, ho, hk, h1, h2⟩
    exact ⟨act, hact, o, (hret o).mpr ⟨ho, h1, h2⟩, hk⟩

/-- one call in which an object gets a detection: a hit, or the object takes over another one -/
theorem matched_call {cfg : Cfg K L D F X} {w w' : World K L D F X}
    (hI : Inv w) {dets : Option (List Ref)} {period : Int} {ct : Option (CoordTrans K)}
    {act : List (Obj K L D F)} (h : update cfg w dets period ct = (w', .ok act))
    {o : Obj K L D F} (ho : o ∈ survivors cfg w.objs)
    (hkept : (o.isInit = false ∨ cfg.reid = none) ∨ ∃ o' ∈ w'.objs, o'.initId = o.initId)
    (hfresh : o.lastDet ∉ dets.getD [])
    (hm : ∀ o' ∈ w'.objs, o'.initId = o.initId → o'.lastDet ∈ dets.getD []) :
    ∃ o' ∈ w'.objs, o'.initId = o.initId ∧
      ((0 ≤ o.hitCounter ∧ ∃ r, HitFields cfg period r o o') ∨
        (cfg.reid ≠ none ∧ (o.isInit = false ∨ o.hitCounter < 0) ∧ ∃ c, MergeFields c o o')) := by
  have hmem := (survivors_sublist cfg w.objs).subset ho
  have hk : ∃ o' ∈ w'.objs, o'.initId = o.initId := by
    rcases hkept with hkept | hkept
    · rcases update_obj_stays hI h ho with hs | ⟨h1, h2, _⟩
      · exact hs
      · rcases hkept with h3 | h3
        · rw [h3] at h2; cases h2
        · exact absurd h3 h1
    · exact hkept
  obtain ⟨o', ho', hk⟩ := hk
  refine ⟨o', ho', hk, ?_⟩
  rcases (update_obj_cases hI h hmem ho' hk.symm).2 with ⟨v, rfl⟩ | ⟨r, hr, hf, h0⟩ |
    ⟨hre, hc, r, hr, oc, _, oc', _, _, _, _, _, hmf⟩
  · exact absurd (hm _ ho' hk) (by simpa using hfresh)
  · exact Or.inl ⟨h0, r, hf⟩
  · exact Or.inr ⟨hre, hc.imp (fun x => x.2) (fun x => x.1), oc', hmf⟩

/-! ### C14 -/

/-- **C14** With period 1, `0 ≤ initialization_delay < hit_counter_max`: let `o` be an object created by
the call from `w` to `w1`, and let it get a detection in every one of the following calls (with ReID:
and not be merged away). After `n` such calls, that is when it has got `n + 1` detections, it is
initializing if and only if `n + 1 ≤ initialization_delay`, it is alive, and its hit counter is
`n + 1` while initializing (and, without ReID, `min (n + 1) hit_counter_max` always). -/
theorem C14_delay_state {cfg : Cfg K L D F X} (hd : 0 ≤ cfg.initDelay)
    (hdm : cfg.initDelay < cfg.hitCounterMax) {w w1 w' : World K L D F X}
    {fs : List (Frame K L D F X)} (hw : Reachable cfg w)
    {dets : Option (List Ref)} {ct : Option (CoordTrans K)} {act : List (Obj K L D F)}
    (h0 : update cfg w dets 1 ct = (w1, .ok act)) {o : Obj K L D F} (ho : o ∈ w1.objs)
    (hnew : ∀ p ∈ w.objs, p.initId ≠ o.initId) (h : Trace cfg w1 fs w')
    (hfs : ∀ f ∈ fs, Succeeds f ∧ f.period = 1 ∧ Matched o.initId f)
    (hkept : cfg.reid = none ∨ ∀ f ∈ fs, Kept o.initId f) :
    ∃ o' ∈ w'.objs, o'.initId = o.initId ∧
      (o'.isInit = true ↔ (fs.length + 1 : Int) ≤ cfg.initDelay) ∧ 1 ≤ o'.hitCounter ∧
      ((fs.length + 1 : Int) ≤ cfg.initDelay → o'.hitCounter = fs.length + 1) ∧
      (cfg.reid = none → o'.hitCounter = min (fs.length + 1 : Int) cfg.hitCounterMax) := by
  have hw1 : Reachable cfg w1 := by
    have := hw.update dets 1 ct
    rwa [h0] at this
  suffices hsuff : ∃ o' ∈ w'.objs, o'.initId = o.initId ∧
      (o'.isInit = true ↔ (fs.length + 1 : Int) ≤ cfg.initDelay) ∧ 1 ≤ o'.hitCounter ∧
      ((fs.length + 1 : Int) ≤ cfg.initDelay → o'.hitCounter = fs.length + 1) ∧
      (cfg.reid = none → o'.hitCounter = min (fs.length + 1 : Int) cfg.hitCounterMax) ∧
      o'.initialPeriod = 1 ∧ o'.reidHitCounter = none by
    obtain ⟨o', a1, a2, a3, a4, a5, a6, _⟩ := hsuff
    exact ⟨o', a1, a2, a3, a4, a5, a6⟩
  induction h with
  | nil =>
    obtain ⟨e1, e2, e3, e4, e5, e6, _⟩ := C11_new_objects hw h0 ho hnew
    refine ⟨o, ho, rfl, ?_, by omega, ?_, ?_, e4, e6⟩
    · rw [e5]; simp
    · simp [e1]
    · intro _; simp [e1]; omega
  | env heap g _ he ih => exact ih hfs hkept
  | @call fs w2 dets period ct ht ih =>
    obtain ⟨o1, ho1, hk1, hi1, hp1, hc1, hr1, hip1, hre1⟩ := ih
      (fun f hf => hfs f (List.mem_append_left _ hf))
      (hkept.imp id fun hk f hf => hk f (List.mem_append_left _ hf))
    obtain ⟨⟨act, hact⟩, hper, hm1, hm2⟩ := hfs _ (List.mem_append_right _ (List.mem_singleton.mpr rfl))
    simp only at hper hact hm1 hm2
    have hI2 := (hw1.trans ht.reaches).inv
    have hup : update cfg w2 dets period ct = ((update cfg w2 dets period ct).1, .ok act) :=
      Prod.ext rfl hact
    have hsurv : o1 ∈ survivors cfg w2.objs := by
      rw [mem_survivors]
      refine ⟨ho1, ?_⟩
      by_cases hmx : cfg.reidMax = none
      · exact Or.inl ⟨hmx, by omega⟩
      · exact Or.inr ⟨hmx, Or.inl hre1⟩
    obtain ⟨o', ho', hk', hcase⟩ := matched_call hI2 hup hsurv
      (by
        rcases hkept with hkept | hkept
        · exact Or.inl (Or.inr hkept)
        · obtain ⟨p, hp, e⟩ := hkept _ (List.mem_append_right _ (List.mem_singleton.mpr rfl))
          exact Or.inr ⟨p, hp, e.trans hk1.symm⟩)
      (hm1 o1 ho1 hk1) (fun p hp e => hm2 p hp (e.trans hk1))
    refine ⟨o', ho', hk'.trans hk1, ?_⟩
    subst hper
    simp only [List.length_append, List.length_singleton, Nat.cast_add, Nat.cast_one]
    rcases hcase with ⟨_, r, hf⟩ | ⟨hre, hi, c, hf⟩
    · rw [hf.hitCounter, hf.isInit, hf.initialPeriod, hf.reidHitCounter, hre1]
      have hh : ¬ o1.hitCounter ≤ 0 := by omega
      refine ⟨?_, ?_, ?_, ?_, hip1, by simp [hh]⟩
      · simp only [Bool.and_eq_true, decide_eq_true_eq, hi1]
        constructor
        · rintro ⟨a, b⟩
          have := hc1 a
          omega
        · intro a
          have := hc1 (by omega)
          omega
      · omega
      · intro a
        have := hc1 (by omega)
        omega
      · intro a
        have := hr1 a
        omega
    · have hni : o1.isInit = false := hi.resolve_right (by omega)
      rw [hf.hitCounter, hf.isInit, hf.initialPeriod, hf.reidHitCounter, hip1, hni]
      have hnd : ¬ (fs.length + 1 : Int) ≤ cfg.initDelay := by
        rw [← hi1, hni]; simp
      refine ⟨?_, by omega, fun a => absurd a (by omega), fun a => absurd a hre, rfl, rfl⟩
      simp only [Bool.false_eq_true, false_iff]
      omega

/-- **C14** Hence the call that gives the object its `(n + 2)`-nd detection returns it if and only if
`initialization_delay < n + 2`: it is first returned with its `(initialization_delay + 1)`-st detection,
and by every later call. -/
theorem C14_first_returned {cfg : Cfg K L D F X} (hd : 0 ≤ cfg.initDelay)
    (hdm : cfg.initDelay < cfg.hitCounterMax) {w w1 w' : World K L D F X}
    {fs : List (Frame K L D F X)} {f : Frame K L D F X} (hw : Reachable cfg w)
    {dets : Option (List Ref)} {ct : Option (CoordTrans K)} {act : List (Obj K L D F)}
    (h0 : update cfg w dets 1 ct = (w1, .ok act)) {o : Obj K L D F} (ho : o ∈ w1.objs)
    (hnew : ∀ p ∈ w.objs, p.initId ≠ o.initId) (h : Trace cfg w1 (fs ++ [f]) w')
    (hfs : ∀ f' ∈ fs ++ [f], Succeeds f' ∧ f'.period = 1 ∧ Matched o.initId f')
    (hkept : cfg.reid = none ∨ ∀ f' ∈ fs ++ [f], Kept o.initId f') :
    Returned o.initId f ↔ cfg.initDelay < fs.length + 2 := by
  have hw1 : Reachable cfg w1 := by
    have := hw.update dets 1 ct
    rwa [h0] at this
  have hmem : f ∈ fs ++ [f] := List.mem_append_right _ (List.mem_singleton.mpr rfl)
  obtain ⟨o', ho', hk, hi, hc, _⟩ := C14_delay_state hd hdm hw h0 ho hnew (trace_cut h) hfs hkept
  simp only [List.length_append, List.length_singleton, Nat.cast_add, Nat.cast_one] at hi
  have hfr := h.frame f hmem
  have hra : Reachable cfg f.after := by
    have := (hw1.trans hfr.1).update f.dets f.period f.ct
    rwa [← hfr.2.1] at this
  rw [returned_iff hw1 h hmem (hfs f hmem).1]
  constructor
  · rintro ⟨p, hp, hpk, hpi, _⟩
    have : p = o' := find_eq_of_mem hra.inv hp ho' (hpk.trans hk.symm)
    subst this
    by_contra hlt
    rw [hi.mpr (by omega)] at hpi
    cases hpi
  · intro hlt
    refine ⟨o', ho', hk, ?_, by omega⟩
    rw [← Bool.not_eq_true]
    intro hx
    have := hi.mp hx
    omega

/-- **C14** The call that creates the object returns it if and only if the delay is below the period. -/
theorem C14_creating_call {cfg : Cfg K L D F X} {w w1 : World K L D F X} (hw : Reachable cfg w)
    {dets : Option (List Ref)} {period : Int} {ct : Option (CoordTrans K)} {act : List (Obj K L D F)}
    (h0 : update cfg w dets period ct = (w1, .ok act)) {o : Obj K L D F} (ho : o ∈ w1.objs)
    (hnew : ∀ p ∈ w.objs, p.initId ≠ o.initId) (hp : 0 ≤ period) :
    o ∈ act ↔ cfg.initDelay < period := by
  obtain ⟨e1, _, _, _, e5, _⟩ := C11_new_objects hw h0 ho hnew
  rw [(C09_update_returns_active hw h0).1 o]
  constructor
  · rintro ⟨_, hi, _⟩
    rw [e5] at hi
    simpa using hi
  · intro hlt
    exact ⟨ho, by rw [e5]; simpa using hlt, by omega⟩

/-- **C14** An initializing object that is never matched again is never returned. -/
theorem C14_unmatched_never_returned {cfg : Cfg K L D F X} {w w' : World K L D F X}
    {fs : List (Frame K L D F X)} (hw : Reachable cfg w) (h : Trace cfg w fs w')
    {o : Obj K L D F} (ho : o ∈ w.objs) (hinit : o.isInit = true)
    (hfs : ∀ f ∈ fs, Succeeds f ∧ Missed o.initId f) :
    (∀ o' ∈ w'.objs, o'.initId = o.initId → o'.isInit = true) ∧
    ∀ f ∈ fs, ¬ Returned o.initId f := by
  induction h with
  | nil =>
    refine ⟨fun o' ho' hk => ?_, by simp⟩
    rw [find_eq_of_mem hw.inv ho' ho hk]; exact hinit
  | env heap g _ he ih => exact ih hfs
  | @call fs w1 dets period ct ht ih =>
    obtain ⟨ih1, ih2⟩ := ih (fun f hf => hfs f (List.mem_append_left _ hf))
    obtain ⟨⟨act, hact⟩, hmiss⟩ := hfs _ (List.mem_append_right _ (List.mem_singleton.mpr rfl))
    have hr1 := hw.trans ht.reaches
    have hup : update cfg w1 dets period ct = ((update cfg w1 dets period ct).1, .ok act) :=
      Prod.ext rfl hact
    have hcur : ∀ o' ∈ (update cfg w1 dets period ct).1.objs, o'.initId = o.initId → o'.isInit = true := by
      intro o' ho' hk
      rcases (update_inv (cfg := cfg) hr1.inv dets period ct).2.origin o' ho' with hlt | ⟨p, hp, e, _⟩
      · have h1 := (hw.inv.bounded o ho).2
        have h2 := (ht.reaches.inv hw.inv).2.initCount
        omega
      · have hpi := ih1 p hp (e.trans hk)
        rcases (update_obj_cases hr1.inv hup hp ho' e).2 with ⟨v, rfl⟩ | ⟨r, hr, hf, _⟩ |
          ⟨_, _, r, hr, oc, _, oc', _, _, _, _, hf, hm⟩
        · simpa using hpi
        · exact absurd (by rw [hf.lastDet]; exact hr) (hmiss o' ho' hk)
        · exact absurd (by rw [hm.lastDet, hf.lastDet]; exact hr) (hmiss o' ho' hk)
    refine ⟨hcur, fun f hf => ?_⟩
    rcases List.mem_append.mp hf with hf | hf
    · exact ih2 f hf
    · rw [List.mem_singleton.mp hf]
      rintro ⟨act', e, p, hp, hk⟩
      have e' : act = act' := Except.ok.inj (hact.symm.trans e)
      subst e'
      obtain ⟨h1, h2, _⟩ := ((C09_update_returns_active hr1 hup).1 p).mp hp
      rw [hcur p h1 hk] at h2
      cases h2

/-! ### C22 -/

/-- **C22** without `reid_hit_counter_max`: an object that is alive and gets a detection in every call is
never dropped, keeps a non-negative hit counter, and stays initialized (with the same id) once it is. -/
theorem C22_matched_kept {cfg : Cfg K L D F X} (hmax : cfg.reidMax = none) (hcm : 0 ≤ cfg.hitCounterMax)
    {w w' : World K L D F X} {fs : List (Frame K L D F X)} (hw : Reachable cfg w)
    (h : Trace cfg w fs w') {o : Obj K L D F} (ho : o ∈ w.objs) (hh : 0 ≤ o.hitCounter)
    (hip : 0 ≤ o.initialPeriod) (hinit : o.isInit = false ∨ cfg.reid = none)
    (hfs : ∀ f ∈ fs, Succeeds f ∧ 1 ≤ f.period ∧ Matched o.initId f) :
    ∃ o' ∈ w'.objs, o'.initId = o.initId ∧ 0 ≤ o'.hitCounter ∧ 0 ≤ o'.initialPeriod ∧
      (o.isInit = false → o'.isInit = false ∧ o'.id = o.id) := by
  induction h with
  | nil => exact ⟨o, ho, rfl, hh, hip, fun hi => ⟨hi, rfl⟩⟩
  | env heap g _ he ih => exact ih hfs
  | @call fs w1 dets period ct ht ih =>
    obtain ⟨o1, ho1, hk1, hh1, hip1, hi1⟩ := ih (fun f hf => hfs f (List.mem_append_left _ hf))
    obtain ⟨⟨act, hact⟩, hper, hm1, hm2⟩ := hfs _ (List.mem_append_right _ (List.mem_singleton.mpr rfl))
    simp only at hper hact hm1 hm2
    have hup : update cfg w1 dets period ct = ((update cfg w1 dets period ct).1, .ok act) :=
      Prod.ext rfl hact
    obtain ⟨o', ho', hk', hcase⟩ := matched_call (hw.trans ht.reaches).inv hup
      (mem_survivors.mpr ⟨ho1, Or.inl ⟨hmax, hh1⟩⟩)
      (Or.inl (hinit.imp (fun x => (hi1 x).1) id)) (hm1 o1 ho1 hk1) (fun p hp e => hm2 p hp (e.trans hk1))
    refine ⟨o', ho', hk'.trans hk1, ?_⟩
    rcases hcase with ⟨_, r, hf⟩ | ⟨hre, hi, c, hf⟩
    · refine ⟨by rw [hf.hitCounter]; omega, by rw [hf.initialPeriod]; exact hip1, fun hx => ?_⟩
      obtain ⟨a, b⟩ := hi1 hx
      have hfi : o'.isInit = false := by rw [hf.isInit, a]; rfl
      exact ⟨hfi, ((hf.id (by rw [hfi, a])).1).trans b⟩
    · refine ⟨by rw [hf.hitCounter]; omega, by rw [hf.initialPeriod]; exact hip1, fun hx => ?_⟩
      obtain ⟨a, b⟩ := hi1 hx
      exact ⟨hf.isInit.trans a, hf.id.trans b⟩

/-- **C22** and hence, once initialized, it is returned by every call. -/
theorem C22_matched_returned {cfg : Cfg K L D F X} (hmax : cfg.reidMax = none)
    (hcm : 0 ≤ cfg.hitCounterMax)
    {w w' : World K L D F X} {fs : List (Frame K L D F X)} {f : Frame K L D F X} (hw : Reachable cfg w)
    (h : Trace cfg w (fs ++ [f]) w') {o : Obj K L D F} (ho : o ∈ w.objs) (hh : 0 ≤ o.hitCounter)
    (hip : 0 ≤ o.initialPeriod) (hinit : o.isInit = false)
    (hfs : ∀ f' ∈ fs ++ [f], Succeeds f' ∧ 1 ≤ f'.period ∧ Matched o.initId f') :
    Returned o.initId f := by
  have hmem : f ∈ fs ++ [f] := List.mem_append_right _ (List.mem_singleton.mpr rfl)
  obtain ⟨o', ho', hk, hc, _, hi⟩ := C22_matched_kept hmax hcm hw (trace_cut h) ho hh hip (Or.inl hinit) hfs
  exact (returned_iff hw h hmem (hfs f hmem).1 _).mpr ⟨o', ho', hk, (hi hinit).1, hc⟩

/-- **C22**, part with `reid_hit_counter_max`: true from a state in which the hit counter is at least 1
and no ReID countdown is running. Missing: hit counter 0, for which the claim is false
(`C22_reid_destroyed`). -/
theorem C22_matched_kept_reid_partial {cfg : Cfg K L D F X} (hcm : 1 ≤ cfg.hitCounterMax)
    {w w' : World K L D F X} {fs : List (Frame K L D F X)} (hw : Reachable cfg w)
    (h : Trace cfg w fs w') {o : Obj K L D F} (ho : o ∈ w.objs) (hh : 1 ≤ o.hitCounter)
    (hre : o.reidHitCounter = none)
    (hip : 1 ≤ o.initialPeriod) (hinit : o.isInit = false ∨ cfg.reid = none)
    (hfs : ∀ f ∈ fs, Succeeds f ∧ 1 ≤ f.period ∧ Matched o.initId f) :
    ∃ o' ∈ w'.objs, o'.initId = o.initId ∧ 1 ≤ o'.hitCounter ∧ 1 ≤ o'.initialPeriod ∧
      o'.reidHitCounter = none ∧ (o.isInit = false → o'.isInit = false ∧ o'.id = o.id) := by
  induction h with
  | nil => exact ⟨o, ho, rfl, hh, hip, hre, fun hi => ⟨hi, rfl⟩⟩
  | env heap g _ he ih => exact ih hfs
  | @call fs w1 dets period ct ht ih =>
    obtain ⟨o1, ho1, hk1, hh1, hip1, hre1, hi1⟩ := ih (fun f hf => hfs f (List.mem_append_left _ hf))
    obtain ⟨⟨act, hact⟩, hper, hm1, hm2⟩ := hfs _ (List.mem_append_right _ (List.mem_singleton.mpr rfl))
    simp only at hper hact hm1 hm2
    have hup : update cfg w1 dets period ct = ((update cfg w1 dets period ct).1, .ok act) :=
      Prod.ext rfl hact
    have hsurv : o1 ∈ survivors cfg w1.objs := by
      rw [mem_survivors]
      refine ⟨ho1, ?_⟩
      by_cases hmx : cfg.reidMax = none
      · exact Or.inl ⟨hmx, by omega⟩
      · exact Or.inr ⟨hmx, Or.inl hre1⟩
    obtain ⟨o', ho', hk', hcase⟩ := matched_call (hw.trans ht.reaches).inv hup hsurv
      (Or.inl (hinit.imp (fun x => (hi1 x).1) id)) (hm1 o1 ho1 hk1) (fun p hp e => hm2 p hp (e.trans hk1))
    refine ⟨o', ho', hk'.trans hk1, ?_⟩
    rcases hcase with ⟨_, r, hf⟩ | ⟨hre, hi, c, hf⟩
    · have hn : ¬ o1.hitCounter ≤ 0 := by omega
      refine ⟨by rw [hf.hitCounter]; omega, by rw [hf.initialPeriod]; exact hip1,
        by rw [hf.reidHitCounter, hre1]; simp [hn], fun hx => ?_⟩
      obtain ⟨a, b⟩ := hi1 hx
      have hfi : o'.isInit = false := by rw [hf.isInit, a]; rfl
      exact ⟨hfi, ((hf.id (by rw [hfi, a])).1).trans b⟩
    · refine ⟨by rw [hf.hitCounter]; omega, by rw [hf.initialPeriod]; exact hip1, hf.reidHitCounter,
        fun hx => ?_⟩
      obtain ⟨a, b⟩ := hi1 hx
      exact ⟨hf.isInit.trans a, hf.id.trans b⟩

/-! ### C15 -/

/-- **C15** One call: every object gets one older, whatever happens to it and even if the call raises in
the middle; an object that was not there before has age 0. A rejected call changes nothing. -/
theorem C15_age_step {cfg : Cfg K L D F X} {w w' : World K L D F X} (hw : Reachable cfg w)
    {fs : List (Frame K L D F X)} (h : Trace cfg w fs w') {f : Frame K L D F X} (hf : f ∈ fs) :
    (Rejected f → f.after = f.before) ∧
    (¬ Rejected f → ∀ o' ∈ f.after.objs,
      (∀ o ∈ f.before.objs, o.initId = o'.initId → o'.age = o.age + 1) ∧
      ((∀ o ∈ f.before.objs, o.initId ≠ o'.initId) → o'.age = 0)) := by
  have hfr := h.frame f hf
  have hI := (hw.trans hfr.1).inv
  constructor
  · rintro ⟨h1, h2⟩
    rw [hfr.2.1, h2]
    obtain ⟨c, hc⟩ := Option.ne_none_iff_exists'.mp h1
    rw [hc]; rfl
  · intro hnr o' ho'
    rw [hfr.2.1] at ho'
    rcases update_age hI f.dets f.period f.ct hnr o' ho' with ⟨o, ho, e1, e2⟩ | ⟨h1, h2⟩
    · exact ⟨fun p hp e => by rw [find_eq_of_mem hI hp ho (e.trans e1.symm)]; exact e2,
        fun hx => absurd e1 (hx o ho)⟩
    · refine ⟨fun p hp e => ?_, fun _ => h2⟩
      have := (hI.bounded p hp).2
      omega

/-- **C15** Over a whole history: the age of an object grows by the number of calls (not counting rejected
ones), and the age of an object created in between is the number of calls since the one that
created it. -/
theorem C15_age_counts_frames {cfg : Cfg K L D F X} {w w' : World K L D F X} (hw : Reachable cfg w)
    {fs : List (Frame K L D F X)} (h : Trace cfg w fs w') {o' : Obj K L D F} (ho' : o' ∈ w'.objs) :
    (∃ o ∈ w.objs, o.initId = o'.initId ∧
      o'.age = o.age + (fs.filter (fun f => !decide (Rejected f))).length) ∨
    (∃ fs1 f fs2, fs = fs1 ++ f :: fs2 ∧ (∀ o ∈ f.before.objs, o.initId ≠ o'.initId) ∧
      (∃ o ∈ f.after.objs, o.initId = o'.initId) ∧
      o'.age = (fs2.filter (fun f => !decide (Rejected f))).length) := by
  induction h generalizing o' with
  | nil => exact Or.inl ⟨o', ho', rfl, by simp⟩
  | env heap g _ he ih => exact ih ho'
  | @call fs w1 dets period ct ht ih =>
    have hI := (hw.trans ht.reaches).inv
    set f : Frame K L D F X := ⟨dets, period, ct, w1, (update cfg w1 dets period ct).1,
      (update cfg w1 dets period ct).2⟩ with hf
    have hstep := C15_age_step hw (Trace.call dets period ct ht) (f := f)
      (List.mem_append_right _ (List.mem_singleton.mpr rfl))
    by_cases hrej : Rejected f
    · have hsame : (update cfg w1 dets period ct).1 = w1 := hstep.1 hrej
      rw [hsame] at ho'
      rcases ih ho' with ⟨o, ho, e1, e2⟩ | ⟨fs1, g, fs2, e1, e2, e3, e4⟩
      · exact Or.inl ⟨o, ho, e1, by simp [hrej, e2]⟩
      · exact Or.inr ⟨fs1, g, fs2 ++ [f], by simp [e1], e2, e3, by simp [hrej, e4]⟩
    · obtain ⟨s1, s2⟩ := hstep.2 hrej o' ho'
      by_cases hex : ∃ p ∈ w1.objs, p.initId = o'.initId
      · obtain ⟨p, hp, e⟩ := hex
        have ha := s1 p hp e
        rcases ih hp with ⟨o, ho, e1, e2⟩ | ⟨fs1, g, fs2, e1, e2, e3, e4⟩
        · refine Or.inl ⟨o, ho, e1.trans e, ?_⟩
          rw [ha, e2]
          simp [hrej]; omega
        · refine Or.inr ⟨fs1, g, fs2 ++ [f], by simp [e1], ?_, ?_, ?_⟩
          · rw [← e]; exact e2
          · rw [← e]; exact e3
          · rw [ha, e4]; simp [hrej]
      · refine Or.inr ⟨fs, f, [], by simp, fun p hp e => hex ⟨p, hp, e⟩, ⟨o', ho', rfl⟩, ?_⟩
        rw [s2 (fun p hp e => hex ⟨p, hp, e⟩)]; simp

end

/-! ### Examples -/

open Toy

/-- `initialization_delay = 2`, so that an object is returned with its third detection -/
def slowCfg : TCfg := { cfg with initDelay := 2 }

theorem toy_succeeds {f : Frame Int Nat (WithTop Nat) (NoFilter Int) Unit}
    (h : (returned (f.after, f.out)).isSome = true) : Succeeds f := by
  obtain ⟨act, ha⟩ := exists_ok h
  exact ⟨act, congrArg Prod.snd ha⟩

/-- C14: created by the first call, then matched by detections 1, 2, 3; returned from the third
detection on -/
example : 0 ≤ slowCfg.initDelay ∧ slowCfg.initDelay < slowCfg.hitCounterMax ∧ Reachable slowCfg w0 ∧
    (∃ act, update slowCfg w0 (some [0]) 1 none = (run slowCfg w0 [[0]], .ok act)) ∧
    Trace slowCfg (run slowCfg w0 [[0]]) (frames slowCfg (run slowCfg w0 [[0]]) [[1], [2], [3]])
      (run slowCfg (run slowCfg w0 [[0]]) [[1], [2], [3]]) ∧
    (∀ f ∈ frames slowCfg (run slowCfg w0 [[0]]) [[1], [2], [3]],
      Succeeds f ∧ f.period = 1 ∧ Matched 1 f) ∧
    (frames slowCfg (run slowCfg w0 [[0]]) [[1], [2], [3]]).map (fun f => returned (f.after, f.out)) =
      [some [], some [(1, some 1, 3)], some [(1, some 1, 4)]] := by
  refine ⟨by decide, by decide, run_reachable _ [], exists_ok (by decide +kernel), run_trace _ _ _, ?_,
    by decide +kernel⟩
  simp only [frames, List.mem_cons, List.not_mem_nil, or_false]
  rintro f (rfl | rfl | rfl)
  all_goals
    refine ⟨toy_succeeds (by decide +kernel), rfl, ?_⟩
    unfold Matched given
    decide +kernel

/-- C14: created, then never matched -/
example : (run slowCfg w0 [[0]]).objs.map (fun o => (o.initId, o.isInit)) = [(1, true)] ∧
    Trace slowCfg (run slowCfg w0 [[0]]) (frames slowCfg (run slowCfg w0 [[0]]) [[50], [51], [52]])
      (run slowCfg (run slowCfg w0 [[0]]) [[50], [51], [52]]) ∧
    (∀ f ∈ frames slowCfg (run slowCfg w0 [[0]]) [[50], [51], [52]], Succeeds f ∧ Missed 1 f) := by
  refine ⟨by decide +kernel, run_trace _ _ _, ?_⟩
  simp only [frames, List.mem_cons, List.not_mem_nil, or_false]
  rintro f (rfl | rfl | rfl)
  all_goals
    refine ⟨toy_succeeds (by decide +kernel), ?_⟩
    unfold Missed given
    decide +kernel

/-- C22: an initialized object with hit counter 0, matched in the next three calls -/
example : (run cfg w0 [[0], [1], [], []]).objs.map
      (fun o => (o.initId, o.isInit, o.hitCounter, o.initialPeriod)) = [(1, false, 0, 1)] ∧
    cfg.reidMax = none ∧ 0 ≤ cfg.hitCounterMax ∧
    (∀ f ∈ frames cfg (run cfg w0 [[0], [1], [], []]) [[2], [3], [4]],
      Succeeds f ∧ 1 ≤ f.period ∧ Matched 1 f) ∧
    (run cfg w0 [[0], [1], [], [], [2], [3], [4]]).objs.map
      (fun o => (o.initId, o.isInit, o.hitCounter)) = [(1, false, 3)] := by
  refine ⟨by decide +kernel, rfl, by decide, ?_, by decide +kernel⟩
  simp only [frames, List.mem_cons, List.not_mem_nil, or_false]
  rintro f (rfl | rfl | rfl)
  all_goals
    refine ⟨toy_succeeds (by decide +kernel), by decide, ?_⟩
    unfold Matched given
    decide +kernel

/-- C22 with ReID: hit counter 1, no countdown -/
example : (run rcfg w0 [[0], [1], []]).objs.map
      (fun o => (o.initId, o.isInit, o.hitCounter, o.initialPeriod, o.reidHitCounter)) =
      [(1, false, 1, 1, none)] ∧ 1 ≤ rcfg.hitCounterMax ∧ rcfg.reidMax = some 5 ∧
    (∀ f ∈ frames rcfg (run rcfg w0 [[0], [1], []]) [[2], [3], [4]],
      Succeeds f ∧ 1 ≤ f.period ∧ Matched 1 f) := by
  refine ⟨by decide +kernel, by decide, rfl, ?_⟩
  simp only [frames, List.mem_cons, List.not_mem_nil, or_false]
  rintro f (rfl | rfl | rfl)
  all_goals
    refine ⟨toy_succeeds (by decide +kernel), by decide, ?_⟩
    unfold Matched given
    decide +kernel

/-- **C22** is false with `reid_hit_counter_max`: object 1 of this tracker (`reid_hit_counter_max = 5`) is
alive with hit counter 0, then gets a detection in every one of seven calls, is returned by all of
them with its hit counter going up to 4 - and is thrown away by the eighth, which has a detection at
distance 1 from it. The ReID countdown that started when the counter was 0 is never reset by `hit`. -/
theorem C22_reid_destroyed :
    Reachable rcfg (run rcfg w0 [[0], [1], [], []]) ∧
    (run rcfg w0 [[0], [1], [], []]).objs.map (fun o => (o.initId, o.isInit, o.hitCounter)) =
      [(1, false, 0)] ∧
    (∀ f ∈ frames rcfg (run rcfg w0 [[0], [1], [], []]) [[2], [3], [4], [5], [6], [7], [8]],
      Succeeds f ∧ Matched 1 f ∧ Kept 1 f ∧ Returned 1 f) ∧
    (run rcfg w0 [[0], [1], [], [], [2], [3], [4], [5], [6], [7], [8]]).objs.map
      (fun o => (o.initId, o.hitCounter, o.filter.x.take 1)) = [(1, 4, [8])] ∧
    (run rcfg w0 [[0], [1], [], [], [2], [3], [4], [5], [6], [7], [8], [9]]).objs.map (·.initId) = [2] := by
  refine ⟨run_reachable _ _, by decide +kernel, ?_, by decide +kernel, by decide +kernel⟩
  have hret : ∀ f : Frame Int Nat (WithTop Nat) (NoFilter Int) Unit,
      (match f.out with
        | .ok act => act.any (fun o => o.initId = 1)
        | .error _ => false) = true → Returned 1 f := by
    intro f hf
    split at hf
    · rename_i act ha
      obtain ⟨o, ho, hk⟩ := List.any_eq_true.mp hf
      exact ⟨act, ha, o, ho, by simpa using hk⟩
    · cases hf
  simp only [frames, List.mem_cons, List.not_mem_nil, or_false]
  rintro f (rfl | rfl | rfl | rfl | rfl | rfl | rfl)
  all_goals
    refine ⟨toy_succeeds (by decide +kernel), ?_, ?_, hret _ (by decide +kernel)⟩
    · unfold Matched given
      decide +kernel
    · unfold Kept
      decide +kernel

/-- C15: a run with an update that raises in between (NaN distance); ages of the two objects -/
example : (run nanCfg w0 [[0], [1], [7, 1], [2, 50], []]).objs.map (fun o => (o.initId, o.age)) =
    [(1, 4), (2, 1)] ∧
    (frames nanCfg w0 [[0], [1], [7, 1], [2, 50], []]).map (fun f => errOf (f.after, f.out)) =
      [none, none, some .nan, none, none] ∧
    Trace nanCfg w0 (frames nanCfg w0 [[0], [1], [7, 1], [2, 50], []])
      (run nanCfg w0 [[0], [1], [7, 1], [2, 50], []]) :=
  ⟨by decide +kernel, by decide +kernel, run_trace _ _ _⟩

end Norfair.Props
