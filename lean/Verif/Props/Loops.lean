import Verif.Model.Loops
import Verif.Props.TrackerLife
import Verif.Props.TrackerSys
import Verif.Props.Told

/-!
Property theorems C113 and C114: loops that run the detector in some of the frames only.
-/

set_option linter.unusedSectionVars false

namespace Norfair.Props

open Norfair Norfair.Spec

variable {K L D F X : Type}

/-- the number of frames from frame `i` on until the detector runs -/
def untilDetector (skip i : Nat) : Nat := if i % skip = 0 then 0 else skip - i % skip

/-- The calls `fs`, of the frames `i`, `i + 1` and so on: the detector runs in every `skip`-th frame, and then
`period=skip` and object `k` gets a detection; in the other frames there are no detections. -/
def Skipping (skip k i : Nat) (fs : List (Frame K L D F X)) : Prop :=
  ∀ j f, fs[j]? = some f → Succeeds f ∧ ((i + j) % skip = 0 → f.period = skip ∧ Matched k f) ∧
    ((i + j) % skip ≠ 0 → given f = [])

theorem Skipping.init {skip k i : Nat} {fs : List (Frame K L D F X)} {f : Frame K L D F X}
    (h : Skipping skip k i (fs ++ [f])) : Skipping skip k i fs := fun j g hg =>
  h j g (by rw [List.getElem?_append_left (List.getElem?_eq_some_iff.mp hg).1]; exact hg)

theorem Skipping.last {skip k i : Nat} {fs : List (Frame K L D F X)} {f : Frame K L D F X}
    (h : Skipping skip k i (fs ++ [f])) : Succeeds f ∧ ((i + fs.length) % skip = 0 → f.period = skip ∧ Matched k f) ∧
    ((i + fs.length) % skip ≠ 0 → given f = []) :=
  h fs.length f (by simp)

theorem mod_succ_cases {skip : Nat} (h : 1 ≤ skip) (i : Nat) :
    (i % skip + 1 < skip ∧ (i + 1) % skip = i % skip + 1) ∨ (i % skip + 1 = skip ∧ (i + 1) % skip = 0) := by
  have hlt := Nat.mod_lt i (show skip > 0 by omega)
  rcases Nat.lt_or_ge (i % skip + 1) skip with h1 | h1
  · left
    refine ⟨h1, ?_⟩
    rw [Nat.add_mod, Nat.mod_eq_of_lt (show 1 < skip by omega), Nat.mod_eq_of_lt h1]
  · right
    refine ⟨by omega, ?_⟩
    rcases Nat.lt_or_ge 1 skip with h2 | h2
    · rw [Nat.add_mod, Nat.mod_eq_of_lt h2, show i % skip + 1 = skip by omega, Nat.mod_self]
    · rw [show skip = 1 by omega, Nat.mod_one]

section
variable [LinearOrder K] [Zero K] [LinearOrder D] [OrderTop D] [Zero D] [DecidableEq L]

/-- the first calls of a trace -/
theorem trace_take {cfg : Cfg K L D F X} {w w' : World K L D F X} {fs : List (Frame K L D F X)} (h : Trace cfg w fs w')
    {j : Nat} (hj : j < fs.length) : Trace cfg w (fs.take j ++ [fs[j]]) fs[j].after := by
  induction h with
  | nil => simp at hj
  | env heap g _ he ih => exact ih hj
  | @call fs w1 dets period ct ht ih =>
    rcases Nat.lt_or_ge j fs.length with h1 | h1
    · rw [List.getElem_append_left h1, List.take_append_of_le_length (by omega)]
      exact ih h1
    · have : j = fs.length := by simp at hj; omega
      subst this
      simp only [List.take_left', List.getElem_concat_length]
      exact .call dets period ct ht

/-- one call of such a loop, seen from an object that can wait until the detector runs -/
theorem skipping_step {cfg : Cfg K L D F X} (hmax : cfg.reidMax = none) (hre : cfg.reid = none) {skip : Nat}
    {w1 : World K L D F X} (hw : Reachable cfg w1) {dets : Option (List Ref)} {period : Int}
    {ct : Option (CoordTrans K)} {act : List (Obj K L D F)}
    (hup : update cfg w1 dets period ct = ((update cfg w1 dets period ct).1, .ok act)) {o : Obj K L D F}
    (ho : o ∈ w1.objs) (hh : 0 ≤ o.hitCounter) {run : Prop}
    (hrun : run → period = skip ∧ Matched o.initId
      (⟨dets, period, ct, w1, (update cfg w1 dets period ct).1, .ok act⟩ : Frame K L D F X))
    (hidle : ¬ run → dets.getD [] = []) :
    ∃ o' ∈ (update cfg w1 dets period ct).1.objs, o'.initId = o.initId ∧
      (run → o'.hitCounter = min (o.hitCounter - 1 + 2 * skip) cfg.hitCounterMax ∧
        o'.isInit = (o.isInit && decide (o'.hitCounter ≤ cfg.initDelay)) ∧ (o'.isInit = o.isInit → o'.id = o.id)) ∧
      (¬ run → o'.hitCounter = o.hitCounter - 1 ∧ o'.isInit = o.isInit ∧ o'.id = o.id) := by
  have hsurv : o ∈ survivors cfg w1.objs := mem_survivors.mpr ⟨ho, Or.inl ⟨hmax, hh⟩⟩
  by_cases hr : run
  · obtain ⟨hp, hm1, hm2⟩ := hrun hr
    obtain ⟨o', ho', hk, hcase⟩ := matched_call hw.inv hup hsurv (Or.inl (Or.inr hre)) (hm1 o ho rfl) hm2
    rcases hcase with ⟨_, r, hf⟩ | ⟨h, _⟩
    · refine ⟨o', ho', hk, fun _ => ⟨by rw [hf.hitCounter, hp], ?_, fun e => (hf.id e).1⟩, fun h => absurd hr h⟩
      rw [hf.hitCounter]
      exact hf.isInit
    · exact absurd hre h
  · obtain ⟨h1, _⟩ := missed_call hw.inv hup ho (Or.inr hre) (fun _ _ _ => by rw [hidle hr]; simp)
    obtain ⟨v, hv⟩ := h1 hsurv
    exact ⟨_, hv, by simp, fun h => absurd h hr, fun _ => ⟨by simp, by simp, by simp⟩⟩

/-- **C113** (partial: `hit_counter_max ≥ skip_period - 1`; otherwise the claim is false, see `C113_lost`) Without ReID,
an object that gets a detection in every frame in which the detector runs is never dropped, also not in the frames
between them; once it is initialized it stays so and keeps its id. -/
theorem C113_kept_partial {cfg : Cfg K L D F X} (hmax : cfg.reidMax = none) (hre : cfg.reid = none) {skip : Nat}
    (hs : 1 ≤ skip) (hcm : (skip : Int) - 1 ≤ cfg.hitCounterMax) {w w' : World K L D F X}
    {fs : List (Frame K L D F X)} (hw : Reachable cfg w) (h : Trace cfg w fs w') {o : Obj K L D F} (ho : o ∈ w.objs)
    {i : Nat} (hh : (untilDetector skip i : Int) ≤ o.hitCounter) (hfs : Skipping skip o.initId i fs) :
    ∃ o' ∈ w'.objs, o'.initId = o.initId ∧ (untilDetector skip (i + fs.length) : Int) ≤ o'.hitCounter ∧
      (o.isInit = false → o'.isInit = false ∧ o'.id = o.id) := by
  induction h with
  | nil => exact ⟨o, ho, rfl, by simpa using hh, fun hi => ⟨hi, rfl⟩⟩
  | env heap g _ he ih => exact ih hfs
  | @call fs w1 dets period ct ht ih =>
    obtain ⟨o1, ho1, hk1, hh1, hi1⟩ := ih hfs.init
    obtain ⟨⟨act, hact⟩, hrun, hidle⟩ := hfs.last
    simp only at hact
    have hup : update cfg w1 dets period ct = ((update cfg w1 dets period ct).1, .ok act) := Prod.ext rfl hact
    obtain ⟨o', ho', hk', hr, hn⟩ := skipping_step hmax hre (hw.trans ht.reaches) hup ho1 (by omega)
      (run := (i + fs.length) % skip = 0) (skip := skip) (fun hz => by
        obtain ⟨a, b⟩ := hrun hz
        refine ⟨a, ?_⟩
        rw [hk1]
        exact b) hidle
    refine ⟨o', ho', hk'.trans hk1, ?_⟩
    simp only [List.length_append, List.length_singleton, ← Nat.add_assoc]
    by_cases hz : (i + fs.length) % skip = 0
    · obtain ⟨e1, e2, e3⟩ := hr hz
      constructor
      · rw [e1]
        unfold untilDetector at hh1 ⊢
        rw [if_pos hz] at hh1
        rcases mod_succ_cases hs (i + fs.length) with ⟨_, e⟩ | ⟨_, e⟩
        · rw [if_neg (by omega), e, hz]
          push_cast [Nat.cast_sub (show 0 + 1 ≤ skip by omega)]
          simp only [Nat.cast_zero] at hh1
          rw [le_min_iff]
          constructor <;> omega
        · rw [if_pos e, le_min_iff]
          simp only [Nat.cast_zero] at hh1 ⊢
          constructor <;> omega
      · intro hx
        obtain ⟨a, b⟩ := hi1 hx
        have hfi : o'.isInit = false := by rw [e2, a]; rfl
        exact ⟨hfi, (e3 (by rw [hfi, a])).trans b⟩
    · obtain ⟨e1, e2, e3⟩ := hn hz
      constructor
      · rw [e1]
        unfold untilDetector at hh1 ⊢
        rw [if_neg hz] at hh1
        rcases mod_succ_cases hs (i + fs.length) with ⟨_, e⟩ | ⟨_, e⟩
        · rw [if_neg (by omega), e]
          omega
        · rw [if_pos e]
          omega
      · intro hx
        obtain ⟨a, b⟩ := hi1 hx
        exact ⟨e2.trans a, e3.trans b⟩

/-- **C113** (partial as above) So once it is initialized it is returned for every frame. -/
theorem C113_returned_partial {cfg : Cfg K L D F X} (hmax : cfg.reidMax = none) (hre : cfg.reid = none) {skip : Nat}
    (hs : 1 ≤ skip) (hcm : (skip : Int) - 1 ≤ cfg.hitCounterMax) {w w' : World K L D F X}
    {fs : List (Frame K L D F X)} {f : Frame K L D F X} (hw : Reachable cfg w) (h : Trace cfg w (fs ++ [f]) w')
    {o : Obj K L D F} (ho : o ∈ w.objs) (hinit : o.isInit = false) {i : Nat}
    (hh : (untilDetector skip i : Int) ≤ o.hitCounter) (hfs : Skipping skip o.initId i (fs ++ [f])) :
    Returned o.initId f := by
  have hmem : f ∈ fs ++ [f] := List.mem_append_right _ (List.mem_singleton.mpr rfl)
  obtain ⟨o', ho', hk, hc, hi⟩ := C113_kept_partial hmax hre hs hcm hw (trace_cut h) ho hh hfs
  exact (returned_iff hw h hmem hfs.last.1 _).mpr ⟨o', ho', hk, (hi hinit).1, by omega⟩

/-- **C113** (partial: `hit_counter_max ≥ skip_period`) An object that was created in a frame with detector: after `m`
more frames it has `m / skip + 1` detections; its hit counter is `skip_period` for each of them, at most
`hit_counter_max`, less the frames since the last one; it is initialized as soon as that many frames exceed the
initialization delay. -/
theorem C113_initialized_partial {cfg : Cfg K L D F X} (hmax : cfg.reidMax = none) (hre : cfg.reid = none) {skip : Nat}
    (hs : 1 ≤ skip) (hcm : (skip : Int) ≤ cfg.hitCounterMax) (hd : cfg.initDelay < cfg.hitCounterMax)
    {w w1 w' : World K L D F X} (hw : Reachable cfg w) {dets : Option (List Ref)} {ct : Option (CoordTrans K)}
    {act : List (Obj K L D F)} (h0 : update cfg w dets skip ct = (w1, .ok act)) {o : Obj K L D F} (ho : o ∈ w1.objs)
    (hnew : ∀ p ∈ w.objs, p.initId ≠ o.initId) {fs : List (Frame K L D F X)} (h : Trace cfg w1 fs w')
    (hfs : Skipping skip o.initId 1 fs) :
    ∃ o' ∈ w'.objs, o'.initId = o.initId ∧
      o'.hitCounter = min ((fs.length / skip + 1 : Nat) * skip : Int) cfg.hitCounterMax - (fs.length % skip : Nat) ∧
      (o'.isInit = true ↔ ((fs.length / skip + 1 : Nat) * skip : Int) ≤ cfg.initDelay) := by
  have hw1 : Reachable cfg w1 := by
    have := hw.update dets skip ct
    rwa [h0] at this
  induction h with
  | nil =>
    obtain ⟨e1, _, _, _, e5, _⟩ := C11_new_objects hw h0 ho hnew
    refine ⟨o, ho, rfl, ?_, ?_⟩
    · simp [e1, hcm]
    · simp [e5]
  | env heap g _ he ih => exact ih hfs
  | @call fs w2 dets period ct ht ih =>
    obtain ⟨o1, ho1, hk1, hh1, hi1⟩ := ih hfs.init
    obtain ⟨⟨act, hact⟩, hrun, hidle⟩ := hfs.last
    simp only at hact
    have hup : update cfg w2 dets period ct = ((update cfg w2 dets period ct).1, .ok act) := Prod.ext rfl hact
    have hlt := Nat.mod_lt fs.length (show skip > 0 by omega)
    have hge : (skip : Int) ≤ ((fs.length / skip + 1 : Nat) * skip : Int) := by
      generalize fs.length / skip = q
      push_cast
      nlinarith [Int.natCast_nonneg q, Int.natCast_nonneg skip]
    obtain ⟨o', ho', hk', hr, hn⟩ := skipping_step hmax hre (hw1.trans ht.reaches) hup ho1 (by omega)
      (run := (1 + fs.length) % skip = 0) (skip := skip) (fun hz => by
        obtain ⟨a, b⟩ := hrun hz
        refine ⟨a, ?_⟩
        rw [hk1]
        exact b) hidle
    refine ⟨o', ho', hk'.trans hk1, ?_⟩
    simp only [List.length_append, List.length_singleton]
    rw [Nat.add_comm 1] at hr hn
    rcases mod_succ_cases hs fs.length with ⟨hl, e⟩ | ⟨hl, e⟩
    · have ed : (fs.length + 1) / skip = fs.length / skip := by
        have a := Nat.div_add_mod (fs.length + 1) skip
        have b := Nat.div_add_mod fs.length skip
        rw [e] at a
        have : skip * ((fs.length + 1) / skip) = skip * (fs.length / skip) := by omega
        exact Nat.eq_of_mul_eq_mul_left (by omega) this
      obtain ⟨e1, e2, _⟩ := hn (by omega)
      rw [ed, e, e1, e2, hh1]
      exact ⟨by push_cast; ring, hi1⟩
    · have ed : (fs.length + 1) / skip = fs.length / skip + 1 := by
        have a := Nat.div_add_mod (fs.length + 1) skip
        have b := Nat.div_add_mod fs.length skip
        rw [e] at a
        have : skip * ((fs.length + 1) / skip) = skip * (fs.length / skip + 1) := by
          rw [Nat.mul_add, Nat.mul_one]
          omega
        exact Nat.eq_of_mul_eq_mul_left (by omega) this
      obtain ⟨e1, e2, _⟩ := hr e
      have hmod : ((fs.length % skip : Nat) : Int) = skip - 1 := by omega
      rw [ed, e]
      rw [hmod] at hh1
      generalize fs.length / skip = q at hh1 hge hi1 ⊢
      have hq : (((q + 1 + 1 : Nat) : Int)) * skip = ((q + 1 : Nat) : Int) * skip + skip := by push_cast; ring
      rw [hq]
      generalize ((q + 1 : Nat) : Int) * skip = m at hh1 hge hi1 ⊢
      have key : o'.hitCounter = min (m + skip) cfg.hitCounterMax := by
        rw [e1, hh1]
        omega
      refine ⟨by rw [key]; simp, ?_⟩
      rw [e2, Bool.and_eq_true, decide_eq_true_eq, hi1, key]
      omega

/-- **C113** (the negation of the whole claim) If `hit_counter_max < skip_period - 1`, then every initialized object that
got a detection is dropped before the detector runs again or in that call, whatever it finds: the object is not returned
for the last frame before, and it is gone after the call. -/
theorem C113_lost {cfg : Cfg K L D F X} (hmax : cfg.reidMax = none) (hre : cfg.reid = none) {skip : Nat}
    (hcm0 : 0 ≤ cfg.hitCounterMax) (hcm : cfg.hitCounterMax < (skip : Int) - 1) {w w1 w2 : World K L D F X}
    (hw : Reachable cfg w)
    {dets : Option (List Ref)} {ct : Option (CoordTrans K)} {act : List (Obj K L D F)}
    (h0 : update cfg w dets skip ct = (w1, .ok act)) {p o : Obj K L D F} (hp : p ∈ w.objs) (ho : o ∈ w1.objs)
    (hk : p.initId = o.initId) (hinit : o.isInit = false)
    (hfresh : p.lastDet ∉ dets.getD []) (hmatch : o.lastDet ∈ dets.getD [])
    {fs : List (Frame K L D F X)} {g : Frame K L D F X} (h : Trace cfg w1 (fs ++ [g]) w2)
    (hlen : (fs ++ [g]).length = skip - 1) (hidle : ∀ f ∈ fs ++ [g], Succeeds f ∧ given f = [])
    (dets' : Option (List Ref)) (period' : Int) (ct' : Option (CoordTrans K)) :
    ¬ Returned o.initId g ∧ ∀ o' ∈ (update cfg w2 dets' period' ct').1.objs, ∀ act',
      (update cfg w2 dets' period' ct').2 = .ok act' → o'.initId ≠ o.initId := by
  have hw1 : Reachable cfg w1 := by
    have := hw.update dets skip ct
    rwa [h0] at this
  obtain ⟨hc0, hc⟩ : 0 ≤ p.hitCounter ∧ o.hitCounter = min (p.hitCounter - 1 + 2 * skip) cfg.hitCounterMax := by
    rcases (C11_counter_steps hw h0 hp ho hk hfresh).2 hmatch with e | ⟨e, _⟩
    · exact e
    · exact absurd hre e
  have hmiss : ∀ f ∈ fs ++ [g], Succeeds f ∧ Missed o.initId f := fun f hf =>
    ⟨(hidle f hf).1, fun _ _ _ => by rw [(hidle f hf).2]; simp⟩
  have hlen' : ((fs.length + 1 : Nat) : Int) = skip - 1 := by simp at hlen; omega
  constructor
  · rw [C13_returned_iff hmax hw1 h ho hinit (by omega) hmiss]
    omega
  · intro o' ho' act' hact' hk'
    have hw2 : Reachable cfg w2 := hw1.trans h.reaches
    have hup : update cfg w2 dets' period' ct' = ((update cfg w2 dets' period' ct').1, .ok act') := Prod.ext rfl hact'
    obtain ⟨h1, h2⟩ := C13_inertia hmax hw1 h ho hinit (by omega) hmiss
    rcases (update_inv (cfg := cfg) hw2.inv dets' period' ct').2.origin o' ho' with hlt | ⟨q, hq, e, _⟩
    · have a := (hw1.inv.bounded o ho).2
      have b := (h.reaches.inv hw1.inv).2.initCount
      omega
    · obtain ⟨hs, _⟩ := update_obj_cases hw2.inv hup hq ho' e
      rcases (mem_survivors.mp hs).2 with ⟨_, hq0⟩ | ⟨hx, _⟩
      · rcases le_or_gt (((fs ++ [g]).length : Nat) : Int) (o.hitCounter + 1) with hle | hgt
        · obtain ⟨q', hq', e1, e2, _⟩ := h1 hle
          have : q = q' := List.inj_on_of_nodup_map hw2.inv.nodup hq hq' (by rw [e, hk', e1])
          rw [← this] at e2
          simp only [List.length_append, List.length_singleton] at e2
          clear h1 h2
          omega
        · exact h2 hgt q hq (e.trans hk')
      · exact hx hmax

/-- the calls of the loop, one for each frame -/
theorem skipLoop_trace (cfg : Cfg K L D F X) (skip : Nat) (detect : Nat → List Ref) (n : Nat) :
    ∀ (i : Nat) (dets : List Ref) (w : World K L D F X), (skipLoop cfg skip detect n i dets w).err = none →
      (skipLoop cfg skip detect n i dets w).written.length = n ∧
      ∃ fs, Trace cfg w fs (skipLoop cfg skip detect n i dets w).world ∧ fs.length = n ∧
        ∀ j f d, fs[j]? = some f → (skipLoop cfg skip detect n i dets w).written[j]? = some d →
          f.out = .ok d.objs ∧ d.frame = i + j ∧ f.before = (skipLoop cfg skip detect j i dets w).world ∧ f.ct = none ∧
          ((i + j) % skip = 0 → f.dets = some (detect (i + j)) ∧ f.period = (skip : Int)) ∧
          ((i + j) % skip ≠ 0 → f.dets = none) ∧
          d.dets = if i ≤ (i + j) / skip * skip then detect ((i + j) / skip * skip) else dets := by
  induction n with
  | zero => exact fun i dets w _ => ⟨rfl, [], .nil w, rfl, fun j f d h => by simp at h⟩
  | succ n ih =>
    intro i dets w herr
    rw [skipLoop] at herr ⊢
    simp only at herr ⊢
    rcases hc : skipCall cfg skip detect i w with ⟨w1, e | act⟩
    · rw [hc] at herr
      cases herr
    · rw [hc] at herr
      simp only at herr ⊢
      obtain ⟨h1, fs, h2, h3, h4⟩ := ih _ _ _ herr
      refine ⟨by simp [h1], ?_⟩
      obtain ⟨f, hf1, hf2, hf3, hf4, hf5⟩ : ∃ f : Frame K L D F X, Trace cfg w [f] w1 ∧ f.out = .ok act ∧ (f.before = w ∧ f.ct = none) ∧
          (i % skip = 0 → f.dets = some (detect i) ∧ f.period = (skip : Int)) ∧ (i % skip ≠ 0 → f.dets = none) := by
        unfold skipCall at hc
        split at hc
        · rename_i hz
          refine ⟨⟨some (detect i), skip, none, w, w1, .ok act⟩, ?_, rfl, ⟨rfl, rfl⟩, fun _ => ⟨rfl, rfl⟩, fun h => absurd hz h⟩
          have := Trace.call (some (detect i)) skip none (Trace.nil (cfg := cfg) w)
          rw [hc] at this
          exact this
        · rename_i hz
          refine ⟨⟨none, 1, none, w, w1, .ok act⟩, ?_, rfl, ⟨rfl, rfl⟩, fun h => absurd h hz, fun _ => rfl⟩
          have := Trace.call none 1 none (Trace.nil (cfg := cfg) w)
          rw [hc] at this
          exact this
      refine ⟨f :: fs, Trace.append hf1 h2, by simp [h3], ?_⟩
      intro j g d hg hd
      have hdm := Nat.div_add_mod i skip
      cases j with
      | zero =>
        simp only [List.getElem?_cons_zero, Option.some.injEq] at hg hd
        subst hg hd
        refine ⟨hf2, rfl, hf3.1, hf3.2, hf4, hf5, ?_⟩
        simp only [Nat.add_zero]
        rw [Nat.mul_comm] at hdm
        by_cases hz : i % skip = 0
        · rw [if_pos hz, if_pos (by omega), show i / skip * skip = i by omega]
        · rw [if_neg hz, if_neg (by omega)]
      | succ j =>
        simp only [List.getElem?_cons_succ] at hg hd
        obtain ⟨a1, a2, a0, a3, a4, a5, a6⟩ := h4 j g d hg hd
        have e : i + 1 + j = i + (j + 1) := by omega
        rw [e] at a2 a4 a5 a6
        refine ⟨a1, a2, by rw [a0, skipLoop]; simp only [hc], a3, a4, a5, ?_⟩
        rw [a6]
        by_cases hz : i + 1 ≤ (i + (j + 1)) / skip * skip
        · rw [if_pos hz, if_pos (by omega)]
        · rw [if_neg hz]
          by_cases hz' : i ≤ (i + (j + 1)) / skip * skip
          · have e' : (i + (j + 1)) / skip * skip = i := by omega
            rw [if_pos (by rw [← e']; exact Nat.mul_mod_left _ _), if_pos hz', e']
          · rw [if_neg hz', if_neg]
            intro hz2
            apply hz'
            calc i = i / skip * skip := by rw [Nat.mul_comm] at hdm; omega
              _ ≤ _ := Nat.mul_le_mul_right _ (Nat.div_le_div_right (by omega))

/-- **C113** (partial as above, for the whole loop) An object that is initialized when the detector runs in frame `i`, and
that gets a detection in every frame in which the detector runs, is drawn in every frame from `i` on. -/
theorem C113_drawn_partial {cfg : Cfg K L D F X} (hmax : cfg.reidMax = none) (hre : cfg.reid = none) {skip : Nat}
    (hs : 1 ≤ skip) (hcm : (skip : Int) - 1 ≤ cfg.hitCounterMax) {w : World K L D F X} (hw : Reachable cfg w)
    {detect : Nat → List Ref} {n i : Nat} {dets : List Ref} (hi : i % skip = 0)
    (herr : (skipLoop cfg skip detect n i dets w).err = none)
    {o : Obj K L D F} (ho : o ∈ w.objs) (hinit : o.isInit = false) (hh : 0 ≤ o.hitCounter)
    (hm : ∀ j < n, (i + j) % skip = 0 → ∀ v, v = (skipLoop cfg skip detect j i dets w).world →
      Matched o.initId ⟨some (detect (i + j)), skip, none, v, (update cfg v (some (detect (i + j))) skip none).1,
        (update cfg v (some (detect (i + j))) skip none).2⟩) :
    ∀ d ∈ (skipLoop cfg skip detect n i dets w).written, ∃ o' ∈ d.objs, o'.initId = o.initId := by
  obtain ⟨h1, fs, h2, h3, h4⟩ := skipLoop_trace cfg skip detect n i dets w herr
  have hsk : Skipping skip o.initId i fs := by
    intro j f hf
    have hjn : j < n := by
      have := (List.getElem?_eq_some_iff.mp hf).1
      omega
    obtain ⟨a1, a2, a3, a4, a5, a6, _⟩ := h4 j f _ hf (List.getElem?_eq_getElem (by omega))
    obtain ⟨_, b1, b2, _⟩ := h2.frame f (List.mem_of_getElem? hf)
    refine ⟨⟨_, a1⟩, fun hz => ⟨(a5 hz).2, ?_⟩, fun hz => by simp [given, a6 hz]⟩
    have := hm j hjn hz f.before a3
    rw [(a5 hz).1, (a5 hz).2, a4] at b1 b2
    rw [← b1, ← b2] at this
    obtain ⟨x1, x2⟩ := this
    have hg : given f = detect (i + j) := by simp [given, (a5 hz).1]
    exact ⟨fun o' ho' hk' => by rw [hg]; exact x1 o' ho' hk', fun o' ho' hk' => by rw [hg]; exact x2 o' ho' hk'⟩
  intro d hd
  obtain ⟨j, hj⟩ := List.mem_iff_getElem?.mp hd
  have hjn : j < fs.length := by
    have := (List.getElem?_eq_some_iff.mp hj).1
    omega
  obtain ⟨a1, _⟩ := h4 j fs[j] d (List.getElem?_eq_getElem hjn) hj
  have hcut : Trace cfg w (fs.take j ++ [fs[j]]) fs[j].after := by
    exact trace_take h2 hjn
  have hsk' : Skipping skip o.initId i (fs.take j ++ [fs[j]]) := by
    intro m f hf
    apply hsk m f
    rw [List.take_append_getElem hjn] at hf
    rw [List.getElem?_take] at hf
    split at hf
    · exact hf
    · cases hf
  obtain ⟨act, e, o', ho', hk⟩ := C113_returned_partial hmax hre hs hcm hw hcut ho hinit
    (by simpa [untilDetector, hi] using hh) hsk'
  rw [a1] at e
  cases e
  exact ⟨o', ho', hk⟩

/-- **C114** (the loops of the sahi, ReID and profiling demos) If no call raises, every frame is written exactly once and in
order, with the objects of its own call and with the detections of the last frame in which the detector ran. -/
theorem C114_every_frame_partial {cfg : Cfg K L D F X} {skip : Nat} (detect : Nat → List Ref) (n : Nat)
    (w : World K L D F X) (herr : (skipLoop cfg skip detect n 0 [] w).err = none) :
    (skipLoop cfg skip detect n 0 [] w).written.map Drawn.frame = List.range n ∧
    (∀ d ∈ (skipLoop cfg skip detect n 0 [] w).written, d.dets = detect (d.frame / skip * skip)) ∧
    ∃ fs, Trace cfg w fs (skipLoop cfg skip detect n 0 [] w).world ∧
      fs.map Frame.out = (skipLoop cfg skip detect n 0 [] w).written.map (fun d => .ok d.objs) ∧
      ∀ j f, fs[j]? = some f → f.ct = none ∧ (j % skip = 0 → f.dets = some (detect j) ∧ f.period = (skip : Int)) ∧
        (j % skip ≠ 0 → f.dets = none) := by
  obtain ⟨h1, fs, h2, h3, h4⟩ := skipLoop_trace cfg skip detect n 0 [] w herr
  generalize skipLoop cfg skip detect n 0 [] w = out at h1 h2 h4 ⊢
  simp only [Nat.zero_add, Nat.zero_le, if_true] at h4
  have hex : ∀ j < n, ∃ f d, fs[j]? = some f ∧ out.written[j]? = some d := fun j hj =>
    ⟨fs[j], out.written[j], List.getElem?_eq_getElem (by omega), List.getElem?_eq_getElem (by omega)⟩
  refine ⟨?_, ?_, fs, h2, ?_, ?_⟩
  · refine List.ext_getElem? fun j => ?_
    rw [List.getElem?_map]
    by_cases hj : j < n
    · obtain ⟨f, d, hf, hd⟩ := hex j hj
      rw [hd, List.getElem?_range hj, Option.map_some, (h4 j f d hf hd).2.1]
    · rw [List.getElem?_eq_none (by omega), List.getElem?_eq_none (by simp; omega)]
      rfl
  · intro d hd
    obtain ⟨j, hj⟩ := List.mem_iff_getElem?.mp hd
    have hjn : j < n := by
      have := (List.getElem?_eq_some_iff.mp hj).1
      omega
    obtain ⟨f, d', hf, hd'⟩ := hex j hjn
    obtain ⟨_, a, _, _, _, _, b⟩ := h4 j f d hf hj
    rw [a, b]
  · refine List.ext_getElem? fun j => ?_
    rw [List.getElem?_map, List.getElem?_map]
    by_cases hj : j < n
    · obtain ⟨f, d, hf, hd⟩ := hex j hj
      rw [hd, hf, Option.map_some, Option.map_some, (h4 j f d hf hd).1]
    · rw [List.getElem?_eq_none (by omega), List.getElem?_eq_none (by omega)]
      rfl
  · intro j f hf
    have hjn : j < n := by
      have := (List.getElem?_eq_some_iff.mp hf).1
      omega
    obtain ⟨_, d, _, hd⟩ := hex j hjn
    obtain ⟨_, _, _, a, b, c, _⟩ := h4 j f d hf hd
    exact ⟨a, b, c⟩

/-- **C114** If a call raises, the frames before it have been written, and only these. -/
theorem C114_raises (cfg : Cfg K L D F X) (skip : Nat) (detect : Nat → List Ref) (n i : Nat) (dets : List Ref)
    (w : World K L D F X) (herr : (skipLoop cfg skip detect n i dets w).err ≠ none) :
    (skipLoop cfg skip detect n i dets w).written.length < n ∧
    (skipLoop cfg skip detect n i dets w).written.map Drawn.frame =
      List.range' i (skipLoop cfg skip detect n i dets w).written.length := by
  induction n generalizing i dets w with
  | zero => exact absurd rfl herr
  | succ n ih =>
    rw [skipLoop] at herr ⊢
    simp only at herr ⊢
    rcases hc : skipCall cfg skip detect i w with ⟨w1, e | act⟩
    · exact ⟨by simp, rfl⟩
    · rw [hc] at herr
      simp only at herr ⊢
      obtain ⟨h1, h2⟩ := ih _ _ _ herr
      exact ⟨by simpa using h1, by simp [h2, List.range'_succ]⟩

/-- **C114** (partial: what the loop of the openpose demo does instead) The tracker goes through the same states, with the
same outcome, as in the other loops when the detector gives an empty list for `None`; but the frames in which the
detector ran and gave `None` are missing from the video. -/
theorem C114_openpose_partial (cfg : Cfg K L D F X) (skip : Nat) (detect : Nat → Option (List Ref)) (n i : Nat)
    (dets : List Ref) (w : World K L D F X) :
    openposeLoop cfg skip detect n i w =
      { skipLoop cfg skip (fun j => (detect j).getD []) n i dets w with
        written := ((skipLoop cfg skip (fun j => (detect j).getD []) n i dets w).written.filter
            (fun d => !(decide (d.frame % skip = 0) && (detect d.frame).isNone))).map
          (fun d => { d with dets := if d.frame % skip = 0 then (detect d.frame).getD [] else [] }) } := by
  induction n generalizing i dets w with
  | zero => rfl
  | succ n ih =>
    rw [skipLoop, openposeLoop]
    have hcall : update cfg w (if i % skip = 0 then detect i else none) skip none =
        skipCall cfg skip (fun j => (detect j).getD []) i w := by
      unfold skipCall
      split
      · rename_i hz
        rcases hd : detect i with _ | l
        · simp only [hd, Option.getD_none]
          exact C24_skipped_frame_partial cfg w skip
        · simp only [hd, Option.getD_some]
      · rfl
    rw [hcall]
    simp only
    rcases skipCall cfg skip (fun j => (detect j).getD []) i w with ⟨w1, e | act⟩
    · rfl
    · simp only
      rw [ih (i + 1) (if i % skip = 0 then (detect i).getD [] else dets) w1]
      by_cases hz : i % skip = 0
      · rcases hd : detect i with _ | l
        · simp [hz, hd]
        · simp [hz, hd]
      · simp [hz]

end

section
open Norfair.Toy

/-- the detections of the examples: the detector sees one target, in frame `i` it gives detection `i` -/
def oneSeen (i : Nat) : List Ref := [i]

/-- a loop of 10 frames with `skip_period=4`: the target is drawn in all of them, with detection 8 in the last -/
example : ((skipLoop Toy.cfg 4 oneSeen 10 0 [] w0).written.map fun d => (d.frame, d.dets, d.objs.map Obj.id)) =
    [(0, [0], [some 1]), (1, [0], [some 1]), (2, [0], [some 1]), (3, [0], [some 1]), (4, [4], [some 1]),
      (5, [4], [some 1]), (6, [4], [some 1]), (7, [4], [some 1]), (8, [8], [some 1]), (9, [8], [some 1])] := by
  decide +kernel

theorem oneSeen_err : (skipLoop Toy.cfg 4 oneSeen 10 0 [] w0).err = none := by decide +kernel

/-- the hypotheses of `C114_every_frame_partial` -/
example : (skipLoop Toy.cfg 4 oneSeen 10 0 [] w0).written.map Drawn.frame = List.range 10 :=
  (C114_every_frame_partial oneSeen 10 w0 oneSeen_err).1

/-- the state after the first frame of that loop -/
def skip1 : TWorld := (skipLoop Toy.cfg 4 oneSeen 1 0 [] w0).world

/-- the calls of the frames `i`, ..., `i + n - 1` of such a loop -/
def loopFrames (c : TCfg) (skip : Nat) (detect : Nat → List Ref) :
    Nat → Nat → TWorld → List (Frame Int Nat (WithTop Nat) (NoFilter Int) Unit)
  | 0, _, _ => []
  | n + 1, i, w =>
    let dets := if i % skip = 0 then some (detect i) else none
    let p : Int := if i % skip = 0 then skip else 1
    ⟨dets, p, none, w, (update c w dets p none).1, (update c w dets p none).2⟩ ::
      loopFrames c skip detect n (i + 1) (update c w dets p none).1

/-- the last state of these calls -/
def loopEnd (c : TCfg) (skip : Nat) (detect : Nat → List Ref) : Nat → Nat → TWorld → TWorld
  | 0, _, w => w
  | n + 1, i, w =>
    loopEnd c skip detect n (i + 1)
      (update c w (if i % skip = 0 then some (detect i) else none) (if i % skip = 0 then (skip : Int) else 1) none).1

theorem loopFrames_trace (c : TCfg) (skip : Nat) (detect : Nat → List Ref) (n : Nat) :
    ∀ i w, Trace c w (loopFrames c skip detect n i w) (loopEnd c skip detect n i w) := by
  induction n with
  | zero => exact fun i w => .nil w
  | succ n ih => exact fun i w => Trace.append (.call _ _ none (.nil w)) (ih _ _)

/-- what is to be checked of the calls -/
theorem skipping_of {skip k i : Nat} {fs : List (Frame Int Nat (WithTop Nat) (NoFilter Int) Unit)}
    (h : ∀ x ∈ fs.zipIdx, x.1.out.toOption.isSome = true ∧
      ((i + x.2) % skip = 0 → x.1.period = skip ∧ (∀ o ∈ x.1.before.objs, o.initId = k → o.lastDet ∉ given x.1) ∧
        ∀ o ∈ x.1.after.objs, o.initId = k → o.lastDet ∈ given x.1) ∧
      ((i + x.2) % skip ≠ 0 → given x.1 = [])) : Skipping skip k i fs := by
  intro j f hf
  obtain ⟨h1, h2, h3⟩ := h (f, j) (by rw [List.mk_mem_zipIdx_iff_getElem?]; exact hf)
  exact ⟨succeeds_of h1, h2, h3⟩

theorem skip1_reachable : Reachable Toy.cfg skip1 :=
  ⟨w0, ⟨rfl, rfl, rfl⟩, (loopFrames_trace Toy.cfg 4 oneSeen 1 0 w0).reaches⟩

/-- the hypotheses of `C113_kept_partial`: frames 1 to 9, the detector runs in frames 4 and 8 -/
example : ∃ o ∈ skip1.objs, ∃ o' ∈ (loopEnd Toy.cfg 4 oneSeen 9 1 skip1).objs, o'.initId = o.initId ∧ o'.id = o.id := by
  obtain ⟨o', h1, h2, _, h3⟩ := C113_kept_partial (cfg := Toy.cfg) rfl rfl (skip := 4) (by decide) (by decide)
    skip1_reachable (loopFrames_trace Toy.cfg 4 oneSeen 9 1 skip1)
    (o := skip1.objs.head (by decide +kernel)) (List.head_mem _) (i := 1) (by decide +kernel)
    (skipping_of (by decide +kernel))
  exact ⟨_, List.head_mem _, o', h1, h2, (h3 (by decide +kernel)).2⟩

/-- the hypotheses of `C113_returned_partial`: frame 3 is the last before the detector runs again -/
example : ∃ k, ∀ f, (loopFrames Toy.cfg 4 oneSeen 3 1 skip1)[2]? = some f → Returned k f := by
  refine ⟨(skip1.objs.head (by decide +kernel)).initId, fun f hf => ?_⟩
  have e : loopFrames Toy.cfg 4 oneSeen 3 1 skip1 = (loopFrames Toy.cfg 4 oneSeen 3 1 skip1).take 2 ++ [f] := by
    obtain ⟨hj, rfl⟩ := List.getElem?_eq_some_iff.mp hf
    rw [List.take_append_getElem]
    rfl
  have ht := loopFrames_trace Toy.cfg 4 oneSeen 3 1 skip1
  have hs : Skipping 4 (skip1.objs.head (by decide +kernel)).initId 1 (loopFrames Toy.cfg 4 oneSeen 3 1 skip1) :=
    skipping_of (by decide +kernel)
  rw [e] at ht hs
  exact C113_returned_partial (cfg := Toy.cfg) rfl rfl (skip := 4) (by decide) (by decide)
    skip1_reachable ht (List.head_mem _) (by decide +kernel) (by decide +kernel) hs

/-- the hypotheses of `C113_drawn_partial`: the loop from frame 4 on -/
example : ∀ d ∈ (skipLoop Toy.cfg 4 oneSeen 6 4 [] (loopEnd Toy.cfg 4 oneSeen 3 1 skip1)).written,
    ∃ o' ∈ d.objs, o'.initId = 1 := by
  have h := C113_drawn_partial (cfg := Toy.cfg) rfl rfl (skip := 4) (by decide) (by decide)
    (skip1_reachable.trans (loopFrames_trace Toy.cfg 4 oneSeen 3 1 skip1).reaches) (detect := oneSeen) (n := 6) (i := 4)
    (dets := []) (by decide) (by decide +kernel)
    (o := (loopEnd Toy.cfg 4 oneSeen 3 1 skip1).objs.head (by decide +kernel)) (List.head_mem _) (by decide +kernel)
    (by decide +kernel) (by
      intro j hj hz v hv
      have : j = 0 ∨ j = 4 := by omega
      rcases this with rfl | rfl <;> subst hv <;> unfold Matched <;> decide +kernel)
  have e : ((loopEnd Toy.cfg 4 oneSeen 3 1 skip1).objs.head (by decide +kernel)).initId = 1 := by decide +kernel
  rwa [e] at h

/-- a tracker with `hit_counter_max=20, initialization_delay=6` -/
def waitCfg : TCfg := { Toy.cfg with hitCounterMax := 20, initDelay := 6 }

/-- the hypotheses of `C113_initialized_partial`, with `skip_period=4`: not yet initialized in frame 3, but in frame 4 -/
example : (∃ o' ∈ (loopEnd waitCfg 4 oneSeen 3 1 (loopEnd waitCfg 4 oneSeen 1 0 w0)).objs, o'.hitCounter = 1 ∧
      o'.isInit = true) ∧
    ∃ o' ∈ (loopEnd waitCfg 4 oneSeen 4 1 (loopEnd waitCfg 4 oneSeen 1 0 w0)).objs, o'.hitCounter = 8 ∧
      o'.isInit = false := by
  obtain ⟨act, h0⟩ := exists_ok (r := update waitCfg w0 (some [0]) (4 : Nat) none) (by decide +kernel)
  have h := fun n => C113_initialized_partial (cfg := waitCfg) rfl rfl (skip := 4) (by decide) (by decide) (by decide)
    ⟨w0, ⟨rfl, rfl, rfl⟩, .refl _⟩ h0 (o := (loopEnd waitCfg 4 oneSeen 1 0 w0).objs.head (by decide +kernel))
    (List.head_mem _) (by decide +kernel) (loopFrames_trace waitCfg 4 oneSeen n 1 _)
  obtain ⟨o3, a3, _, b3, c3⟩ := h 3 (skipping_of (by decide +kernel))
  obtain ⟨o4, a4, _, b4, c4⟩ := h 4 (skipping_of (by decide +kernel))
  refine ⟨⟨o3, a3, b3.trans (by decide +kernel), c3.mpr (by decide +kernel)⟩, o4, a4, b4.trans (by decide +kernel), ?_⟩
  rw [← Bool.not_eq_true, c4]
  decide +kernel

/-- **C113** (the whole claim is false) `hit_counter_max=4` and `skip_period=6`: the detector sees the target in every frame
in which it runs (it moves by 6 from one of these frames to the next, less than the distance threshold 10), but the
second detection only brings the hit counter to 4: the target is not returned for frame 11 and has another id from frame
12 on, and again from frame 24 on. -/
theorem C113_false : (skipLoop Toy.cfg 6 oneSeen 26 0 [] w0).err = none ∧
    ((skipLoop Toy.cfg 6 oneSeen 26 0 [] w0).written.map fun d => d.objs.map Obj.id) =
      List.replicate 11 [some 1] ++ [[]] ++ List.replicate 11 [some 2] ++ [[]] ++ List.replicate 2 [some 3] := by
  decide +kernel

/-- the hypotheses of `C113_lost`: detection 6 in frame 6, nothing in the frames 7 to 11, whatever in frame 12 -/
example : ∃ k, (∃ o ∈ (loopEnd Toy.cfg 6 oneSeen 7 0 w0).objs, o.initId = k) ∧
    ∀ o' ∈ (update Toy.cfg (loopEnd Toy.cfg 6 oneSeen 5 7 (loopEnd Toy.cfg 6 oneSeen 7 0 w0)) (some [12]) 6 none).1.objs,
      o'.initId ≠ k := by
  have hw : Reachable Toy.cfg (loopEnd Toy.cfg 6 oneSeen 6 0 w0) :=
    ⟨w0, ⟨rfl, rfl, rfl⟩, (loopFrames_trace Toy.cfg 6 oneSeen 6 0 w0).reaches⟩
  obtain ⟨act, h0⟩ := exists_ok (r := update Toy.cfg (loopEnd Toy.cfg 6 oneSeen 6 0 w0) (some [6]) (6 : Nat) none)
    (by decide +kernel)
  obtain ⟨act', h1⟩ := exists_ok (r := update Toy.cfg
    (loopEnd Toy.cfg 6 oneSeen 5 7 (loopEnd Toy.cfg 6 oneSeen 7 0 w0)) (some [12]) 6 none) (by decide +kernel)
  have hi : ∀ f ∈ loopFrames Toy.cfg 6 oneSeen 5 7 (loopEnd Toy.cfg 6 oneSeen 7 0 w0), Succeeds f ∧ given f = [] := by
    intro f hf
    have : ∀ f ∈ loopFrames Toy.cfg 6 oneSeen 5 7 (loopEnd Toy.cfg 6 oneSeen 7 0 w0),
        f.out.toOption.isSome = true ∧ given f = [] := by decide +kernel
    exact ⟨succeeds_of (this f hf).1, (this f hf).2⟩
  have ht := loopFrames_trace Toy.cfg 6 oneSeen 5 7 (loopEnd Toy.cfg 6 oneSeen 7 0 w0)
  obtain ⟨fs, g, e⟩ : ∃ fs g, loopFrames Toy.cfg 6 oneSeen 5 7 (loopEnd Toy.cfg 6 oneSeen 7 0 w0) = fs ++ [g] :=
    ⟨_, _, (List.dropLast_append_getLast (List.cons_ne_nil _ _)).symm⟩
  have hl : (fs ++ [g]).length = 6 - 1 := by rw [← e]; rfl
  rw [e] at hi ht
  have h := (C113_lost (cfg := Toy.cfg) rfl rfl (skip := 6) (by decide) (by decide) hw h0
    (p := (loopEnd Toy.cfg 6 oneSeen 6 0 w0).objs.head (by decide +kernel))
    (o := (loopEnd Toy.cfg 6 oneSeen 7 0 w0).objs.head (by decide +kernel)) (List.head_mem _) (List.head_mem _)
    (by decide +kernel) (by decide +kernel) (by decide +kernel) (by decide +kernel) ht hl hi (some [12]) 6 none).2
  exact ⟨_, ⟨_, List.head_mem _, rfl⟩, fun o' ho' => h o' ho' act' (congrArg Prod.snd h1)⟩

/-- **C114** (the whole claim is false of the openpose demo) The detector runs in every second frame and sees nobody in
frame 2: the frame is missing from the video. -/
theorem C114_false : (openposeLoop Toy.cfg 2 (fun i => if i = 2 then none else some [i]) 6 0 w0).err = none ∧
    ((openposeLoop Toy.cfg 2 (fun i => if i = 2 then none else some [i]) 6 0 w0).written.map Drawn.frame) =
      [0, 1, 3, 4, 5] := by
  decide +kernel

/-- the distance function raises in the call of frame 4 (detection 99 has no coordinates): four frames are written -/
example : (skipLoop Toy.cfg 2 (fun i => if i = 4 then [99] else [i]) 8 0 []
    { w0 with heap := fun r => if r = 99 then ⟨⟨0, 0, []⟩, none, 0, (), ⟨0, 0, []⟩, none⟩ else w0.heap r }).err ≠ none ∧
    (skipLoop Toy.cfg 2 (fun i => if i = 4 then [99] else [i]) 8 0 []
      { w0 with heap := fun r => if r = 99 then ⟨⟨0, 0, []⟩, none, 0, (), ⟨0, 0, []⟩, none⟩ else w0.heap r
        }).written.length = 4 := by
  decide +kernel

end

end Norfair.Props
