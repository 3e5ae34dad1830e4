import Verif.Props.Loops

/-!
C113 for trackers with ReID, as in the ReID demo.
-/

set_option linter.unusedSectionVars false

namespace Norfair.Props

open Norfair Norfair.Spec

variable {K L D F X : Type}

section
variable [LinearOrder K] [Zero K] [LinearOrder D] [OrderTop D] [Zero D] [DecidableEq L]

/-- **C113** (partial: `hit_counter_max ≥ skip_period`, see `C113_false_reid`) With or without ReID: an initialized object that
gets a detection in every frame in which the detector runs, from the tracker or by being recognized, is never dropped and keeps
its id; it never begins to wait for being recognized. -/
theorem C113_reid_partial {cfg : Cfg K L D F X} {skip : Nat} (hs : 1 ≤ skip) (hcm : (skip : Int) ≤ cfg.hitCounterMax)
    {w w' : World K L D F X} {fs : List (Frame K L D F X)} (hw : Reachable cfg w) (h : Trace cfg w fs w')
    {o : Obj K L D F} (ho : o ∈ w.objs) (hinit : o.isInit = false) (hrc : o.reidHitCounter = none)
    (hip : (skip : Int) ≤ 2 * o.initialPeriod) {i : Nat} (hh : (untilDetector skip i : Int) + 1 ≤ o.hitCounter)
    (hfs : Skipping skip o.initId i fs) :
    ∃ o' ∈ w'.objs, o'.initId = o.initId ∧ (untilDetector skip (i + fs.length) : Int) + 1 ≤ o'.hitCounter ∧
      o'.isInit = false ∧ o'.id = o.id ∧ o'.reidHitCounter = none ∧ o'.initialPeriod = o.initialPeriod := by
  induction h with
  | nil => exact ⟨o, ho, rfl, by simpa using hh, hinit, rfl, hrc, rfl⟩
  | env heap g _ he ih => exact ih hfs
  | @call fs w1 dets period ct ht ih =>
    obtain ⟨o1, ho1, hk1, hh1, hi1, hid1, hr1, hp1⟩ := ih hfs.init
    obtain ⟨⟨act, hact⟩, hrun, hidle⟩ := hfs.last
    simp only at hact
    have hup : update cfg w1 dets period ct = ((update cfg w1 dets period ct).1, .ok act) := Prod.ext rfl hact
    have hI := (hw.trans ht.reaches).inv
    have hsurv : o1 ∈ survivors cfg w1.objs := by
      rw [mem_survivors]
      refine ⟨ho1, ?_⟩
      rcases hm : cfg.reidMax with _ | m
      · exact Or.inl ⟨rfl, by omega⟩
      · exact Or.inr ⟨by simp, Or.inl hr1⟩
    simp only [List.length_append, List.length_singleton, ← Nat.add_assoc]
    by_cases hz : (i + fs.length) % skip = 0
    · obtain ⟨hp, hm1, hm2⟩ := hrun hz
      simp only at hp
      rw [← hk1] at hm1 hm2
      have hnext : (untilDetector skip (i + fs.length + 1) : Int) + 1 ≤ skip := by
        unfold untilDetector
        rcases mod_succ_cases hs (i + fs.length) with ⟨_, e⟩ | ⟨_, e⟩
        · rw [if_neg (by omega), e, hz]
          omega
        · rw [if_pos e]
          omega
      obtain ⟨o', ho', hk, hcase⟩ := matched_call hI hup hsurv (Or.inl (Or.inl hi1)) (hm1 o1 ho1 rfl) hm2
      refine ⟨o', ho', hk.trans hk1, ?_⟩
      rcases hcase with ⟨_, r, hf⟩ | ⟨_, _, c, hf⟩
      · have hii : o'.isInit = false := by rw [hf.isInit, hi1]; rfl
        refine ⟨?_, hii, ((hf.id (hii.trans hi1.symm)).1).trans hid1, ?_, hf.initialPeriod.trans hp1⟩
        · rw [hf.hitCounter, hp]
          refine le_trans hnext (le_min ?_ hcm)
          omega
        · rw [hf.reidHitCounter, hr1]
          simp only
          rw [if_neg (by omega)]
      · refine ⟨?_, hf.isInit.trans hi1, hf.id.trans hid1, hf.reidHitCounter, hf.initialPeriod.trans hp1⟩
        rw [hf.hitCounter, hp1]
        omega
    · obtain ⟨h1, _⟩ := missed_call hI hup ho1 (Or.inl hi1)
        (fun _ _ _ => by
          have := hidle hz
          simp only [given] at this
          rw [this]
          simp)
      obtain ⟨v, hv⟩ := h1 hsurv
      refine ⟨_, hv, by simpa using hk1, ?_, by simpa using hi1, by simpa using hid1, ?_, by simpa using hp1⟩
      · simp only [stepped_hitCounter]
        unfold untilDetector at hh1 ⊢
        rw [if_neg hz] at hh1
        rcases mod_succ_cases hs (i + fs.length) with ⟨_, e⟩ | ⟨_, e⟩
        · rw [if_neg (by omega), e]
          omega
        · rw [if_pos e]
          omega
      · obtain ⟨g, e⟩ := stepped_eq cfg ct o1
        simp only [e, Obj.trackerStep, hr1]
        rw [if_neg (by omega)]

/-- **C113** (partial as above) So it is returned for every frame. -/
theorem C113_reid_returned_partial {cfg : Cfg K L D F X} {skip : Nat} (hs : 1 ≤ skip)
    (hcm : (skip : Int) ≤ cfg.hitCounterMax) {w w' : World K L D F X} {fs : List (Frame K L D F X)} {f : Frame K L D F X}
    (hw : Reachable cfg w) (h : Trace cfg w (fs ++ [f]) w') {o : Obj K L D F} (ho : o ∈ w.objs) (hinit : o.isInit = false)
    (hrc : o.reidHitCounter = none) (hip : (skip : Int) ≤ 2 * o.initialPeriod) {i : Nat}
    (hh : (untilDetector skip i : Int) + 1 ≤ o.hitCounter) (hfs : Skipping skip o.initId i (fs ++ [f])) :
    Returned o.initId f := by
  have hmem : f ∈ fs ++ [f] := List.mem_append_right _ (List.mem_singleton.mpr rfl)
  obtain ⟨o', ho', hk, hc, hi, _⟩ := C113_reid_partial hs hcm hw (trace_cut h) ho hinit hrc hip hh hfs
  exact (returned_iff hw h hmem hfs.last.1 _).mpr ⟨o', ho', hk, hi, by omega⟩

end

open Norfair.Toy

/-- `hit_counter_max=5`, ReID and `reid_hit_counter_max=5` -/
def reidLoopCfg : TCfg := { rcfg with hitCounterMax := 5 }

/-- **C113** (false with `reid_hit_counter_max` already for `hit_counter_max = skip_period - 1`) The target is seen whenever the
detector runs. Its hit counter is 0 when the detector runs again, so the object begins to wait for being recognized, which
never ends: it is dropped in frame 19 in spite of its detections, and the target gets another id in frame 24. Without
`reid_hit_counter_max` it keeps its id. -/
theorem C113_false_reid :
    ((skipLoop reidLoopCfg 6 oneSeen 40 0 [] w0).written.map fun d => d.objs.map Obj.id) =
      List.replicate 19 [some 1] ++ List.replicate 5 [] ++ List.replicate 16 [some 2] ∧
    ((skipLoop { reidLoopCfg with reidMax := none } 6 oneSeen 40 0 [] w0).written.map fun d => d.objs.map Obj.id) =
      List.replicate 40 [some 1] := by
  decide +kernel

/-- the state after the first frame of the loop with `skip_period=4` -/
def reidSkip1 : TWorld := loopEnd rcfg 4 oneSeen 1 0 w0

theorem reidSkip1_reachable : Reachable rcfg reidSkip1 :=
  ⟨w0, ⟨rfl, rfl, rfl⟩, (loopFrames_trace rcfg 4 oneSeen 1 0 w0).reaches⟩

/-- the hypotheses of `C113_reid_partial`: a tracker with ReID, frames 1 to 9, the detector runs in frames 4 and 8 -/
example : ∃ o ∈ reidSkip1.objs, ∃ o' ∈ (loopEnd rcfg 4 oneSeen 9 1 reidSkip1).objs, o'.initId = o.initId ∧ o'.id = o.id := by
  obtain ⟨o', h1, h2, _, _, h3, _⟩ := C113_reid_partial (cfg := rcfg) (skip := 4) (by decide) (by decide)
    reidSkip1_reachable (loopFrames_trace rcfg 4 oneSeen 9 1 reidSkip1)
    (o := reidSkip1.objs.head (by decide +kernel)) (List.head_mem _) (by decide +kernel) (by decide +kernel)
    (by decide +kernel) (i := 1) (by decide +kernel) (skipping_of (by decide +kernel))
  exact ⟨_, List.head_mem _, o', h1, h2, h3⟩

/-- the hypotheses of `C113_reid_returned_partial`: frame 3 is the last before the detector runs again -/
example : ∃ k, ∀ f, (loopFrames rcfg 4 oneSeen 3 1 reidSkip1)[2]? = some f → Returned k f := by
  refine ⟨(reidSkip1.objs.head (by decide +kernel)).initId, fun f hf => ?_⟩
  have e : loopFrames rcfg 4 oneSeen 3 1 reidSkip1 = (loopFrames rcfg 4 oneSeen 3 1 reidSkip1).take 2 ++ [f] := by
    obtain ⟨hj, rfl⟩ := List.getElem?_eq_some_iff.mp hf
    rw [List.take_append_getElem]
    rfl
  have ht := loopFrames_trace rcfg 4 oneSeen 3 1 reidSkip1
  have hs : Skipping 4 (reidSkip1.objs.head (by decide +kernel)).initId 1 (loopFrames rcfg 4 oneSeen 3 1 reidSkip1) :=
    skipping_of (by decide +kernel)
  rw [e] at ht hs
  exact C113_reid_returned_partial (cfg := rcfg) (skip := 4) (by decide) (by decide) reidSkip1_reachable ht (List.head_mem _)
    (by decide +kernel) (by decide +kernel) (by decide +kernel) (by decide +kernel) hs

end Norfair.Props
