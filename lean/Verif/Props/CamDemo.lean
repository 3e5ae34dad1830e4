import Verif.Model.CamDemo
import Verif.Props.MotCam
import Verif.Spec.Interference
import Verif.Lemmas.Sim

/-! C126: the loop over the videos of the camera motion demo. -/

set_option linter.unusedSectionVars false

namespace Norfair.Props

open Norfair Norfair.Spec

variable {K L D F X Img G T : Type}

/-- frames shown with the same motion, and with the same objects up to `global_id` -/
def SameShown (a b : List (CamShown K L D F T)) : Prop :=
  List.Forall₂ (fun x y => x.motion = y.motion ∧ SameObjs x.objs y.objs) a b

section
variable [Ring K] [LinearOrder K] [FloorRing K] [LinearOrder D] [OrderTop D] [Zero D] [DecidableEq L]

theorem osim_same {S : Ref → Prop} {a b : List (Obj K L D F)} (h : List.Forall₂ (OSim S) a b) :
    SameObjs a b ∧ ∀ fo : FilterOps K F, a.map (·.estimate fo) = b.map (·.estimate fo) := by
  induction h with
  | nil => exact ⟨rfl, fun _ => rfl⟩
  | cons hab _ ih =>
    refine ⟨?_, fun fo => ?_⟩
    · unfold SameObjs at ih ⊢
      rw [List.map_cons, List.map_cons, ih.1, hab.same]
    · rw [List.map_cons, List.map_cons, ih.2, hab.same]
      rfl

theorem camMask_congr (cfg : Cfg K L D F X) (cam : MotCam K Img G T) (args : CamArgs) {objs objs' : List (Obj K L D F)}
    (h : objs.map (·.estimate cfg.flt) = objs'.map (·.estimate cfg.flt)) (f : CamFrame K Img) :
    camMask cfg cam args objs f = camMask cfg cam args objs' f := by
  unfold camMask
  rw [h]

theorem camDemoFrames_sim {cfg : Cfg K L D F X} (hcfg : IgnoresGlobalId cfg) (cam : MotCam K Img G T) (args : CamArgs)
    {h0 h0' : Ref → Det K L X} (fs : List (CamFrame K Img)) : ∀ (w v : World K L D F X)
    (e : MotionEstimator K Img (Image Bool) G) (objs objs' : List (Obj K L D F)), WSim (fun _ => True) h0 h0' w v →
    (args.motion = true → ∀ f, camMask cfg cam args objs f = camMask cfg cam args objs' f) →
    SameShown (camDemoFrames cfg cam args w e objs fs).shown (camDemoFrames cfg cam args v e objs' fs).shown ∧
    (camDemoFrames cfg cam args w e objs fs).err = (camDemoFrames cfg cam args v e objs' fs).err := by
  induction fs with
  | nil => intros; exact ⟨.nil, rfl⟩
  | cons f fs ih =>
    intro w v e objs objs' hw hm
    unfold camDemoFrames
    have hme : (if args.motion then e.update cam.flow cam.g0 cam.call f.img (camMask cfg cam args objs f) else (e, none)) =
        if args.motion then e.update cam.flow cam.g0 cam.call f.img (camMask cfg cam args objs' f) else (e, none) := by
      split
      · rename_i h; rw [hm h]
      · rfl
    rw [hme]
    generalize (if args.motion then e.update cam.flow cam.g0 cam.call f.img (camMask cfg cam args objs' f) else (e, none)) = m
    obtain ⟨hs, ho⟩ := update_sim hcfg hw (dets := some f.dets) (fun _ _ => trivial) 1 (m.2.map cam.ct)
    simp only
    rcases h1 : update cfg w (some f.dets) 1 (m.2.map cam.ct) with ⟨w', r⟩
    rcases h2 : update cfg v (some f.dets) 1 (m.2.map cam.ct) with ⟨v', r'⟩
    rw [h1, h2] at hs ho
    cases ho with
    | error er => exact ⟨.nil, rfl⟩
    | ok hab =>
      obtain ⟨hobj, hest⟩ := osim_same hab
      obtain ⟨i1, i2⟩ := ih w' v' m.1 _ _ hs fun _ f => camMask_congr cfg cam args (hest _) f
      exact ⟨.cons ⟨rfl, hobj⟩ i1, i2⟩

theorem initial_sim (v : CamVideo K L D F X Img) (g g' : Nat) :
    WSim (fun _ => True) v.heap v.heap (⟨v.heap, g, 0, 0, []⟩ : World K L D F X) ⟨v.heap, g', 0, 0, []⟩ where
  heap := ⟨fun _ _ => rfl, fun _ h => absurd trivial h, fun _ h => absurd trivial h⟩
  count := rfl
  initCount := rfl
  objs := .nil

/-- the videos after the first are not influenced by what is left from the one before: no masks, no boxes, no motion, or no
objects returned in the last frame -/
def NothingLeft (args : CamArgs) (out : CamOut K L D F T) : Prop :=
  args.mask = true → args.track = true → args.motion = true → out.last = []

theorem video_sim {v : CamVideo K L D F X Img} (hcfg : IgnoresGlobalId v.cfg) (cam : MotCam K Img G T) (args : CamArgs)
    (g : Nat) {objs : List (Obj K L D F)}
    (h : args.mask = true → args.track = true → args.motion = true → objs = []) :
    SameShown (camDemoVideo cam args g objs v).shown (camDemoVideo cam args 0 [] v).shown ∧
    (camDemoVideo cam args g objs v).err = (camDemoVideo cam args 0 [] v).err := by
  refine camDemoFrames_sim hcfg cam args v.frames _ _ _ _ _ (initial_sim v g 0) fun hm f => ?_
  unfold camMask
  split
  · rename_i hk
    split
    · rename_i ht; rw [h hk ht hm]
    · rfl
  · rfl

/-- **C126** (the part that holds) Every video that is processed is processed as if it were the only one, up to the values of
`global_id`, if nothing is left from the video before; and all videos are processed up to the first that raises. -/
theorem C126_alone_partial (cam : MotCam K Img G T) (args : CamArgs) (vs : List (CamVideo K L D F X Img))
    (hcfg : ∀ v ∈ vs, IgnoresGlobalId v.cfg)
    (hleft : ∀ out ∈ (camDemo cam args 0 [] vs).dropLast, NothingLeft args out) :
    List.Forall₂ (fun out v => SameShown out.shown (camDemoVideo cam args 0 [] v).shown ∧
        out.err = (camDemoVideo cam args 0 [] v).err) (camDemo cam args 0 [] vs)
      (vs.take (camDemo cam args 0 [] vs).length) ∧
    ((∀ v ∈ vs, (camDemoVideo cam args 0 [] v).err = none) → (camDemo cam args 0 [] vs).length = vs.length) := by
  have key : ∀ (vs : List (CamVideo K L D F X Img)) (g : Nat) (objs : List (Obj K L D F)),
      (∀ v ∈ vs, IgnoresGlobalId v.cfg) → (args.mask = true → args.track = true → args.motion = true → objs = []) →
      (∀ out ∈ (camDemo cam args g objs vs).dropLast, NothingLeft args out) →
      List.Forall₂ (fun out v => SameShown out.shown (camDemoVideo cam args 0 [] v).shown ∧
          out.err = (camDemoVideo cam args 0 [] v).err) (camDemo cam args g objs vs)
        (vs.take (camDemo cam args g objs vs).length) ∧
      ((∀ v ∈ vs, (camDemoVideo cam args 0 [] v).err = none) → (camDemo cam args g objs vs).length = vs.length) := by
    intro vs
    induction vs with
    | nil => intros; exact ⟨.nil, fun _ => rfl⟩
    | cons v vs ih =>
      intro g objs hcfg ho hl
      have hv := video_sim (hcfg v List.mem_cons_self) cam args g ho
      unfold camDemo at hl ⊢
      simp only at hl ⊢
      by_cases he : (camDemoVideo cam args g objs v).err = none
      · rw [if_pos he] at hl ⊢
        cases vs with
        | nil => exact ⟨.cons hv .nil, fun _ => rfl⟩
        | cons v' vs =>
          have hne : camDemo cam args (camDemoVideo cam args g objs v).gcount (camDemoVideo cam args g objs v).last
              (v' :: vs) ≠ [] := by unfold camDemo; simp
          rw [List.dropLast_cons_of_ne_nil hne] at hl
          obtain ⟨i1, i2⟩ := ih (camDemoVideo cam args g objs v).gcount (camDemoVideo cam args g objs v).last
            (fun v hv => hcfg v (List.mem_cons_of_mem _ hv)) (hl _ List.mem_cons_self)
            (fun out h => hl out (List.mem_cons_of_mem _ h))
          refine ⟨.cons hv i1, fun hall => ?_⟩
          rw [List.length_cons, i2 fun v hv => hall v (List.mem_cons_of_mem _ hv)]
          rfl
      · rw [if_neg he]
        refine ⟨.cons hv .nil, fun hall => ?_⟩
        exact absurd (hv.2.trans (hall v List.mem_cons_self)) he
  exact key vs 0 [] hcfg (fun _ _ _ => rfl) hleft

/-- the masks of the frames shown: the boxes of the frame, and with `--track-boxes` the estimates of the objects of the frame
before -/
def camMasks (cfg : Cfg K L D F X) (cam : MotCam K Img G T) (args : CamArgs) :
    List (Obj K L D F) → List (CamFrame K Img) → List (CamShown K L D F T) → List (Img × Option (Image Bool))
  | objs, f :: fs, s :: ss =>
    (f.img, if args.mask then some (buildMask (cam.size f.img) f.boxes
      (if args.track then objs.map (·.estimate cfg.flt) else [])) else none) :: camMasks cfg cam args s.objs fs ss
  | _, _, _ => []

/-- **C126** In a video, the motion that a frame is shown with is that of the estimator for the frames and masks so far, where
the mask of a frame is made of the boxes of this frame and of the objects of the frame before; what the tracker returns are
the objects for these motions. -/
theorem C126_motion (cam : MotCam K Img G T) (args : CamArgs) (hmo : args.motion = true) (g : Nat)
    (objs : List (Obj K L D F)) (v : CamVideo K L D F X Img) :
    (camDemoVideo cam args g objs v).shown.map (·.motion) =
      (MotionEstimator.create cam.g0).outputs cam.flow cam.g0 cam.call
        (camMasks v.cfg cam args objs v.frames (camDemoVideo cam args g objs v).shown) ∧
    ((camDemoVideo cam args g objs v).err = none →
      ∃ w', trackAll v.cfg ⟨v.heap, g, 0, 0, []⟩ ((v.frames.map (·.dets)).zip
        ((camDemoVideo cam args g objs v).shown.map fun s => s.motion.map cam.ct)) =
          some (w', (camDemoVideo cam args g objs v).shown.map (·.objs)) ∧
        (camDemoVideo cam args g objs v).shown.length = v.frames.length) := by
  unfold camDemoVideo
  generalize (⟨v.heap, g, 0, 0, []⟩ : World K L D F X) = w
  generalize (MotionEstimator.create cam.g0 : MotionEstimator K Img (Image Bool) G) = e
  induction v.frames generalizing w e objs with
  | nil => exact ⟨rfl, fun _ => ⟨w, rfl, rfl⟩⟩
  | cons f fs ih =>
    unfold camDemoFrames
    rw [hmo]
    simp only [if_true]
    rcases hu : update v.cfg w (some f.dets) 1
      ((e.update cam.flow cam.g0 cam.call f.img (camMask v.cfg cam args objs f)).2.map cam.ct) with ⟨w', er | act⟩
    · exact ⟨rfl, fun h => nomatch h⟩
    · simp only
      obtain ⟨i1, i2⟩ := ih act w' (e.update cam.flow cam.g0 cam.call f.img (camMask v.cfg cam args objs f)).1
      refine ⟨?_, fun h => ?_⟩
      · rw [List.map_cons, i1]
        rfl
      · obtain ⟨w2, h1, h2⟩ := i2 h
        refine ⟨w2, ?_, by simp [h2]⟩
        simp only [List.map_cons, List.zip_cons_cons, trackAll, hu, h1, Option.map_some]

end

/-! ### Examples -/

/-- a box that covers all pixels -/
def allBox : Det ℚ Nat Unit := ⟨⟨2, 2, [0, 0, 9, 4]⟩, none, 0, (), ⟨2, 2, [0, 0, 9, 4]⟩, none⟩

/-- a video with a box over the whole frame, in two frames; and one in which nothing is detected and everything moves to the
right -/
def coveredVideo : CamVideo ℚ Nat (WithTop ℚ) (NoFilter ℚ) Unit ℤ :=
  ⟨fun _ => allBox, properCfg, [⟨0, [0], [⟨2, 2, [0, 0, 9, 4]⟩]⟩, ⟨0, [1], [⟨2, 2, [0, 0, 9, 4]⟩]⟩]⟩

def movingVideo : CamVideo ℚ Nat (WithTop ℚ) (NoFilter ℚ) Unit ℤ :=
  ⟨fun _ => allBox, properCfg, [⟨0, [], []⟩, ⟨1, [], []⟩]⟩

theorem properCfg_ignores : IgnoresGlobalId properCfg :=
  ⟨fun f h => (by cases h), fun f h => (by cases h)⟩

/-- motions, and ids with estimates -/
def camSummary (out : CamOut ℚ Nat (WithTop ℚ) (NoFilter ℚ) (ℚ × ℚ)) :
    List (Option (ℚ × ℚ) × List (Option Nat × List ℚ)) × Option Err :=
  (out.shown.map fun s => (s.motion, s.objs.map fun o => (o.id, (o.estimate properCfg.flt).data)), out.err)

set_option synthInstance.maxSize 2000 in
/-- C126_alone_partial: the hypotheses hold with masks and boxes if the first video ends without objects, and without
`--track-boxes` in any order -/
example : (∀ v ∈ [movingVideo, coveredVideo], IgnoresGlobalId v.cfg) ∧
    (∀ out ∈ (camDemo pixelCam ⟨true, true, true⟩ 0 [] [movingVideo, coveredVideo]).dropLast, NothingLeft ⟨true, true, true⟩ out) ∧
    (∀ out ∈ (camDemo pixelCam ⟨true, false, true⟩ 0 [] [coveredVideo, movingVideo]).dropLast, NothingLeft ⟨true, false, true⟩ out) ∧
    (camDemo pixelCam ⟨true, true, true⟩ 0 [] [movingVideo, coveredVideo]).map camSummary =
      [([(some (0, 0), []), (some (1, 0), [])], none), ([(none, []), (none, [(some 1, [0, 0, 9, 4])])], none)] := by
  refine ⟨?_, ?_, ?_, by decide +kernel⟩
  · intro v hv
    simp only [List.mem_cons, List.not_mem_nil, or_false] at hv
    rcases hv with rfl | rfl <;> exact properCfg_ignores
  · intro out h _ _ _
    have hall : (camDemo pixelCam ⟨true, true, true⟩ 0 [] [movingVideo, coveredVideo]).dropLast.all
        (fun out => out.last.isEmpty) = true := by decide +kernel
    simpa using List.all_eq_true.mp hall out h
  · intro out _ _ h
    cases h

set_option synthInstance.maxSize 2000 in
/-- **C126** is false with masks and boxes: alone, the movement of the camera in the second video is found; after a video
that ended with an object, it is not, because the first mask covers the place of this object. -/
theorem C126_false_leftover :
    (camDemo pixelCam ⟨true, true, true⟩ 0 [] [movingVideo]).map camSummary =
      [([(some (0, 0), []), (some (1, 0), [])], none)] ∧
    (camDemo pixelCam ⟨true, true, true⟩ 0 [] [coveredVideo, movingVideo]).map camSummary =
      [([(none, []), (none, [(some 1, [0, 0, 9, 4])])], none), ([(none, []), (none, [])], none)] := by
  constructor <;> decide +kernel

end Norfair.Props
