import Verif.Model.MotCam

/-!
Model of the loop over the videos of the camera motion demo (`demos/camera_motion/src/demo.py`): masks, motion estimator and
tracker. Not modelled here: drawing, the fixed camera, and showing or writing the frames (C45, C47, C51, C103 treat them).
-/

namespace Norfair

variable {K L D F X Img G T : Type}

/-- `--mask-detections`, `--track-boxes`, and whether `--transformation` is not `none` -/
structure CamArgs where
  mask : Bool
  track : Bool
  motion : Bool

/-- a frame, the detections and the boxes that `yolo_detections_to_norfair_detections` makes of it (C122); the detections are
in the memory before the video begins -/
structure CamFrame (K Img : Type) where
  img : Img
  dets : List Ref
  boxes : List (Pts K)

/-- what a frame is shown with: `coord_transformations` and `tracked_objects` -/
structure CamShown (K L D F T : Type) where
  motion : Option T
  objs : List (Obj K L D F)

/-- what a video leaves: the frames shown, the variable `tracked_objects`, the number of objects created in this process, and
the exception if the loop did not get to its end -/
structure CamOut (K L D F T : Type) where
  shown : List (CamShown K L D F T)
  last : List (Obj K L D F)
  gcount : Nat
  err : Option Err

section
variable [Ring K] [LinearOrder K] [FloorRing K] [LinearOrder D] [Top D] [Zero D] [DecidableEq L]

/-- the mask of a frame (`demo.py` lines 252-263) -/
def camMask (cfg : Cfg K L D F X) (cam : MotCam K Img G T) (args : CamArgs) (objs : List (Obj K L D F))
    (f : CamFrame K Img) : Option (Image Bool) :=
  if args.mask then
    some (buildMask (cam.size f.img) f.boxes (if args.track then objs.map (·.estimate cfg.flt) else []))
  else none

/-- the loop over the frames of a video (`demo.py` lines 246-272); `objs` is `tracked_objects` -/
def camDemoFrames (cfg : Cfg K L D F X) (cam : MotCam K Img G T) (args : CamArgs) :
    World K L D F X → MotionEstimator K Img (Image Bool) G → List (Obj K L D F) → List (CamFrame K Img) →
      CamOut K L D F T
  | w, _, objs, [] => ⟨[], objs, w.gcount, none⟩
  | w, e, objs, f :: fs =>
    let m := if args.motion then e.update cam.flow cam.g0 cam.call f.img (camMask cfg cam args objs f) else (e, none)
    match update cfg w (some f.dets) 1 (m.2.map cam.ct) with
    | (w, .error err) => ⟨[], objs, w.gcount, some err⟩
    | (w, .ok act) =>
      let out := camDemoFrames cfg cam args w m.1 act fs
      { out with shown := ⟨m.2, act⟩ :: out.shown }

/-- a video: the memory with its detections, the settings of its tracker (the threshold depends on the height), its frames -/
structure CamVideo (K L D F X Img : Type) where
  heap : Ref → Det K L X
  cfg : Cfg K L D F X
  frames : List (CamFrame K Img)

/-- one video (`demo.py` lines 196-272): a new estimator and a new tracker -/
def camDemoVideo (cam : MotCam K Img G T) (args : CamArgs) (g : Nat) (objs : List (Obj K L D F))
    (v : CamVideo K L D F X Img) : CamOut K L D F T :=
  camDemoFrames v.cfg cam args ⟨v.heap, g, 0, 0, []⟩ (MotionEstimator.create cam.g0) objs v.frames

/-- all videos (`demo.py` lines 193-272); an exception ends the program -/
def camDemo (cam : MotCam K Img G T) (args : CamArgs) :
    Nat → List (Obj K L D F) → List (CamVideo K L D F X Img) → List (CamOut K L D F T)
  | _, _, [] => []
  | g, objs, v :: vs =>
    let out := camDemoVideo cam args g objs v
    out :: if out.err = none then camDemo cam args out.gcount out.last vs else []

end

end Norfair
