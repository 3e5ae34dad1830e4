import Verif.Model.MotLoop
import Verif.Model.FixedCamera

/-!
Model of the evaluation on MOTChallenge data with camera motion (`demos/motmetrics4norfair/src/motmetrics4norfair.py`):
the masks for the motion estimator, and the loop with the estimator. `--make-video` is in `MotVideo.lean`.
-/

namespace Norfair

variable {K L D F X Img G T : Type}

/-- `mask[y0:y1, x0:x1] = 0` -/
def Image.clear (m : Image Bool) (y0 y1 x0 x1 : ℤ) : Image Bool :=
  { m with px := fun i j =>
      if (sliceLimit m.h y0 ≤ i ∧ i < sliceLimit m.h y1) ∧ sliceLimit m.w x0 ≤ j ∧ j < sliceLimit m.w x1 then false
      else m.px i j }

/-- `i = points.astype(int); mask[i[0, 1] : i[1, 1], i[0, 0] : i[1, 0]] = 0` (`motmetrics4norfair.py` lines 21-22 and
24-25). Simplification: the array has two rows and two columns. -/
def clearBox [Ring K] [LinearOrder K] [FloorRing K] (m : Image Bool) (p : Pts K) : Image Bool :=
  m.clear (truncInt (p.data.getD 1 0)) (truncInt (p.data.getD 3 0)) (truncInt (p.data.getD 0 0))
    (truncInt (p.data.getD 2 0))

/-- `build_mask` (`motmetrics4norfair.py` lines 16-26) for a frame of this size, the points of the detections and the
estimates of the tracked objects; `true` is 1 -/
def buildMask [Ring K] [LinearOrder K] [FloorRing K] (size : Nat × Nat) (dets objs : List (Pts K)) : Image Bool :=
  objs.foldl clearBox (dets.foldl clearBox ⟨size.1, size.2, fun _ _ => true⟩)

/-- `MotionEstimator(max_points=500)` (`motmetrics4norfair.py` line 113): the functions of OpenCV, the state of a new
getter, the getter, and the coordinate transformations it returns. `size` is `frame.shape[:2]` (line 18); frames are
given by their gray images. -/
structure MotCam (K Img G T : Type) where
  flow : Flow K Img (Image Bool)
  g0 : G
  call : G → Option (List (K × K)) → Option (List (K × K)) → Option (G × Bool × Option T)
  ct : T → CoordTrans K
  size : Img → Nat × Nat

/-- The loop over the frames (`motmetrics4norfair.py` lines 118-138, with `--save-pred` and without `--make-video`);
`objs` are the `tracked_objects` of the call before. `none` if something raises. -/
def motCamFrames [Ring K] [LinearOrder K] [FloorRing K] [LinearOrder D] [Top D] [Zero D] [DecidableEq L]
    (cfg : Cfg K L D F X) (fmt : K → Str) (cam : MotCam K Img G T) :
    MotState K L D F X → MotionEstimator K Img (Image Bool) G → List (Obj K L D F) → List (Img × List Ref) →
      Option (MotState K L D F X)
  | s, _, _, [] => some s
  | s, e, objs, (img, dets) :: cs =>
    let mask := buildMask (cam.size img) (dets.map fun r => (s.world.heap r).points) (objs.map (·.estimate cfg.flt))
    let m := e.update cam.flow cam.g0 cam.call img (some mask)
    match update cfg s.world (some dets) 1 (m.2.map cam.ct) with
    | (_, .error _) => none
    | (w, .ok act) =>
      match s.file.update fmt (act.map (Pred.ofObj cfg.flt)) none with
      | (_, true) => none
      | (file, false) =>
        match s.acc.update (some (act.map (Pred.ofObj cfg.flt))) with
        | (_, true) => none
        | (acc, false) => motCamFrames cfg fmt cam ⟨w, file, acc⟩ m.1 act cs

/-- the files of a sequence: its folder, `seqLength`, the rows of `det.txt` and the pictures -/
structure CamSeq (K Img : Type) where
  path : Str
  length : InfoValue
  rows : List (List K)
  frames : List Img

/-- One sequence (`motmetrics4norfair.py` lines 83-138): like `motSeq`, with a new motion estimator; `zip` ends with the
shorter of the frames and the lists of detections. -/
def motCamSeq [Ring K] [LinearOrder K] [FloorRing K] [LinearOrder D] [Top D] [Zero D] [DecidableEq L]
    (cfg : Cfg K L D F X) (fmt : K → Str) (cam : MotCam K Img G T) (sortRows : List (List K) → List (List K))
    (label : L) (extra : X) (g : Nat) (acc : Accum K) (v : CamSeq K Img) : Option (Nat × PredFile × Accum K) :=
  match DetParser.init sortRows v.rows v.length with
  | none => none
  | some p =>
    match acc.create v.path v.length with
    | (_, true) => none
    | (acc, false) =>
      (motCamFrames cfg fmt cam
        ⟨⟨motHeap label extra p.sortedByFrame.flatten, g, 0, 0, []⟩, PredFile.init v.length, acc⟩
        (MotionEstimator.create cam.g0) [] (v.frames.zip (refsFrom 0 p.sortedByFrame))).map
          fun s => (s.world.gcount, s.file, s.acc)

/-- All sequences (`motmetrics4norfair.py` lines 81-138): the text files and the accumulator -/
def motCamAll [Ring K] [LinearOrder K] [FloorRing K] [LinearOrder D] [Top D] [Zero D] [DecidableEq L]
    (cfg : Cfg K L D F X) (fmt : K → Str) (cam : MotCam K Img G T) (sortRows : List (List K) → List (List K))
    (label : L) (extra : X) : Nat → Accum K → List (CamSeq K Img) → Option (List PredFile × Accum K)
  | _, acc, [] => some ([], acc)
  | g, acc, v :: vs =>
    match motCamSeq cfg fmt cam sortRows label extra g acc v with
    | none => none
    | some (g, file, acc) =>
      (motCamAll cfg fmt cam sortRows label extra g acc vs).map fun s => (file :: s.1, s.2)

end Norfair
