import Verif.Model.YoloDemo
import Verif.Model.DemoDistances

/-!
Model of the loop of the demo with keypoints and boxes (`demos/keypoints_bounding_boxes/src/demo.py`). The two networks are
parameters: what they see in a frame comes with the frame. The detections are in the memory before the loop begins; nothing
reads them before the call that gets them.
-/

namespace Norfair

variable {K D F H : Type}

/-- a frame of the video, of `h` by `w` pixels, what OpenPose sees in it (`None` if nothing), and the boxes of YOLO -/
structure PoseFrame (K : Type) where
  h : Nat
  w : Nat
  pic : Pic
  poses : Option (List (List (K × K × K)))
  boxes : List (YoloBox K)

/-- the shape of the array of a frame -/
def PoseFrame.shape (f : PoseFrame K) : List Nat := [f.h, f.w, 3]

/-- the detections of a frame (`keypoints_bounding_boxes/src/demo.py` lines 203-227): poses, then boxes; `n` is the number of
keypoints of the pose model, 25 in the demo. `none` if it raises. -/
def keyDetections [Field K] [LinearOrder K] [FloorRing K] (n : Nat) (f : PoseFrame K) : Option (List (Det K ℤ Unit)) :=
  (match f.poses with
    | none => some []
    | some ps => openposeConvert n (-1) ps).bind fun a =>
  (keypointsConvert f.boxes).bind fun b => (a ++ b).mapM RawDet.toDet

/-- the frame with the objects (`keypoints_bounding_boxes/src/demo.py` lines 231-240): objects with label -1 by
`draw_tracked_objects`, those with a label above 0 by `draw_tracked_boxes`; `none` if drawing raises -/
def keyPicture [Field K] [LinearOrder K] [FloorRing K] (dr : EvalDraw K ℤ H) (flt : FilterOps K F) (f : PoseFrame K)
    (objs : List (Obj K ℤ D F)) : Option Pic :=
  (drawTrackedObjects dr.env f.shape
    (some ((objs.filter fun o => decide (o.label = -1)).map (Drawable.ofObj flt dr.idOf dr.lab)))
    (color := some (.tup [0, 128, 0]))).bind fun c =>
  (drawTrackedBoxes dr.env f.shape
    (some ((objs.filter fun o => decide (0 < o.label)).map (Drawable.ofObj flt dr.idOf dr.lab)))
    (colorByLabel := true)).map fun c' =>
  c'.render dr.ras f.shape ((c.getD .base).render dr.ras f.shape f.pic)

/-- the loop over the frames (`keypoints_bounding_boxes/src/demo.py` lines 198-242): the last state and the frames written;
`none` if something raises -/
def keyLoop [Field K] [LinearOrder K] [FloorRing K] [LinearOrder D] [Top D] [Zero D] (cfg : Cfg K ℤ D F Unit)
    (dr : EvalDraw K ℤ H) :
    World K ℤ D F Unit → List (PoseFrame K × List Ref) → Option (World K ℤ D F Unit × List Pic)
  | w, [] => some (w, [])
  | w, (f, dets) :: fs =>
    match update cfg w (some dets) 1 none with
    | (_, .error _) => none
    | (w, .ok act) =>
      match keyPicture dr cfg.flt f act with
      | none => none
      | some pic => (keyLoop cfg dr w fs).map fun r => (r.1, pic :: r.2)

/-- one video (`keypoints_bounding_boxes/src/demo.py` lines 185-242) with the tracker `cfg`; `g` is `global_count` -/
def keyRun [Field K] [LinearOrder K] [FloorRing K] [LinearOrder D] [Top D] [Zero D] (cfg : Cfg K ℤ D F Unit)
    (dr : EvalDraw K ℤ H) (n g : Nat) (frames : List (PoseFrame K)) : Option (World K ℤ D F Unit × List Pic) :=
  (frames.mapM (keyDetections n)).bind fun dets =>
    keyLoop cfg dr ⟨listHeap dets.flatten, g, 0, 0, []⟩ (frames.zip (refsFrom 0 dets))

/-- the tracker of the demo (`keypoints_bounding_boxes/src/demo.py` lines 28-33 and 188-196) for a video of this height.
`keypoints_distance` reads the global `KEYPOINT_DIST_THRESHOLD`, which is set after the tracker was made and before the first
frame. -/
noncomputable def keyArgs (flt : FilterOps ℝ F) (height : Nat) : TrackerArgs ℤ F Unit where
  distance := .callable fun d v => (keypointsDistance ((height : ℝ) / 40) d.label d.points d.scores (v.obj.estimate flt)
    v.last.scores).map fun x => x.map ((↑) : ℝ → WithTop ℝ)
  threshold := ((4 / 5 : ℝ) : WithTop ℝ)
  hitCounterMax := 45
  initializationDelay := some 4
  pointwiseHitCounterMax := 10
  detectionThreshold := 3 / 5
  filter := flt

end Norfair
