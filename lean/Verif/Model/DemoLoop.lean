import Verif.Model.KeyLoop
import Verif.Model.Demos

/-!
Model of the loops over the frames of further demos. They have in common that every frame leads to one call of
`Tracker.update`, then something is drawn on the frame, and it is written to the output video or not.

Not modelled: the detectors. What they see in a frame comes with the frame. The detections are in the memory before the loop
begins; nothing reads them before the call that gets them.
-/

namespace Norfair

variable {K L D F X H α S : Type}

/-- What a demo does with frame `x`, the `i`-th one. `call` is what `Tracker.update` gets: detections and period; and the
variables of the demo afterwards. `shot` is what is done with the returned objects: outer `none` if drawing raises, inner `none`
if the frame is not written. -/
structure DemoOps (K L D F X α S : Type) where
  call : S → Nat → α → S × Option (List Ref) × Int
  shot : S → Nat → α → (Ref → Det K L X) → List (Obj K L D F) → Option (Option Pic)

/-- the loop: the last state and the frames that were written; `none` if something raises -/
def demoLoop [Zero K] [LinearOrder K] [LinearOrder D] [Top D] [Zero D] [DecidableEq L] (cfg : Cfg K L D F X)
    (ops : DemoOps K L D F X α S) : Nat → S → World K L D F X → List α → Option (World K L D F X × List Pic)
  | _, _, w, [] => some (w, [])
  | i, st, w, x :: xs =>
    match update cfg w (ops.call st i x).2.1 (ops.call st i x).2.2 none with
    | (_, .error _) => none
    | (w, .ok act) =>
      match ops.shot (ops.call st i x).1 i x w.heap act with
      | none => none
      | some shot => (demoLoop cfg ops (i + 1) (ops.call st i x).1 w xs).map fun r => (r.1, shot.toList ++ r.2)

/-- a memory with these detections at 0, 1, 2, ... -/
def detHeap (label : L) (extra : X) (ds : List (Det K L X)) : Ref → Det K L X :=
  fun r => ds.getD r ⟨⟨0, 0, []⟩, none, label, extra, ⟨0, 0, []⟩, none⟩

/-- one video: `conv` makes the detections of a frame (`none` if it raises), `st` are the variables of the demo before the
first frame, and `g` is `global_count` -/
def demoRun [Zero K] [LinearOrder K] [LinearOrder D] [Top D] [Zero D] [DecidableEq L] (cfg : Cfg K L D F X)
    (ops : DemoOps K L D F X (α × List Ref) S) (conv : Nat → α → Option (List (Det K L X))) (label : L) (extra : X) (st : S)
    (g : Nat) (frames : List α) : Option (World K L D F X × List Pic) :=
  (frames.zipIdx.mapM fun y => conv y.2 y.1).bind fun dets =>
    demoLoop cfg ops 0 st ⟨detHeap label extra dets.flatten, g, 0, 0, []⟩ (frames.zip (refsFrom 0 dets))

variable [Field K] [LinearOrder K] [FloorRing K]

/-- `norfair.draw_points(frame, detections)` on a frame of this shape; `detections` may be `None`. `none` if it raises. -/
def putPoints (dr : EvalDraw K L H) (shape : List Nat) (heap : Ref → Det K L X) (dets : Option (List Ref)) (pic : Pic) :
    Option Pic :=
  (drawPoints dr.env shape {} (dets.map fun l => l.map fun r => Drawable.ofDet dr.lab (heap r))).map fun c =>
    (c.getD .base).render dr.ras shape pic

/-- `norfair.draw_tracked_objects(frame, objects, id_thickness=thickness)` -/
def putObjects (dr : EvalDraw K L H) (flt : FilterOps K F) (shape : List Nat) (thickness : Option ℤ)
    (objs : List (Obj K L D F)) (pic : Pic) : Option Pic :=
  (drawTrackedObjects dr.env shape (some (objs.map (Drawable.ofObj flt dr.idOf dr.lab))) (idThickness := thickness)).map
    fun c => (c.getD .base).render dr.ras shape pic

/-! ### OpenPose -/

/-- the detections made in frame `i` (`openpose/src/demo.py` lines 100-119): none in frames that are skipped or in which no
pose was found. There are no labels. `none` if it raises. -/
def openDetections (n skip i : Nat) (f : PoseFrame K) : Option (List (Det K Unit Unit)) :=
  if i % skip = 0 then
    match f.poses with
    | none => some []
    | some ps => (openposeConvert n () ps).bind fun ds => ds.mapM RawDet.toDet
  else some []

/-- the loop of the OpenPose demo (`openpose/src/demo.py` lines 99-128). Where OpenPose returns `None`, the loop continues
with the next frame (line 108). The boxes of `PoseFrame` are not used. Simplification: `skip` is positive. -/
def openOps (dr : EvalDraw K Unit H) (flt : FilterOps K F) (skip : Nat) :
    DemoOps K Unit D F Unit (PoseFrame K × List Ref) Unit where
  call _ i x := ((), if i % skip = 0 then x.1.poses.map fun _ => x.2 else none, skip)
  shot _ i x heap act :=
    if i % skip = 0 then
      match x.1.poses with
      | none => some none
      | some _ =>
        ((putPoints dr x.1.shape heap (some x.2) x.1.pic).bind (putObjects dr flt x.1.shape none act)).map some
    else (putObjects dr flt x.1.shape none act x.1.pic).map some

/-- one video of the OpenPose demo with the tracker `cfg` (`openpose/src/demo.py` lines 82-128); `n` is the number of keypoints -/
def openRun [LinearOrder D] [Top D] [Zero D] (cfg : Cfg K Unit D F Unit) (dr : EvalDraw K Unit H) (n skip g : Nat)
    (frames : List (PoseFrame K)) : Option (World K Unit D F Unit × List Pic) :=
  demoRun cfg (openOps dr cfg.flt skip) (openDetections n skip) () () () g frames

/-- the tracker of the OpenPose demo (`openpose/src/demo.py` lines 25-29 and 85-97) for a video of this height -/
noncomputable def openArgs (flt : FilterOps ℝ F) (height : Nat) : TrackerArgs Unit F Unit where
  distance := .callable fun d v => (keypointsVoting ((height : ℝ) / 40) (1 / 10) d.points d.scores (v.obj.estimate flt)
    v.last.scores).map fun x => x.map ((↑) : ℝ → WithTop ℝ)
  threshold := ((2 / 5 : ℝ) : WithTop ℝ)
  hitCounterMax := 30
  initializationDelay := some 4
  pointwiseHitCounterMax := 10
  detectionThreshold := 1 / 10
  filter := flt

/-! ### Profiling -/

/-- a frame of the profiling demo: the peaks of the keypoints, relative to the image, and for each pose the numbers of its
peaks -/
structure PeakFrame (K : Type) where
  h : Nat
  w : Nat
  pic : Pic
  peaks : Nat → Nat → K × K
  objs : List (List ℤ)

/-- the detections made in frame `i` (`profiling/src/demo.py` lines 46-51), for a video of this size -/
def profDetections (width height skip i : Nat) (f : PeakFrame K) : Option (List (Det K Unit Unit)) :=
  if i % skip = 0 then (posesConvert width height f.peaks f.objs).bind fun ds => ds.mapM RawDet.toDet else some []

/-- the loop of `process_video` (`profiling/src/demo.py` lines 43-69), with `create_video`. Not modelled: the measured times.
Simplification: the period is positive. -/
def profOps (dr : EvalDraw K Unit H) (flt : FilterOps K F) (skip : Nat) (create : Bool) :
    DemoOps K Unit D F Unit (PeakFrame K × List Ref) Unit where
  call _ i x := if i % skip = 0 then ((), some x.2, skip) else ((), none, 1)
  shot _ _ x _ act := if create then (putObjects dr flt [x.1.h, x.1.w, 3] none act x.1.pic).map some else some none

/-- `process_video` with the tracker `cfg` (`profiling/src/demo.py` lines 27-75). For a video without frames the mean of the
times is `0 / 0`, which raises (line 73). -/
def profRun [LinearOrder D] [Top D] [Zero D] (cfg : Cfg K Unit D F Unit) (dr : EvalDraw K Unit H) (width height skip : Nat)
    (create : Bool) (g : Nat) (frames : List (PeakFrame K)) : Option (World K Unit D F Unit × List Pic) :=
  (demoRun cfg (profOps dr cfg.flt skip create) (profDetections width height skip) () () () g frames).bind fun r =>
    if frames.length = 0 then none else some r

/-- the tracker of the profiling demo (`profiling/src/utils.py` lines 33-39 and 98-106, `profiling/src/demo.py` lines 205-216);
`vote` if the distance function is `"keypoints_vote"`, otherwise it is the normalized mean distance for this size -/
noncomputable def profArgs (flt : FilterOps ℝ F) (vote : Bool) (width height : Nat) : TrackerArgs Unit F Unit where
  distance := .callable fun d v =>
    (if vote then rescaledVote d.points d.scores (v.obj.estimate flt) v.last.scores
     else profilingEuclidean width height d.points (v.obj.estimate flt)).map fun x => x.map ((↑) : ℝ → WithTop ℝ)
  threshold := ((1 / 5 : ℝ) : WithTop ℝ)
  hitCounterMax := 20
  initializationDelay := some 3
  pointwiseHitCounterMax := 6
  detectionThreshold := 1 / 100
  filter := flt

end Norfair
