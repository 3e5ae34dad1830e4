import Verif.Model.DemoLoop
import Verif.Model.YoloDemo

/-!
Model of the loops over the frames of the demos with detectors of objects: YOLOv4, Detectron2, MMDetection, YOLOv7, YOLO-NAS
and SAHI. What the detector sees in a frame comes with the frame.
-/

namespace Norfair

variable {K L D F X H A : Type}

/-- a frame of this height and width, and what the detector sees in it -/
structure SeenFrame (A : Type) where
  h : Nat
  w : Nat
  pic : Pic
  seen : A

/-- `frame.shape` -/
def SeenFrame.shape (f : SeenFrame A) : List Nat := [f.h, f.w, 3]

/-- loops in which every frame is looked at, drawn on and written: `tracked_objects = tracker.update(detections=detections)`,
then `shot`, which gets the detections and the objects, then `video.write(frame)` (`yolov4/src/demo.py` lines 69-80,
`detectron2/src/demo.py` lines 25-39, `mmdetection/src/demo.py` lines 40-62, `yolov7/src/demo.py` lines 151-170) -/
def eachOps (shot : SeenFrame A → (Ref → Det K L X) → List Ref → List (Obj K L D F) → Option Pic) :
    DemoOps K L D F X (SeenFrame A × List Ref) Unit where
  call _ _ x := ((), some x.2, 1)
  shot _ _ x heap act := (shot x.1 heap x.2 act).map some

section
variable [Field K] [LinearOrder K] [FloorRing K]

/-- `norfair.draw_boxes(frame, detections)` -/
def putBoxes (dr : EvalDraw K L H) (shape : List Nat) (heap : Ref → Det K L X) (dets : List Ref) (pic : Pic) : Option Pic :=
  (drawBoxes dr.env shape {} (some (dets.map fun r => Drawable.ofDet dr.lab (heap r)))).map fun c => c.render dr.ras shape pic

/-- `norfair.draw_tracked_boxes(frame, tracked_objects)` -/
def putTracked (dr : EvalDraw K L H) (flt : FilterOps K F) (shape : List Nat) (objs : List (Obj K L D F)) (pic : Pic) :
    Option Pic :=
  (drawTrackedBoxes dr.env shape (some (objs.map (Drawable.ofObj flt dr.idOf dr.lab)))).map fun c =>
    c.render dr.ras shape pic

/-- `norfair.draw_boxes(frame, tracked_objects, draw_ids=True)` -/
def putIdBoxes (dr : EvalDraw K L H) (flt : FilterOps K F) (shape : List Nat) (objs : List (Obj K L D F)) (pic : Pic) :
    Option Pic :=
  (drawBoxes dr.env shape { drawIds := true } (some (objs.map (Drawable.ofObj flt dr.idOf dr.lab)))).map fun c =>
    c.render dr.ras shape pic

variable [LinearOrder D] [Top D] [Zero D]

/-- one video of the YOLOv4 demo with the tracker `cfg` (`yolov4/src/demo.py` lines 69-80) -/
def yolo4Run (cfg : Cfg K Unit D F (YoloBox K)) (dr : EvalDraw K Unit H) (g : Nat) (frames : List (SeenFrame (List (YoloBox K)))) :
    Option (World K Unit D F (YoloBox K) × List Pic) :=
  demoRun cfg (eachOps fun f heap refs act =>
      (putPoints dr f.shape heap (some refs) f.pic).bind (putObjects dr cfg.flt f.shape none act))
    (fun _ f => (yolo4Convert (f.h, f.w) f.seen).bind fun ds => ds.mapM RawDet.toDet) () ⟨0, 0, 0, 0, 0, 0⟩ () g frames

/-- the video of the Detectron2 demo with the tracker `cfg` (`detectron2/src/demo.py` lines 25-39) -/
def detectronRun (cfg : Cfg K Unit D F Unit) (dr : EvalDraw K Unit H) (g : Nat) (frames : List (SeenFrame (List (YoloBox K)))) :
    Option (World K Unit D F Unit × List Pic) :=
  demoRun cfg (eachOps fun f _ _ act => putObjects dr cfg.flt f.shape (some 2) act f.pic)
    (fun _ f => (detectronConvert f.seen).bind fun ds => ds.mapM RawDet.toDet) () () () g frames

/-- one video of the MMDetection demo with the tracker `cfg` (`mmdetection/src/demo.py` lines 40-62, and the same for one video in
`mmdetection/mmdetection_cars.py` lines 34-55); `names` are the names of the classes, and the detector gives boxes for each class -/
def mmRun (names : List Str) (cfg : Cfg K Nat D F Unit) (dr : EvalDraw K Nat H) (g : Nat)
    (frames : List (SeenFrame (List (List (YoloBox K))))) : Option (World K Nat D F Unit × List Pic) :=
  demoRun cfg (eachOps fun f _ _ act => putObjects dr cfg.flt f.shape none act f.pic)
    (fun _ f => (mmConvert names f.seen).bind fun ds => ds.mapM RawDet.toDet) 0 () () g frames

/-- one video of the YOLOv7 demo with the tracker `cfg` (`yolov7/src/demo.py` lines 151-170) -/
def yolo7Run (track : Str) (cfg : Cfg K ℤ D F Unit) (dr : EvalDraw K ℤ H) (g : Nat)
    (frames : List (SeenFrame (List (YoloBox K)))) : Option (World K ℤ D F Unit × List Pic) :=
  demoRun cfg (eachOps fun f heap refs act =>
      if track = "centroid".toList then
        (putPoints dr f.shape heap (some refs) f.pic).bind (putObjects dr cfg.flt f.shape none act)
      else if track = "bbox".toList then
        (putBoxes dr f.shape heap refs f.pic).bind (putTracked dr cfg.flt f.shape act)
      else some f.pic)
    (fun _ f => (yoloConvert track f.seen).bind fun ds => ds.mapM RawDet.toDet) 0 () () g frames

/-- the loop of the YOLO-NAS demo (`yolo_nas/src/demo.py` lines 142-161). Where `yolo_detections_to_norfair_detections` returns
`None`, this is what `update` and `draw_points` get. -/
def nasOps (names : List Str) (track : Str) (dr : EvalDraw K Str H) (flt : FilterOps K F) :
    DemoOps K Str D F Unit (SeenFrame (List (YoloBox K)) × List Ref) Unit where
  call _ _ x := ((), ((nasConvert names track x.1.seen).getD none).map fun _ => x.2, 1)
  shot _ _ x heap act :=
    (if track = "centroid".toList then
      (putPoints dr x.1.shape heap (((nasConvert names track x.1.seen).getD none).map fun _ => x.2) x.1.pic).bind
        (putObjects dr flt x.1.shape none act)
    else if track = "bbox".toList then
      (putBoxes dr x.1.shape heap x.2 x.1.pic).bind (putIdBoxes dr flt x.1.shape act)
    else some x.1.pic).map some

/-- one video of the YOLO-NAS demo with the tracker `cfg` (`yolo_nas/src/demo.py` lines 142-161) -/
def nasRun (names : List Str) (track : Str) (cfg : Cfg K Str D F Unit) (dr : EvalDraw K Str H) (g : Nat)
    (frames : List (SeenFrame (List (YoloBox K)))) : Option (World K Str D F Unit × List Pic) :=
  demoRun cfg (nasOps names track dr cfg.flt)
    (fun _ f => (nasConvert names track f.seen).bind fun ds => (ds.getD []).mapM RawDet.toDet) [] () () g frames

/-- the loop of `main` of the SAHI demo (`sahi/src/demo.py` lines 58-79). The variable `detections` keeps its value in frames
that are skipped; it is `none` before the first frame. Simplification: `skip_period` is positive. -/
def sahiOps (dr : EvalDraw K ℤ H) (flt : FilterOps K F) (skip : Nat) :
    DemoOps K ℤ D F Unit (SeenFrame (List (YoloBox K × ℤ)) × List Ref) (Option (List Ref)) where
  call st i x := if i % skip = 0 then (some x.2, some x.2, skip) else (st, none, 1)
  shot st _ x heap act := st.bind fun dets =>
    ((putBoxes dr x.1.shape heap dets x.1.pic).bind (putTracked dr flt x.1.shape act)).map some

/-- `main` of the SAHI demo with the tracker `cfg` (`sahi/src/demo.py` lines 58-79) -/
def sahiRun (cfg : Cfg K ℤ D F Unit) (dr : EvalDraw K ℤ H) (skip g : Nat) (frames : List (SeenFrame (List (YoloBox K × ℤ)))) :
    Option (World K ℤ D F Unit × List Pic) :=
  demoRun cfg (sahiOps dr cfg.flt skip) (fun i f =>
      if i % skip = 0 then (sahiConvert f.seen).bind fun ds => ds.mapM RawDet.toDet else some []) 0 () none g frames

end

/-- `Tracker(distance_function="euclidean", distance_threshold=thr, detection_threshold=detThr)` with the defaults of `Tracker`:
30 in the YOLOv4 and YOLOv7 demos (`yolov4/src/demo.py` lines 13 and 64-67, `yolov7/src/demo.py` lines 13 and 139-150), 20 in the
others, with 0.6 for the detections of MMDetection (`detectron2/src/demo.py` line 23, `mmdetection/src/demo.py` lines 34-36 and
`mmdetection/mmdetection_cars.py` lines 27-29) -/
noncomputable def centerArgs (flt : FilterOps ℝ F) (thr detThr : ℝ) : TrackerArgs L F X where
  distance := .name "euclidean"
  threshold := (thr : WithTop ℝ)
  detectionThreshold := detThr
  filter := flt

/-- the tracker of the demos with boxes: `Tracker(distance_function="iou", distance_threshold=thr)` with the defaults
(`yolov7/src/demo.py` lines 12 and 139-150, `yolo_nas/src/demo.py` lines 129-139), or with the arguments of `main` of the SAHI demo
(`sahi/src/demo.py` lines 47-53) -/
noncomputable def boxArgs (flt : FilterOps ℝ F) (thr : ℝ) (hits : Int := 15) (delay : Option Int := none) :
    TrackerArgs L F X where
  distance := .name "iou"
  threshold := (thr : WithTop ℝ)
  hitCounterMax := hits
  initializationDelay := delay
  filter := flt

end Norfair
