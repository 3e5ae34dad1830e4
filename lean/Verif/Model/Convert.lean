import Verif.Model.Utils
import Verif.Model.Metrics
import Verif.Model.Drawing
import Verif.Model.Nms

/-!
Model of the functions of the demos that make detections for the tracker from the output of detectors. Not modelled: the
detectors; what their output looks like is taken from their documentation.
-/

namespace Norfair

variable {K : Type}

/-- a box of a detector: two corners, a score and the number of its class, which is a float in `torch` tensors -/
structure YoloBox (K : Type) where
  x1 : K
  y1 : K
  x2 : K
  y2 : K
  conf : K
  cls : K
deriving DecidableEq

section
variable [Field K]

/-- a row of `yolo_detections.xywh[0]`, as the detector computes it from the corners: center, size, score and class -/
def YoloBox.xywh (b : YoloBox K) : List K :=
  [(b.x1 + b.x2) / 2, (b.y1 + b.y2) / 2, b.x2 - b.x1, b.y2 - b.y1, b.conf, b.cls]

/-- a row of `yolo_detections.xyxy[0]` -/
def YoloBox.xyxy (b : YoloBox K) : List K := [b.x1, b.y1, b.x2, b.y2, b.conf, b.cls]

/-- the detection with two points made from a row `[x1, y1, x2, y2, conf, ...]` (`yolov5/src/demo.py` lines 72-85,
`yolov7/src/demo.py` lines 82-95, `keypoints_bounding_boxes/src/demo.py` lines 109-117) -/
def boxDetection {L : Type} (row : List K) (label : L) : Option (RawDet K L Unit) :=
  mkDetection ⟨[2, 2], [row.getD 0 0, row.getD 1 0, row.getD 2 0, row.getD 3 0]⟩
    (some [row.getD 4 0, row.getD 4 0]) label ()

variable [LinearOrder K] [FloorRing K]

/-- `yolo_detections_to_norfair_detections` (`yolov5/src/demo.py` lines 49-87, `yolov7/src/demo.py` lines 59-97); `none` if
it raises -/
def yoloConvert (track : Str) (bs : List (YoloBox K)) : Option (List (RawDet K ℤ Unit)) :=
  if track = "centroid".toList then
    bs.mapM fun b => mkDetection ⟨[2], [b.xywh.getD 0 0, b.xywh.getD 1 0]⟩ (some [b.xywh.getD 4 0])
      (truncInt (b.xywh.getLast?.getD 0)) ()
  else if track = "bbox".toList then
    bs.mapM fun b => boxDetection b.xyxy (truncInt (b.xyxy.getLast?.getD 0))
  else some []

/-- `yolo_detections_to_norfair_detections` of the demo with keypoints and boxes (`keypoints_bounding_boxes/src/demo.py`
lines 101-119) -/
def keypointsConvert (bs : List (YoloBox K)) : Option (List (RawDet K ℤ Unit)) :=
  bs.mapM fun b => boxDetection b.xyxy (truncInt (b.xyxy.getD 5 0))

/-- `yolo_detections_to_norfair_detections` of the camera motion demo (`camera_motion/src/demo.py` lines 25-49): detections
and boxes. The label is the class as a float. -/
def cameraConvert (trackBoxes : Bool) (bs : List (YoloBox K)) : Option (List (RawDet K K Unit) × List (NdArray K)) :=
  (bs.mapM fun b =>
    let row := b.xyxy
    let label := row.getLast?.getD 0
    if trackBoxes then boxDetection row label
    else mkDetection ⟨[1, 2], [(row.getD 0 0 + row.getD 2 0) / 2, (row.getD 1 0 + row.getD 3 0) / 2]⟩
      (some [row.getD 4 0]) label ()).map fun dets =>
        (dets, bs.map fun b => ⟨[2, 2], [b.xyxy.getD 0 0, b.xyxy.getD 1 0, b.xyxy.getD 2 0, b.xyxy.getD 3 0]⟩)

/-- `yolo_detections_to_norfair_detections` of the YOLO-NAS demo (`yolo_nas/src/demo.py` lines 47-90): outer `none` if it
raises, inner `none` if it returns `None`. The `return` is in the branch of `"bbox"`. Simplification: the output of the
detector has the attribute `xywh` in the first branch, and no class is negative. -/
def nasConvert (names : List Str) (track : Str) (bs : List (YoloBox K)) : Option (Option (List (RawDet K Str Unit))) :=
  if track = "centroid".toList then
    (bs.mapM fun b => mkDetection ⟨[2], [b.xywh.getD 0 0, b.xywh.getD 1 0]⟩ (some [b.xywh.getD 4 0])
      (truncInt (b.xywh.getLast?.getD 0)) ()).map fun _ => none
  else if track = "bbox".toList then
    (bs.mapM fun b => (names[(truncInt b.cls).toNat]?).bind fun name => boxDetection b.xyxy name).map some
  else some none

/-- `get_detections` of the SAHI demo (`sahi/src/demo.py` lines 12-31); the classes are ints -/
def sahiConvert (bs : List (YoloBox K × ℤ)) : Option (List (RawDet K ℤ Unit)) :=
  bs.mapM fun b => boxDetection b.1.xyxy b.2

/-- `yolop_detections_to_norfair_detections` (`yolopv2/src/utils.py` lines 19-39) on the rows of one image -/
def yolopConvert (rows : List (YoloRow K)) : Option (List (RawDet K ℤ Unit)) :=
  rows.mapM fun r => boxDetection [r.x1, r.y1, r.x2, r.y2, r.conf, (r.cls : K)] (truncInt (r.cls : K))

/-- `get_centroid` (`yolov4/src/demo.py` lines 41-46) -/
def yolo4Centroid (b : YoloBox K) (height width : K) : List K :=
  let x1 := b.x1 * width
  let y1 := b.y1 * height
  let x2 := b.x2 * width
  let y2 := b.y2 * height
  [(x1 + x2) / 2, (y1 + y2) / 2]

/-- the detections of the YOLOv4 demo (`yolov4/src/demo.py` lines 71-75); `data` is the box, and there are no labels -/
def yolo4Convert (shape : Nat × Nat) (bs : List (YoloBox K)) : Option (List (RawDet K Unit (YoloBox K))) :=
  (bs.filter fun b => decide (b.cls = 2)).mapM fun b =>
    mkDetection ⟨[2], yolo4Centroid b shape.1 shape.2⟩ none () b

/-- `VEHICLE_CLASSES` (`mmdetection/src/demo.py` lines 25-29) -/
def vehicleClasses (names : List Str) : List Nat :=
  (names.zipIdx.filter fun x =>
    ["car".toList, "motorcycle".toList, "bus".toList, "truck".toList].contains x.1).map (·.2)

/-- the detections of the MMDetection demo (`mmdetection/src/demo.py` lines 42-57); `result` has the boxes of each class -/
def mmConvert (names : List Str) (result : List (List (YoloBox K))) : Option (List (RawDet K Nat Unit)) :=
  (result.zipIdx.mapM fun x =>
    if !(vehicleClasses names).contains x.2 then some []
    else x.1.mapM fun b => mkDetection ⟨[2], [(b.x1 + b.x2) / 2, (b.y1 + b.y2) / 2]⟩ (some [b.conf]) x.2 ()).map
      List.flatten

/-- the detections of the Detectron2 demo (`detectron2/src/demo.py` lines 28-36): the centers of the boxes, of all classes,
without scores and labels -/
def detectronConvert (bs : List (YoloBox K)) : Option (List (RawDet K Unit Unit)) :=
  bs.mapM fun b => mkDetection ⟨[2], [(b.x1 + b.x2) / 2, (b.y1 + b.y2) / 2]⟩ none () ()

/-- one pose of `postprocess` (`profiling/src/utils.py` lines 73-92): `obj[j]` is the number of the peak of keypoint `j`,
negative if it was not found, and `peaks` are the peaks of the keypoints, relative to the image -/
def poseConvert (width height : Nat) (peaks : Nat → Nat → K × K) (obj : List ℤ) : Option (RawDet K Unit Unit) :=
  let found := obj.zipIdx.map fun x =>
    if 0 ≤ x.1 then (((peaks x.2 x.1.toNat).2 * (width : K), (peaks x.2 x.1.toNat).1 * (height : K)), (1 : K))
    else ((0, 0), 0)
  mkDetection ⟨[obj.length, 2], found.flatMap fun x => [x.1.1, x.1.2]⟩ (some (found.map (·.2))) () ()

/-- `postprocess` (`profiling/src/utils.py` lines 65-94). Simplification: keypoints exist, for an array of no points has
another shape. -/
def posesConvert (width height : Nat) (peaks : Nat → Nat → K × K) (objs : List (List ℤ)) :
    Option (List (RawDet K Unit Unit)) := objs.mapM (poseConvert width height peaks)

/-- the detections of the OpenPose demo (`openpose/src/demo.py` lines 110-119, `keypoints_bounding_boxes/src/demo.py` lines
205-217): no detections if all numbers are 0, otherwise the first two columns of each pose, with the third as scores.
Simplification: all poses have `n` points. -/
def openposeConvert {L : Type} (n : Nat) (label : L) (poses : List (List (K × K × K))) :
    Option (List (RawDet K L Unit)) :=
  if poses.all fun p => p.all fun x => decide (x.1 = 0) && decide (x.2.1 = 0) && decide (x.2.2 = 0) then some []
  else poses.mapM fun p =>
    mkDetection ⟨[n, 2], p.flatMap fun x => [x.1, x.2.1]⟩ (some (p.map (·.2.2))) label ()

end

end Norfair
