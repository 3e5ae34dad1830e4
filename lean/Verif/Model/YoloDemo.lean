import Verif.Model.Convert
import Verif.Model.MotVideo
import Verif.Model.Distances

/-!
Model of the loop of the YOLOv5 demo (`demos/yolov5/src/demo.py`). The network is a parameter: what it sees in a frame comes
with the frame.

The detections are in the memory before the loop begins; nothing reads them before the call that gets them.
-/

namespace Norfair

variable {K D F H : Type}

/-- a frame of the video and what the network sees in it -/
structure NetFrame (K : Type) where
  shape : List Nat
  pic : Pic
  boxes : List (YoloBox K)

/-- a memory with these detections at 0, 1, 2, ... -/
def listHeap [Zero K] (ds : List (Det K ℤ Unit)) : Ref → Det K ℤ Unit :=
  fun r => ds.getD r ⟨⟨0, 0, []⟩, none, 0, (), ⟨0, 0, []⟩, none⟩

/-- the frame with the objects (`yolov5/src/demo.py` lines 153-156); `none` if drawing raises -/
def yoloPicture [Field K] [LinearOrder K] [FloorRing K] (dr : EvalDraw K ℤ H) (flt : FilterOps K F) (track : Str)
    (f : NetFrame K) (objs : List (Obj K ℤ D F)) : Option Pic :=
  let ds := some (objs.map (Drawable.ofObj flt dr.idOf dr.lab))
  if track = "centroid".toList then
    (drawPoints dr.env f.shape {} ds).map fun c => (c.getD .base).render dr.ras f.shape f.pic
  else if track = "bbox".toList then
    (drawBoxes dr.env f.shape {} ds).map fun c => c.render dr.ras f.shape f.pic
  else some f.pic

/-- the loop over the frames (`yolov5/src/demo.py` lines 141-157): the last state and the frames written; `none` if something
raises -/
def yoloLoop [Field K] [LinearOrder K] [FloorRing K] [LinearOrder D] [Top D] [Zero D] (cfg : Cfg K ℤ D F Unit)
    (dr : EvalDraw K ℤ H) (track : Str) :
    World K ℤ D F Unit → List (NetFrame K × List Ref) → Option (World K ℤ D F Unit × List Pic)
  | w, [] => some (w, [])
  | w, (f, dets) :: fs =>
    match update cfg w (some dets) 1 none with
    | (_, .error _) => none
    | (w, .ok act) =>
      match yoloPicture dr cfg.flt track f act with
      | none => none
      | some pic => (yoloLoop cfg dr track w fs).map fun r => (r.1, pic :: r.2)

/-- one video (`yolov5/src/demo.py` lines 127-157) with the tracker `cfg`; `g` is `global_count` -/
def yoloRun [Field K] [LinearOrder K] [FloorRing K] [LinearOrder D] [Top D] [Zero D] (cfg : Cfg K ℤ D F Unit)
    (dr : EvalDraw K ℤ H) (track : Str) (g : Nat) (frames : List (NetFrame K)) :
    Option (World K ℤ D F Unit × List Pic) :=
  (frames.mapM fun f => (yoloConvert track f.boxes).bind fun ds => ds.mapM RawDet.toDet).bind fun dets =>
    yoloLoop cfg dr track ⟨listHeap dets.flatten, g, 0, 0, []⟩ (frames.zip (refsFrom 0 dets))

/-- `Tracker(distance_function=distance_function, distance_threshold=distance_threshold)` with the defaults of `Tracker`
(`yolov5/src/demo.py` lines 10-11 and 129-139) -/
noncomputable def yoloArgs (flt : FilterOps ℝ F) (track : Str) : TrackerArgs ℤ F Unit where
  distance := .name (if track = "bbox".toList then "iou" else "euclidean")
  threshold := if track = "bbox".toList then ((7 / 10 : ℝ) : WithTop ℝ) else ((30 : ℝ) : WithTop ℝ)
  filter := flt

end Norfair
