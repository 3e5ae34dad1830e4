import Verif.Model.ColabLoop
import Verif.Spec.CamFilm
import Verif.Spec.DetLoop
import Verif.Spec.MotLoop

/-! C140: the colab demo. -/

namespace Norfair.Spec

open Norfair

variable {K D F H Img G T : Type}

section
variable [Field K] [LinearOrder K] [FloorRing K]

/-- the detections of a frame: the center of each box, twice, or its corners, or nothing -/
def colabDets (track : Str) (bs : List (YoloBox K)) : List (Det K Unit Unit) :=
  if track = "centroid".toList then bs.map fun b =>
    let c : Pts K := ⟨2, 2, [(b.x1 + b.x2) / 2, (b.y1 + b.y2) / 2, (b.x1 + b.x2) / 2, (b.y1 + b.y2) / 2]⟩
    ⟨c, some [b.conf, b.conf], (), (), c, none⟩
  else if track = "bbox".toList then bs.map fun b => boxDet b ()
  else []

/-- the motions of the camera: what the estimator makes of the images alone; nothing is masked -/
def colabMotions (cam : MotCam K Img G T) (frames : List (ColabFrame K Img)) : List (Option T) :=
  (MotionEstimator.create cam.g0).outputs cam.flow cam.g0 cam.call
    (frames.map fun f => (f.img, some ⟨(cam.size f.img).1, (cam.size f.img).2, fun _ _ => true⟩))

/-- the objects that a new tracker returns for the frames, with these detections and motions, and its last state -/
def colabTrack [LinearOrder D] [Top D] [Zero D] (cfg : Cfg K Unit D F Unit) (cam : MotCam K Img G T) (track : Str) (g : Nat)
    (frames : List (ColabFrame K Img)) : Option (World K Unit D F Unit × List (List (Obj K Unit D F))) :=
  let dets := frames.map fun f => colabDets track f.boxes
  trackAll cfg ⟨detHeap () () dets.flatten, g, 0, 0, []⟩ ((refsFrom 0 dets).zip ((colabMotions cam frames).map (Option.map cam.ct)))

/-- a frame with its detections, the objects, and the paths of the objects; `old` are the objects of the frames before, newest
first -/
def colabPic (dr : EvalDraw K Unit H) (flt : FilterOps K F) (see : T → K × K → K × K) (track : Str) (size : Nat × Nat)
    (f : ColabFrame K Img) (motion : Option T) (objs : List (Obj K Unit D F)) (old : List (List (Obj K Unit D F))) : Pic :=
  let shape := [size.1, size.2, 3]
  let dets := colabDets track f.boxes
  withPaths dr flt 2 (fun p => motion.elim p fun t => see t p) size.1 40 objs old
    (if track = "centroid".toList then withObjs dr flt 2 shape objs (withDets dr shape dets f.pic)
    else if track = "bbox".toList then shownBoxes dr flt shape dets objs f.pic else f.pic)

/-- the path of a live object can not be drawn without a motion -/
def stuck (motion : Option T) (objs : List (Obj K Unit D F)) : Bool := motion.isNone && objs.any alive

end

end Norfair.Spec
