import Verif.Model.DetLoop
import Verif.Spec.DemoLoop
import Verif.Spec.YoloDemo
import Verif.Spec.MotVideo

/-! C133, C134: the loops of the demos with detectors of objects. -/

namespace Norfair.Spec

open Norfair

variable {K L D F X H A : Type}

/-- the calls of the tracker where every frame is looked at -/
def eachCall (dets : SeenFrame A → List (Det K L X)) (f : SeenFrame A) : Option (List (Det K L X)) × Int := (some (dets f), 1)

section
variable [Field K] [LinearOrder K] [FloorRing K]

/-- a detection of the point `(x, y)` -/
def pointDet (x y : K) (scores : Option (List K)) (label : L) (extra : X) : Det K L X :=
  ⟨⟨1, 2, [x, y]⟩, scores, label, extra, ⟨1, 2, [x, y]⟩, none⟩

/-- YOLOv4: the centers of the boxes of class 2, which are relative to the size of the frame -/
def carDets (f : SeenFrame (List (YoloBox K))) : List (Det K Unit (YoloBox K)) :=
  (f.seen.filter fun b => decide (b.cls = 2)).map fun b =>
    pointDet ((b.x1 + b.x2) / 2 * f.w) ((b.y1 + b.y2) / 2 * f.h) none () b

/-- Detectron2: the centers of all boxes -/
def middleDets (bs : List (YoloBox K)) : List (Det K Unit Unit) :=
  bs.map fun b => pointDet ((b.x1 + b.x2) / 2) ((b.y1 + b.y2) / 2) none () ()

/-- MMDetection: the centers of the boxes of the classes that are vehicles, with their scores and classes -/
def vehicleDets (names : List Str) (result : List (List (YoloBox K))) : List (Det K Nat Unit) :=
  result.zipIdx.flatMap fun x =>
    if ∃ n ∈ ["car".toList, "motorcycle".toList, "bus".toList, "truck".toList], names[x.2]? = some n then
      x.1.map fun b => pointDet ((b.x1 + b.x2) / 2) ((b.y1 + b.y2) / 2) (some [b.conf]) x.2 ()
    else []

/-- a frame with the detections, if they are shown, and then the objects, with ids of this thickness -/
def shownPoints (dr : EvalDraw K L H) (flt : FilterOps K F) (shape : List Nat) (thickness : ℤ) (dets : List (Det K L X))
    (objs : List (Obj K L D F)) (pic : Pic) : Pic :=
  (objsOn dr flt 1 shape thickness objs).render dr.ras shape (withDets dr shape dets pic)

/-! ### Boxes -/

/-- the thickness of boxes -/
def boxWidth (K : Type) [Field K] [LinearOrder K] [FloorRing K] (shape : List Nat) : ℤ :=
  truncInt (((shape.foldl max 0 : Nat) : K) / 500)

/-- the box of a detection, in the color of what has no id -/
def detBox (dr : EvalDraw K L H) (d : Det K L X) : List K × Color := (d.points.data, dr.env.palette.default)

/-- a frame with the boxes of detections, and then of objects in the colors of their ids -/
def shownBoxes (dr : EvalDraw K L H) (flt : FilterOps K F) (shape : List Nat) (dets : List (Det K L X))
    (objs : List (Obj K L D F)) (pic : Pic) : Pic :=
  framed dr.ras (boxWidth K shape) (dets.map (detBox dr) ++ objs.map (objBox dr flt)) pic

/-- a frame with the boxes of detections, and then the boxes and the ids of objects -/
def shownIds (dr : EvalDraw K L H) (flt : FilterOps K F) (shape : List Nat) (dets : List (Det K L X))
    (objs : List (Obj K L D F)) (pic : Pic) : Pic :=
  let t := boxWidth K shape
  (objs.foldl (fun (c : Canvas K) o =>
    let z := fun i => truncInt ((o.estimate flt).data.getD i 0)
    (c.rectangle [z 0, z 1] [z 2, z 3] t (idColor dr o)).text (idText dr o)
      (some [z 0 - t / 2, z 1 - t / 2 - 1]) (idColor dr o) none none) .base).render dr.ras shape
    (framed dr.ras t (dets.map (detBox dr)) pic)

/-- a detection with the corners and the score of a box -/
def boxDet (b : YoloBox K) (label : L) : Det K L Unit :=
  ⟨⟨2, 2, [b.x1, b.y1, b.x2, b.y2]⟩, some [b.conf, b.conf], label, (), ⟨2, 2, [b.x1, b.y1, b.x2, b.y2]⟩, none⟩

/-- YOLO-NAS: the boxes with the names of their classes -/
def namedDets (names : List Str) (bs : List (YoloBox K)) : List (Det K Str Unit) :=
  bs.map fun b => boxDet b (names.getD (truncInt b.cls).toNat [])

/-- SAHI: the boxes with their classes -/
def sahiDets (bs : List (YoloBox K × ℤ)) : List (Det K ℤ Unit) := bs.map fun b => boxDet b.1 b.2

/-- the call for a frame with this number -/
def sahiCall (skip : Nat) (f : SeenFrame (List (YoloBox K × ℤ)) × Nat) : Option (List (Det K ℤ Unit)) × Int :=
  if skip ∣ f.2 then (some (sahiDets f.1.seen), skip) else (none, 1)

/-- the detections of the last frame that was looked at -/
def lastDets (skip : Nat) (frames : List (SeenFrame (List (YoloBox K × ℤ)))) (i : Nat) : List (Det K ℤ Unit) :=
  (frames[skip * (i / skip)]?).elim [] fun f => sahiDets f.seen

end

end Norfair.Spec
