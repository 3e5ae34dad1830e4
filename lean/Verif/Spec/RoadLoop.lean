import Verif.Model.RoadLoop
import Verif.Spec.DetLoop

/-! C136: the loop of the yolopv2 demo. -/

namespace Norfair.Spec

open Norfair

variable {K D F H : Type}

/-- the nearest whole number to `x` in the range from 0 to `n` -/
def nearest (n : ℤ) (x : ℚ) : ℤ := if x ≤ 0 then 0 else if (n : ℚ) ≤ x then n else roundHalfEven x

/-- the box of a row in the frame of 1280 x 720 pixels: the network gets half of it, below 12 rows -/
def roadBox [Field K] (r : YoloRow ℚ) : YoloBox K :=
  ⟨nearest 1280 (2 * r.x1), nearest 720 (2 * (r.y1 - 12)), nearest 1280 (2 * r.x2), nearest 720 (2 * (r.y2 - 12)), r.conf, r.cls⟩

/-- the detections of a frame -/
def roadDets [Field K] (o : RoadOpts) (s : RoadSeen) : List (Det K ℤ Unit) :=
  (nonMaxSuppression o.conf o.iou o.classes o.agnostic false 80 s.preds).map fun r => boxDet (roadBox r) r.cls

/-- a frame with the lines in red and the area in green: the mean of this color and of the frame where the network saw the center
of the pixel with this label -/
def roadPic (s : RoadSeen) (pic : Pic) : Pic := fun p ch =>
  let c : ℚ × ℚ := (((p.1 : ℚ) + 1 / 2) / 2, ((p.2 : ℚ) + 1 / 2) / 2 + 12)
  if (0 ≤ p.1 ∧ p.1 < 1280) ∧ (0 ≤ p.2 ∧ p.2 < 720) ∧ ch ∈ [0, 1, 2] then
    if s.line c = 1 then (pic p ch + if ch = 2 then 255 else 0) / 2
    else if s.area c = 1 then (pic p ch + if ch = 1 then 255 else 0) / 2
    else pic p ch
  else pic p ch

/-- a frame with lines and area, and the boxes of objects in the colors of their ids over them -/
def roadShown [Field K] [LinearOrder K] [FloorRing K] (dr : EvalDraw K ℤ H) (flt : FilterOps K F) (s : RoadSeen)
    (objs : List (Obj K ℤ D F)) (pic : Pic) : Pic :=
  framed dr.ras (boxWidth K [720, 1280, 3]) (objs.map (objBox dr flt)) (roadPic s pic)

end Norfair.Spec
