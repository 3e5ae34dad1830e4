import Verif.Model.DetLoop
import Verif.Model.Nms
import Verif.Model.Segment

/-!
Model of the loop over the frames of the yolopv2 demo (`demos/yolopv2/src/demo.py`).

What the network sees in a frame comes with the frame: the predictions after `split_for_trace_model` and the labels of the
driving area and of the lane lines. Numbers are rational before the corners are rounded.
-/

namespace Norfair

variable {K D F H : Type}

/-- what the network sees in a frame (`demo.py` lines 133-135 and 146-147), in coordinates of the image that it gets; the labels
are those after interpolation, as in `segMask` -/
structure RoadSeen where
  preds : List (YoloPred ℚ)
  area : ℚ × ℚ → ℤ
  line : ℚ × ℚ → ℤ

/-- the arguments of the demo (`demo.py` lines 29-69) that matter, with their defaults -/
structure RoadOpts where
  imgsz : Nat := 640
  conf : ℚ := 3 / 10
  iou : ℚ := 9 / 20
  classes : Option (List Nat) := none
  agnostic : Bool := false

/-- the rows of a frame with the corners in the resized frame (`demo.py` lines 138-151); there are 80 classes, and `multi_label`
is `False` (`utils.py` lines 125-133) -/
def roadRows (o : RoadOpts) (s : RoadSeen) : List (YoloRow ℚ) :=
  (nonMaxSuppression o.conf o.iou o.classes o.agnostic false 80 s.preds).map fun r =>
    let a := demoCorner o.imgsz (r.x1, r.y1)
    let b := demoCorner o.imgsz (r.x2, r.y2)
    { r with x1 := a.1, y1 := a.2, x2 := b.1, y2 := b.2 }

/-- a row with other numbers -/
def YoloRow.cast [Field K] (r : YoloRow ℚ) : YoloRow K := ⟨r.x1, r.y1, r.x2, r.y2, r.conf, r.cls⟩

/-- the frame after `cv2.resize(frame, (1280, 720))` as an image with three channels (`demo.py` line 118) -/
def roadImage (pic : Pic) : Image (Nat × Nat × Nat) :=
  ⟨720, 1280, fun i j => (pic (j, i) 0, pic (j, i) 1, pic (j, i) 2)⟩

/-- a picture in which this image was stored -/
def Image.into (img : Image (Nat × Nat × Nat)) (pic : Pic) : Pic := fun p ch =>
  if 0 ≤ p.1 ∧ p.1 < img.w ∧ 0 ≤ p.2 ∧ p.2 < img.h ∧ ch < 3 then
    let v := img.px p.2.toNat p.1.toNat
    if ch = 0 then v.1 else if ch = 1 then v.2.1 else v.2.2
  else pic p ch

/-- `show_seg_result(img0, (da_seg_mask, ll_seg_mask), is_demo=True)` (`demo.py` line 152), which changes the frame in place. The
loop around it (line 149) has one turn, as there is one image in the batch. -/
def roadShow (imgsz : Nat) (s : RoadSeen) (pic : Pic) : Option Pic :=
  (segFrame imgsz (roadImage pic) s.area s.line).map fun img => img.into pic

variable [Field K] [LinearOrder K] [FloorRing K] [LinearOrder D] [Top D] [Zero D]

/-- the video of the yolopv2 demo with the tracker `cfg` (`demo.py` lines 114-162); `resize` is `cv2.resize` to 1280 x 720 -/
def roadRun (o : RoadOpts) (resize : SeenFrame RoadSeen → Pic) (cfg : Cfg K ℤ D F Unit) (dr : EvalDraw K ℤ H) (g : Nat)
    (frames : List (SeenFrame RoadSeen)) : Option (World K ℤ D F Unit × List Pic) :=
  demoRun cfg (eachOps fun f _ _ act => (roadShow o.imgsz f.seen (resize f)).bind (putTracked dr cfg.flt [720, 1280, 3] act))
    (fun _ f => (yolopConvert ((roadRows o f.seen).map YoloRow.cast)).bind fun ds => ds.mapM RawDet.toDet) 0 () () g frames

end Norfair
