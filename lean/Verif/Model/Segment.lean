import Verif.Model.Letterbox
import Verif.Model.FixedCamera

/-!
Model of how the yolopv2 demo shows the driving area and the lane lines (`demos/yolopv2/src/utils.py` and `demo.py`).

Simplifications: the outputs of the network for area and lines have the size of the image that the network gets; the labels
after interpolation (`torch.nn.functional.interpolate`, then maximum or rounding) are a function of the point in this image.
-/

namespace Norfair

/-- `letterbox(img0, imgsz, stride=32)` for the frame after `cv2.resize(frame, (1280, 720))` (`demo.py` lines 118-119) -/
def demoLetter (imgsz : Nat) : Letter := letterbox ⟨imgsz, imgsz, true, false, true, 32⟩ 720 1280

/-- where the point `p` of the mask is in the image for the network: the mask is twice as large and begins at row `first` -/
def maskPoint (first : Nat) (p : ℚ × ℚ) : ℚ × ℚ := (p.1 / 2, p.2 / 2 + first)

/-- `driving_area_mask` and `lane_line_mask` (`utils.py` lines 46-53 and 115-122): rows `12:372`, twice as large; `height` and
`width` is the size of the image for the network, and `label` are the labels after interpolation, at the points of this image.
A pixel has the label of its center. -/
def segMask (height width : Nat) (label : ℚ × ℚ → ℤ) : Image ℤ :=
  ⟨2 * (sliceLimit height 372 - sliceLimit height 12), 2 * width, fun i j =>
    label (maskPoint (sliceLimit height 12) ((j : ℚ) + 1 / 2, (i : ℚ) + 1 / 2))⟩

/-- `color_seg` at one pixel (`utils.py` lines 314-323): the line goes over the area, and the channels are reversed -/
def segColor (area line : ℤ) : Nat × Nat × Nat :=
  let c : Nat × Nat × Nat := if line = 1 then (255, 0, 0) else if area = 1 then (0, 255, 0) else (0, 0, 0)
  (c.2.2, c.2.1, c.1)

/-- `v * 0.5 + c * 0.5` stored as an integer (`utils.py` line 326) -/
def mixHalf (v c : Nat) : Nat := (v + c) / 2

/-- `show_seg_result(img, (area, line), is_demo=True)` (`utils.py` lines 298-326); `none` if indexing with a mask of another
shape raises `IndexError` -/
def showSegResult (img : Image (Nat × Nat × Nat)) (area line : Image ℤ) : Option (Image (Nat × Nat × Nat)) :=
  if (line.h, line.w) ≠ (area.h, area.w) ∨ (area.h, area.w) ≠ (img.h, img.w) then none
  else some { img with px := fun i j =>
    let c := segColor (area.px i j) (line.px i j)
    let v := img.px i j
    if c.1 + c.2.1 + c.2.2 ≠ 0 then (mixHalf v.1 c.1, mixHalf v.2.1 c.2.1, mixHalf v.2.2 c.2.2) else v }

/-- the frame with area and lines (`demo.py` lines 118-152) for an image size of the network; `img` is the resized frame -/
def segFrame (imgsz : Nat) (img : Image (Nat × Nat × Nat)) (area line : ℚ × ℚ → ℤ) : Option (Image (Nat × Nat × Nat)) :=
  let l := demoLetter imgsz
  showSegResult img (segMask l.outH.toNat l.outW.toNat area) (segMask l.outH.toNat l.outW.toNat line)

/-- a corner of a detection after `scale_coords(img.shape[2:], det[:, :4], img0.shape).round()` (`demo.py` line 150) -/
def demoCorner (imgsz : Nat) (p : ℚ × ℚ) : ℤ × ℤ :=
  let l := demoLetter imgsz
  let q := scalePoint l.outH l.outW 720 1280 none p
  (roundHalfEven q.1, roundHalfEven q.2)

end Norfair
