import Verif.Model.Distances
import Verif.Model.Drawing
import Verif.Model.FixedCamera
import Mathlib.Analysis.SpecialFunctions.Trigonometric.Basic

/-!
Model of functions of the demos: the projection and the distance of `demos/3d_track/src/utils.py`, the boxes of
`demos/motmetrics4norfair/src/motmetrics4norfair_xyah.py`, and the artificial detections and the ReID distance of
`demos/reid/src`.
-/

namespace Norfair

variable {K : Type}

/-! ### 3D -/

/-- `PixelCoordinatesProjecter` (`3d_track/src/utils.py` lines 9-54): size of the image, focal length and principal
point in NDC and in pixels; two coordinates each -/
structure Projecter (K : Type) where
  size : K × K
  focalNdc : K × K
  principalNdc : K × K
  focalPixel : K × K
  principalPixel : K × K
deriving DecidableEq

/-- `compute_pixel_parameters_from_ndc_parameters` (lines 56-69) -/
def Projecter.ofNdc [Field K] (size focal principal : K × K) : Projecter K :=
  ⟨size, focal, principal, (focal.1 * size.1 / 2, focal.2 * size.2 / 2),
    ((1 - principal.1) * size.1 / 2, (1 - principal.2) * size.2 / 2)⟩

/-- `compute_ndc_parameters_from_pixel_parameters` (lines 71-84) -/
def Projecter.ofPixel [Field K] (size focal principal : K × K) : Projecter K :=
  ⟨size, (2 * focal.1 / size.1, 2 * focal.2 / size.2), (1 - 2 * principal.1 / size.1, 1 - 2 * principal.2 / size.2),
    focal, principal⟩

/-- `PixelCoordinatesProjecter.__init__` (lines 10-54); `none` if it raises: if parameters of both kinds are given, or
only one parameter of a kind (then the conversion computes with `None`). Simplification: parameters are numpy arrays,
and the size of the image is not 0. -/
def Projecter.init [Field K] (size : K × K) (focalNdc principalNdc focalPixel principalPixel : Option (K × K)) :
    Option (Projecter K) :=
  if focalNdc.isNone && principalNdc.isNone && !(focalPixel.isNone && principalPixel.isNone) then
    match focalPixel, principalPixel with
    | some f, some p => some (.ofPixel size f p)
    | _, _ => none
  else if focalPixel.isNone && principalPixel.isNone && !(focalNdc.isNone && principalNdc.isNone) then
    match focalNdc, principalNdc with
    | some f, some p => some (.ofNdc size f p)
    | _, _ => none
  else if focalNdc.isNone && principalNdc.isNone && focalPixel.isNone && principalPixel.isNone then
    some (.ofNdc size (1, 1) (0, 0))
  else none

/-- `eye_2_ndc` for one point (lines 86-97). Simplification: the third coordinate is not 0. -/
def Projecter.eyeToNdc [Field K] (s : Projecter K) (p : K × K × K) : K × K × K :=
  (1 / p.2.2 * (-p.1 * s.focalNdc.1) + s.principalNdc.1, 1 / p.2.2 * (-p.2.1 * s.focalNdc.2) + s.principalNdc.2,
    1 / p.2.2)

/-- `eye_2_pixel` for one point (lines 99-110). Simplification: the third coordinate is not 0. -/
def Projecter.eyeToPixel [Field K] (s : Projecter K) (p : K × K × K) : K × K :=
  (p.1 / p.2.2 * (s.focalPixel.1 * -1) + s.principalPixel.1, p.2.1 / p.2.2 * (s.focalPixel.2 * 1) + s.principalPixel.2)

/-- `ndc_2_pixel` for one point (lines 112-121) -/
def Projecter.ndcToPixel [Field K] (s : Projecter K) (p : K × K × K) : K × K :=
  ((p.1 * 1 + 1) / 2 * s.size.1, (p.2.1 * -1 + 1) / 2 * s.size.2)

/-- `np.linalg.norm(a - b)` of two rows of an array -/
noncomputable def rowDistance (m : Mat ℝ) (i j : Nat) : ℝ := √(∑ k ∈ Finset.range m.cols, (m.val i k - m.val j k) ^ 2)

/-- `scaled_euclidean` (`3d_track/src/utils.py` lines 184-191), as a function of `detection.points` and
`tracked_object.estimate`: raises if the estimate has less than 9 points; division by 0 gives infinity, or NaN for
0 / 0. -/
noncomputable def scaledEuclidean (a b : Pts ℝ) : Option (Option (WithTop ℝ)) :=
  if b.n < 9 then none
  else (meanEuclidean a b).map fun m => m.bind fun x =>
    if rowDistance b.mat 1 8 = 0 then (if x = 0 then none else some ⊤) else some ((x / rowDistance b.mat 1 8 : ℝ) : WithTop ℝ)

/-! ### Boxes given by center, ratio of sides and height -/

/-- center, width / height, height -/
structure Xyah (K : Type) where
  cx : K
  cy : K
  a : K
  h : K
deriving DecidableEq

/-- the conversion of detections (`motmetrics4norfair_xyah.py` lines 155-158). Simplification: the height is not 0. -/
def Box.toXyah [Field K] (b : Box K) : Xyah K :=
  ⟨(b.x1 + b.x2) / 2, (b.y1 + b.y2) / 2, (b.x2 - b.x1) / (b.y2 - b.y1), b.y2 - b.y1⟩

/-- the conversion of estimates (lines 171-180) -/
def Xyah.toBox [Field K] (s : Xyah K) : Box K :=
  let halfHeight := s.h / 2
  let halfWidth := s.a * halfHeight
  ⟨s.cx - halfWidth, s.cy - halfHeight, s.cx + halfWidth, s.cy + halfHeight⟩

/-- `iou_xyah` (lines 88-116); `none` if the denominator is 0 (NaN, the numerator is 0 as well) -/
def iouXyah [Field K] [LinearOrder K] (det obj : Xyah K) : Option K :=
  let height := obj.h
  let width := obj.a * height
  let areaObj := height * width
  let tx1 := obj.cx - width / 2
  let ty1 := obj.cy - height / 2
  let tx2 := obj.cx + width / 2
  let ty2 := obj.cy + height / 2
  let height := det.h
  let width := det.a * height
  let areaDet := height * width
  let dx1 := det.cx - width / 2
  let dy1 := det.cy - height / 2
  let dx2 := det.cx + width / 2
  let dy2 := det.cy + height / 2
  let inter := max (min dy2 ty2 - max ty1 dy1) 0 * max (min dx2 tx2 - max tx1 dx1) 0
  let union := areaDet + areaObj - inter
  if union = 0 then none else some (1 - inter / union)

/-! ### Artificial detections, and the distance of their histograms -/

/-- `collision_detected` (`reid/src/utils.py` lines 33-45), for the boxes from the first to the last point -/
def collision [LinearOrder K] (a b : Box K) : Bool :=
  decide (a.x1 < b.x2) && decide (b.x1 < a.x2) && decide (a.y1 < b.y2) && decide (b.y1 < a.y2)

/-- the loop over the actors in one step of `data_generator` (`reid/src/video_generator.py` lines 143-154), on the true
boxes with their colors and the detections (which are never `None`) of the remaining actors; `gt` are the true boxes so
far. The result is what is appended to `dets_pred`. -/
def generateLoop {C P : Type} [LinearOrder K] : List (Box K × C) → List ((Box K × C) × P) → List P
  | _, [] => []
  | gt, (b, p) :: l =>
    if gt.any fun past => collision b.1 past.1 then generateLoop (gt ++ [b]) l else p :: generateLoop (gt ++ [b]) l

/-- one step of `data_generator` (lines 141-159): the true boxes and the detections -/
def generateStep {C P : Type} [LinearOrder K] (actors : List ((Box K × C) × P)) : List (Box K × C) × List P :=
  ((actors.map (·.1)).reverse, (generateLoop [] actors).reverse)

/-- `Actor` (`reid/src/video_generator.py` lines 39-73), without what is random in its detections -/
structure Actor where
  width : ℝ
  height : ℝ
  omegaX : ℝ
  omegaY : ℝ
  fiX : ℝ
  fiY : ℝ
  canvasSize : ℝ

/-- `Actor.position_at` (lines 75-79) -/
noncomputable def Actor.positionAt (s : Actor) (step : ℝ) : ℝ × ℝ :=
  let half := s.canvasSize / 2 - 50
  (half * Real.cos (s.omegaX * step + s.fiX) + half, half * Real.cos (s.omegaY * step + s.fiY) + half)

/-- `box_gt` of `Actor.detections` (lines 83-84) -/
noncomputable def Actor.trueBox (s : Actor) (step : ℝ) : Box ℝ :=
  let (x, y) := s.positionAt step
  ⟨x, y, x + s.width, y + s.height⟩

/-- `img[int(ymin) : int(ymax), int(xmin) : int(xmax), channel] = feature[channel]` for all channels (lines 196-202) -/
def Image.paint {Px : Type} [Ring K] [LinearOrder K] [FloorRing K] (img : Image Px) (b : Box K) (c : Px) : Image Px :=
  { img with px := fun i j =>
      if (sliceLimit img.h (truncInt b.y1) ≤ i ∧ i < sliceLimit img.h (truncInt b.y2)) ∧
          sliceLimit img.w (truncInt b.x1) ≤ j ∧ j < sliceLimit img.w (truncInt b.x2) then c
      else img.px i j }

/-- one frame of `generate_video` (lines 191-204): the true boxes with their colors, in the order of the generator, on
an empty canvas -/
def paintActors {Px : Type} [Ring K] [LinearOrder K] [FloorRing K] (size : Nat) (empty : Px)
    (gt : List (Box K × Px)) : Image Px :=
  gt.foldl (fun img g => img.paint g.1 g.2) ⟨size, size, fun _ _ => empty⟩

/-- `snd_embedding` (`reid/src/demo.py` lines 16-24): the embedding of the last detection, or else the newest one of the
past detections, which are ordered from the oldest to the newest -/
def newestEmbedding {E : Type} (last : Option E) (past : List (Option E)) : Option E :=
  match last with
  | some e => some e
  | none => past.reverse.findSome? id

/-- `embedding_distance` (`reid/src/demo.py` lines 15-35). `corr` is `cv2.compareHist(..., cv2.HISTCMP_CORREL)`;
`last` and `past` are the embeddings of the last detection and of the past detections of the unmatched object,
`pastNew` those of the object that was just matched and is not initialized. -/
def embeddingDistance {E : Type} [Field K] [LinearOrder K] (corr : E → E → K) (pastNew : List (Option E))
    (last : Option E) (past : List (Option E)) : K :=
  match newestEmbedding last past with
  | none => 1
  | some e =>
    match pastNew.findSome? fun x => x.bind fun y => if 1 - corr e y < 1 / 2 then some (1 - corr e y) else none with
    | some d => d
    | none => 1

end Norfair
