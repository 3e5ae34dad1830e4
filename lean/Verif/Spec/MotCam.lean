import Verif.Model.MotCam
import Verif.Spec.MotLoop

/-! C107: the evaluation on MOTChallenge data with camera motion. -/

namespace Norfair.Spec

open Norfair

variable {K L D F X Img G T : Type}

/-- the box with these two corners in the rows of the array covers the pixel in row `y` and column `x`, which takes the
place from `x` to `x + 1` and from `y` to `y + 1`: in each direction, the pixel ends after the first corner and not
after the second one -/
def Covers [Ring K] [LinearOrder K] (p : Pts K) (y x : Nat) : Prop :=
  ∃ x0 y0 x1 y1, p.data = [x0, y0, x1, y1] ∧ (x0 < (x : K) + 1 ∧ (x : K) + 1 ≤ x1) ∧ y0 < (y : K) + 1 ∧ (y : K) + 1 ≤ y1

/-- a box not outside the picture at the left or at the top -/
def WithinTopLeft [Ring K] [LinearOrder K] (p : Pts K) : Prop :=
  ∃ x0 y0 x1 y1, p.data = [x0, y0, x1, y1] ∧ -1 < x0 ∧ -1 < y0 ∧ -1 < x1 ∧ -1 < y1

/-- `goodFeaturesToTrack` finds points only in pixels where the mask is 1 -/
def Respects [Ring K] (fl : Flow K Img (Image Bool)) : Prop :=
  ∀ img (m : Image Bool) l, fl.corners img (some m) = some l → ∀ p ∈ l,
    ∃ y x : Nat, p = ((x : K), (y : K)) ∧ y < m.h ∧ x < m.w ∧ m.px y x = true

/-- the state of a motion estimator before each frame, and the one after the last frame -/
def estStates {Mask : Type} (fl : Flow K Img Mask) (g0 : G)
    (call : G → Option (List (K × K)) → Option (List (K × K)) → Option (G × Bool × Option T)) :
    MotionEstimator K Img Mask G → List (Img × Option Mask) → List (MotionEstimator K Img Mask G)
  | s, [] => [s]
  | s, f :: fs => s :: estStates fl g0 call (s.update fl g0 call f.1 f.2).1 fs

/-- `boxes k` are the boxes that frame `k` of a sequence should be masked with: those of its detections, and the
estimates of the objects that the call of `update` for the frame before has returned -/
def maskBoxes [Ring K] [LinearOrder K] (fo : FilterOps K F) (dets : List (List (ParsedDet K)))
    (acts : List (List (Obj K L D F))) (k : Nat) : List (Pts K) × List (Pts K) :=
  ((dets[k]?.getD []).map fun d => ⟨2, 2, d.points.flatten⟩, (([] :: acts)[k]?.getD []).map (·.estimate fo))

/-- `v'` is the sequence `v` with what the motion estimator returns for its frames with these masks; the masks are
those of the detections and of the objects that the tracker returns for `v'`. -/
structure Filmed [Ring K] [LinearOrder K] [FloorRing K] [LinearOrder D] [Top D] [Zero D] [DecidableEq L]
    (cfg : Cfg K L D F X) (cam : MotCam K Img G T) (sortRows : List (List K) → List (List K)) (label : L) (extra : X)
    (g n : Nat) (v : CamSeq K Img) (masks : List (Image Bool)) (v' : MotSeq K) : Prop where
  path : v'.path = v.path
  length : v'.length = v.length
  rows : v'.rows = v.rows
  count : masks.length = n
  cts : v'.cts = ((MotionEstimator.create cam.g0).outputs cam.flow cam.g0 cam.call
    (v.frames.zip (masks.map some))).map (Option.map cam.ct)
  mask : ∀ w' acts, seqTrack cfg sortRows label extra g v' n = some (w', acts) → ∀ k img, v.frames[k]? = some img →
    let boxes := maskBoxes cfg.flt (seqDets sortRows v.rows n) acts k
    masks[k]? = some (buildMask (cam.size img) boxes.1 boxes.2)

/-- A sequence of `n` frames with as many pictures: at least two detections in the file, in rows of the same length,
which is at least 7 -/
structure CamOk (v : CamSeq K Img) (n : Nat) : Prop where
  rows : 2 ≤ v.rows.length
  width : ∃ m, 7 ≤ m ∧ ∀ r ∈ v.rows, r.length = m
  length : v.length = .int n
  pos : 1 ≤ n
  frames : v.frames.length = n

end Norfair.Spec
