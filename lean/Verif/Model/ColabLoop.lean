import Verif.Model.CamFilm
import Verif.Model.DetLoop

/-!
Model of the colab demo (`demos/colab/demo.py`, `yolo.py` and `draw.py`). The network is a parameter: what it sees in a frame
comes with the frame.

The detections are in the memory before the loop begins; nothing reads them before the call that gets them.
-/

namespace Norfair

variable {K D F H Img G T : Type}

/-- a frame: its gray image, the picture that is drawn on, and what the network sees in it -/
structure ColabFrame (K Img : Type) where
  img : Img
  pic : Pic
  boxes : List (YoloBox K)

section
variable [Field K] [LinearOrder K] [FloorRing K]

/-- `yolo_detections_to_norfair_detections` (`yolo.py` lines 48-80): two points and two scores in both branches, and no labels;
`none` if it raises -/
def colabConvert (track : Str) (bs : List (YoloBox K)) : Option (List (RawDet K Unit Unit)) :=
  if track = "centroid".toList then
    bs.mapM fun b => mkDetection ⟨[2, 2], [b.xywh.getD 0 0, b.xywh.getD 1 0, b.xywh.getD 0 0, b.xywh.getD 1 0]⟩
      (some [b.xywh.getD 4 0, b.xywh.getD 4 0]) () ()
  else if track = "bbox".toList then bs.mapM fun b => boxDetection b.xyxy ()
  else some []

/-- `draw.py` lines 15-20: detections and objects, drawn on the frame itself; `none` if it raises -/
def colabMarks (dr : EvalDraw K Unit H) (flt : FilterOps K F) (track : Str) (shape : List Nat) (heap : Ref → Det K Unit Unit)
    (dets : List Ref) (act : List (Obj K Unit D F)) (pic : Pic) : Option Pic :=
  if track = "centroid".toList then (putPoints dr shape heap (some dets) pic).bind (putObjects dr flt shape none act)
  else if track = "bbox".toList then (putBoxes dr shape heap dets pic).bind (putTracked dr flt shape act)
  else some pic

/-- `AbsolutePaths(max_history=40, thickness=2)` (`demo.py` line 43); the first field says that paths are drawn (`fix_paths`) -/
def colabPens (K : Type) [Zero K] : CamPens K := { paths := true, history := 40, fixed := 0 }

/-- the new `path_drawer` (`demo.py` line 43) -/
def colabPaths : AbsPaths K H := ⟨none, some 2, fun _ => []⟩

/-- `np.ones(frame.shape[:2], frame.dtype)` (`demo.py` line 54) -/
def onesMask (size : Nat × Nat) : Image Bool := ⟨size.1, size.2, fun _ _ => true⟩

variable [LinearOrder D] [Top D] [Zero D] [DecidableEq H]

/-- the loop over the frames (`demo.py` lines 45-75): the frames written, and whether the loop got to its end -/
def colabFrames (cfg : Cfg K Unit D F Unit) (cam : MotCam K Img G T) (dr : EvalDraw K Unit H) (track : Str) :
    World K Unit D F Unit → MotionEstimator K Img (Image Bool) G → AbsPaths K H → List (ColabFrame K Img × List Ref) →
      List Pic × Bool
  | _, _, _, [] => ([], true)
  | w, e, st, (f, dets) :: fs =>
    let size := cam.size f.img
    let m := e.update cam.flow cam.g0 cam.call f.img (some (onesMask size))
    match update cfg w (some dets) 1 (m.2.map cam.ct) with
    | (_, .error _) => ([], false)
    | (w, .ok act) =>
      match (colabMarks dr cfg.flt track [size.1, size.2, 3] w.heap dets act f.pic).bind fun pic =>
        camPaths dr cfg.flt (colabPens K) size.1 size.2 st (m.2.map cam.ct) act pic with
      | none => ([], false)
      | some q =>
        let out := colabFrames cfg cam dr track w m.1 q.1 fs
        (q.2 :: out.1, out.2)

/-- the demo (`demo.py` lines 15-75) with the tracker `cfg`; `g` is `global_count` -/
def colabRun (cfg : Cfg K Unit D F Unit) (cam : MotCam K Img G T) (dr : EvalDraw K Unit H) (track : Str) (g : Nat)
    (frames : List (ColabFrame K Img)) : List Pic × Bool :=
  match frames.mapM fun f => (colabConvert track f.boxes).bind fun ds => ds.mapM RawDet.toDet with
  | none => ([], false)
  | some dets => colabFrames cfg cam dr track ⟨detHeap () () dets.flatten, g, 0, 0, []⟩ (MotionEstimator.create cam.g0) colabPaths
      (frames.zip (refsFrom 0 dets))

end

/-- the tracker of the demo (`demo.py` lines 12 and 30-38) for a video of this size -/
noncomputable def colabArgs (flt : FilterOps ℝ F) (height width : Nat) : TrackerArgs Unit F Unit where
  distance := .callable fun d v => (normalizedMeanEuclidean height width d.points (v.obj.estimate flt)).map fun x =>
    x.map ((↑) : ℝ → WithTop ℝ)
  threshold := ((2 / 25 : ℝ) : WithTop ℝ)
  filter := flt

end Norfair
