import Verif.Model.DemoLoop

/-!
Model of the part of `demos/alphapose/writer.py` that uses norfair: `DataWriter.update` gets one frame after the other from
AlphaPose, with the poses found in it, tracks them and writes the frames.

Not modelled: AlphaPose itself, the queue between its processes, and the list of results for the json file. What is found
in a frame comes with the frame: `none` for a frame without boxes (line 166), otherwise the poses left by `pose_nms`, each
with place and score of its keypoints.
-/

namespace Norfair

variable {K D F H : Type}

section
variable [Field K] [LinearOrder K] [FloorRing K]

/-- the detections of a frame (`alphapose/writer.py` lines 268-274), with `n` keypoints each; `none` if it raises.
Simplification: there are at least two keypoints (`squeeze` in line 271). -/
def alphaDetections (n : Nat) (f : PoseFrame K) : Option (List (Det K Unit Unit)) :=
  ((f.poses.getD []).mapM fun p =>
    mkDetection ⟨[n, 2], p.flatMap fun x => [x.1, x.2.1]⟩ (some (p.map (·.2.2))) () ()).bind fun ds => ds.mapM RawDet.toDet

/-- the loop of `DataWriter.update` (`alphapose/writer.py` lines 140-287) with one of `save_img`, `save_video` and `vis`: the
last state and what was given to `write_image`; `none` if something raises. In frames without boxes the tracker is not
called. -/
def alphaLoop [LinearOrder D] [Top D] [Zero D] (cfg : Cfg K Unit D F Unit) (dr : EvalDraw K Unit H) :
    World K Unit D F Unit → List (PoseFrame K × List Ref) → Option (World K Unit D F Unit × List Pic)
  | w, [] => some (w, [])
  | w, (f, refs) :: xs =>
    match f.poses with
    | none => (alphaLoop cfg dr w xs).map fun r => (r.1, f.pic :: r.2)
    | some _ =>
      match update cfg w (some refs) 1 none with
      | (_, .error _) => none
      | (w, .ok act) =>
        match putObjects dr cfg.flt f.shape none act f.pic with
        | none => none
        | some pic => (alphaLoop cfg dr w xs).map fun r => (r.1, pic :: r.2)

/-- one video (`alphapose/writer.py` lines 92-96 and 111-287) with the tracker `cfg` -/
def alphaRun [LinearOrder D] [Top D] [Zero D] (cfg : Cfg K Unit D F Unit) (dr : EvalDraw K Unit H) (n g : Nat)
    (frames : List (PoseFrame K)) : Option (World K Unit D F Unit × List Pic) :=
  (frames.mapM (alphaDetections n)).bind fun dets =>
    alphaLoop cfg dr ⟨detHeap () () dets.flatten, g, 0, 0, []⟩ (frames.zip (refsFrom 0 dets))

end

/-- the tracker (`alphapose/writer.py` lines 27-35 and 92-96) for frames of this height: the threshold for the distance of
keypoints is set before each call (line 267) -/
noncomputable def alphaArgs (flt : FilterOps ℝ F) (height : Nat) : TrackerArgs Unit F Unit where
  distance := .callable fun d v => (keypointsVoting ((height : ℝ) / 30) (1 / 5) d.points d.scores (v.obj.estimate flt)
    v.last.scores).map fun x => x.map ((↑) : ℝ → WithTop ℝ)
  threshold := ((3 / 10 : ℝ) : WithTop ℝ)
  detectionThreshold := 1 / 5
  filter := flt

end Norfair
