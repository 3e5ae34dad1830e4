import Verif.Model.MotCam
import Verif.Model.Video
import Verif.Model.Pixels

/-!
Model of the evaluation on MOTChallenge data with videos (`demos/motmetrics4norfair/src/motmetrics4norfair.py`): pictures are
read one by one, and with `--make-video` they are written to a video with the boxes.
-/

namespace Norfair

variable {K L D F X H Img G T : Type}

/-- a frame as `cv2.imread` returns it: its gray image, its shape and its pixels -/
structure EvalFrame (Img : Type) where
  gray : Img
  shape : List Nat
  pic : Pic

/-- what drawing needs: Python's `hash` and `str`, the palette, OpenCV, and how ids and labels are read -/
structure EvalDraw (K L H : Type) where
  env : DrawEnv K H
  ras : Raster K
  idOf : Nat → H
  lab : L → Option H

/-- the frame with the boxes (`motmetrics4norfair.py` lines 129-130): `draw_boxes` with the detections, in the memory `heap`,
and `draw_tracked_boxes` with the objects, on the result; `none` if it raises -/
def evalPicture [Field K] [LinearOrder K] [FloorRing K] (dr : EvalDraw K L H) (flt : FilterOps K F) (f : EvalFrame Img)
    (heap : Ref → Det K L X) (dets : List Ref) (objs : List (Obj K L D F)) : Option Pic :=
  (drawBoxes dr.env f.shape {} (some (dets.map fun r => Drawable.ofDet dr.lab (heap r)))).bind fun c =>
    (drawTrackedBoxes dr.env f.shape (some (objs.map (Drawable.ofObj flt dr.idOf dr.lab)))).map fun c' =>
      c'.render dr.ras f.shape (c.render dr.ras f.shape f.pic)

/-- `if args.make_video: ... video_file.update(frame=frame)` (`motmetrics4norfair.py` lines 128-131) -/
def evalWrite [Field K] [LinearOrder K] [FloorRing K] (dr : EvalDraw K L H) (flt : FilterOps K F) (make : Bool)
    (seq : FrameSeq Pic) (f : EvalFrame Img) (heap : Ref → Det K L X) (dets : List Ref) (objs : List (Obj K L D F)) :
    Option (FrameSeq Pic) :=
  if make then
    (evalPicture dr flt f heap dets objs).bind fun pic =>
      match seq.update pic with
      | (_, true) => none
      | (seq, false) => some seq
  else some seq

/-- The loop over the frames (`motmetrics4norfair.py` lines 118-138, with `--save-pred`): `zip` asks the video first. `load`
is `cv2.imread`, which returns `None` if there is no picture; then `build_mask` raises. `none` if something raises. -/
def motVideoFrames [Field K] [LinearOrder K] [FloorRing K] [LinearOrder D] [Top D] [Zero D] [DecidableEq L]
    (cfg : Cfg K L D F X) (fmt : K → Str) (cam : MotCam K Img G T) (dr : EvalDraw K L H)
    (load : Str → Option (EvalFrame Img)) (make : Bool) :
    MotState K L D F X → FrameSeq Pic → MotionEstimator K Img (Image Bool) G → List (Obj K L D F) → List (List Ref) →
      Option (MotState K L D F X × FrameSeq Pic)
  | s, seq, _, _, [] =>
    match seq.next with
    | (_, .raise) => none
    | (seq, _) => some (s, seq)
  | s, seq, e, objs, dets :: ds =>
    match seq.next with
    | (_, .raise) => none
    | (seq, .stop) => some (s, seq)
    | (seq, .item path) =>
      match load path with
      | none => none
      | some f =>
        let mask := buildMask (cam.size f.gray) (dets.map fun r => (s.world.heap r).points)
          (objs.map (·.estimate cfg.flt))
        let m := e.update cam.flow cam.g0 cam.call f.gray (some mask)
        match update cfg s.world (some dets) 1 (m.2.map cam.ct) with
        | (_, .error _) => none
        | (w, .ok act) =>
          match evalWrite dr cfg.flt make seq f w.heap dets act with
          | none => none
          | some seq =>
            match s.file.update fmt (act.map (Pred.ofObj cfg.flt)) none with
            | (_, true) => none
            | (file, false) =>
              match s.acc.update (some (act.map (Pred.ofObj cfg.flt))) with
              | (_, true) => none
              | (acc, false) => motVideoFrames cfg fmt cam dr load make ⟨w, file, acc⟩ seq m.1 act ds

/-- the files of a sequence: its folder, `seqLength`, `imDir` and `imExt` of `seqinfo.ini`, the rows of `det.txt`, and the
pictures by their paths -/
structure FilmSeq (K Img : Type) where
  path : Str
  length : InfoValue
  imDir : InfoValue
  imExt : InfoValue
  rows : List (List K)
  load : Str → Option (EvalFrame Img)

/-- One sequence (`motmetrics4norfair.py` lines 83-138). Simplifications: with `--make-video` the other values of
`seqinfo.ini` are there (`video.py` lines 305-325), and OpenCV writes every frame to the video. -/
def motVideoSeq [Field K] [LinearOrder K] [FloorRing K] [LinearOrder D] [Top D] [Zero D] [DecidableEq L]
    (cfg : Cfg K L D F X) (fmt : K → Str) (cam : MotCam K Img G T) (dr : EvalDraw K L H)
    (sortRows : List (List K) → List (List K)) (label : L) (extra : X) (make : Bool) (g : Nat) (acc : Accum K)
    (v : FilmSeq K Img) : Option ((Nat × PredFile × Accum K) × FrameSeq Pic) :=
  match DetParser.init sortRows v.rows v.length with
  | none => none
  | some p =>
    match acc.create v.path v.length with
    | (_, true) => none
    | (acc, false) =>
      (motVideoFrames cfg fmt cam dr v.load make
        ⟨⟨motHeap label extra p.sortedByFrame.flatten, g, 0, 0, []⟩, PredFile.init v.length, acc⟩
        (FrameSeq.iter ⟨v.length, v.path, v.imDir, v.imExt, make, 1, [], 0⟩) (MotionEstimator.create cam.g0) []
        (refsFrom 0 p.sortedByFrame)).map fun r => ((r.1.world.gcount, r.1.file, r.1.acc), r.2)

end Norfair
