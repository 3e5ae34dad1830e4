import Verif.Model.MotVideo
import Verif.Model.ByteLoop
import Verif.Model.Demos
import Verif.Model.DemoLoop

/-!
Model of the evaluation on MOTChallenge data with boxes given by center, ratio of sides and height
(`demos/motmetrics4norfair/src/motmetrics4norfair_xyah.py`), and of `--make-video` there and in the evaluation of ByteTrack
(`demos/motmetrics4norfair/src/motmetrics4bytetrack.py`).
-/

namespace Norfair

variable {K L D F X H S Img : Type}

/-! ### The video -/

/-- `draw_tracked_boxes` with objects of a class that is neither `Detection` nor `TrackedObject` (`draw_boxes.py` lines
184-209): `Drawable.__init__` raises a `ValueError` for the first of them (`draw_boxes.py` lines 134-136, `drawer.py` lines
360-363); `none` if it raises. -/
def drawOthers [Field K] [LinearOrder K] [FloorRing K] {P : Type} (env : DrawEnv K H) (shape : List Nat) :
    List P → Option (Canvas K)
  | [] => drawTrackedBoxes env shape (some [])
  | _ :: _ => none

/-- `frame = drawing.draw_boxes(frame, detections=detections)` and `frame = drawing.draw_tracked_boxes(frame=frame,
objects=...)` (`motmetrics4norfair_xyah.py` lines 189-192, `motmetrics4bytetrack.py` lines 137-138): `detections` are those of
`DetectionFileParser`, the objects are of the class `CartesianTrack` or `PartialStaticTracker`; `none` if it raises -/
def otherPicture [Field K] [LinearOrder K] [FloorRing K] {P : Type} (dr : EvalDraw K L H) (label : L) (extra : X)
    (f : EvalFrame Img) (dets : List (ParsedDet K)) (objs : List P) : Option Pic :=
  (drawBoxes dr.env f.shape {} (some (dets.map fun d => Drawable.ofDet dr.lab (detOfParsed label extra d)))).bind fun c =>
    (drawOthers dr.env f.shape objs).map fun c' => c'.render dr.ras f.shape (c.render dr.ras f.shape f.pic)

/-- `if args.make_video: ...` (`motmetrics4norfair_xyah.py` lines 187-193, `motmetrics4bytetrack.py` lines 135-139); there is
no `video_file` without `--make-video`. `load` is `cv2.imread`, which returns `None` if there is no picture; then `draw_boxes`
raises, as does `next` after the last frame. `none` if it raises. -/
def otherWrite [Field K] [LinearOrder K] [FloorRing K] {P : Type} (dr : EvalDraw K L H) (label : L) (extra : X)
    (load : Str → Option (EvalFrame Img)) (dets : List (ParsedDet K)) (objs : List P) :
    Option (FrameSeq Pic) → Option (Option (FrameSeq Pic))
  | none => some none
  | some seq =>
    match seq.next with
    | (seq, .item path) =>
      match load path with
      | none => none
      | some f =>
        match otherPicture dr label extra f dets objs with
        | none => none
        | some pic =>
          match seq.update pic with
          | (_, true) => none
          | (seq, false) => some (some seq)
    | _ => none

/-- `video.VideoFromFrames(input_path=input_path, save_path=output_path, information_file=info_file)` with `--make-video`
(`motmetrics4norfair_xyah.py` lines 132-135, `motmetrics4bytetrack.py` lines 93-96). Simplifications: the other values of
`seqinfo.ini` are there (`video.py` lines 305-325), and OpenCV writes every frame to the video. -/
def otherVideo (make : Bool) (v : FilmSeq K Img) : Option (FrameSeq Pic) :=
  if make then some ⟨v.length, v.path, v.imDir, v.imExt, true, 1, [], 0⟩ else none

/-! ### Boxes by center, ratio and height -/

/-- `xyah_state_det` and the scores (`motmetrics4norfair_xyah.py` lines 155-159). The parser makes only arrays of two rows and two
columns (`metrics.py` line 141). Simplification: the height is not 0. -/
def xyahParsed [Field K] (d : ParsedDet K) : ParsedDet K :=
  match d.points with
  | [[x0, y0], [x1, y1]] =>
    let s := Box.toXyah ⟨x0, y0, x1, y1⟩
    ⟨[[s.cx, s.cy], [s.a, s.h]], d.scores⟩
  | _ => d

/-- `CartesianTrack(np.vstack((top_left_corner, bottom_right_corner)), obj.id, obj.live_points)` (lines 171-184): the attributes
that `metrics.py` reads; `none` if the estimate has less than two rows or other than two columns, which raises -/
def xyahTrack [Field K] (fo : FilterOps K F) (o : Obj K L D F) : Option (Pred K) :=
  match (o.estimate fo).rows with
  | [cx, cy] :: [a, h] :: _ =>
    let b := Xyah.toBox ⟨cx, cy, a, h⟩
    some ⟨o.id.map fun n => (n : ℤ), [[b.x1, b.y1], [b.x2, b.y2]]⟩
  | _ => none

/-- The loop over the frames (`motmetrics4norfair_xyah.py` lines 150-199, with `--save-pred`), on the detections of the parser and
where the ones made of them are in the memory; `frame_skip_period` is 1 (line 9), so that lines 166-167 are never reached.
`none` if something raises. -/
def xyahFrames [Field K] [LinearOrder K] [FloorRing K] [LinearOrder D] [Top D] [Zero D] [DecidableEq L]
    (cfg : Cfg K L D F X) (fmt : K → Str) (dr : EvalDraw K L H) (label : L) (extra : X)
    (load : Str → Option (EvalFrame Img)) :
    MotState K L D F X → Option (FrameSeq Pic) → List (List (ParsedDet K) × List Ref) →
      Option (MotState K L D F X × Option (FrameSeq Pic))
  | s, video, [] => some (s, video)
  | s, video, (dets, refs) :: ds =>
    match update cfg s.world (some refs) 1 none with
    | (_, .error _) => none
    | (w, .ok act) =>
      match act.mapM (xyahTrack cfg.flt) with
      | none => none
      | some tracks =>
        match otherWrite dr label extra load dets tracks video with
        | none => none
        | some video =>
          match s.file.update fmt tracks none with
          | (_, true) => none
          | (file, false) =>
            match s.acc.update (some tracks) with
            | (_, true) => none
            | (acc, false) => xyahFrames cfg fmt dr label extra load ⟨w, file, acc⟩ video ds

/-- One sequence (`motmetrics4norfair_xyah.py` lines 118-199): a new parser, text file, video and tracker; `g` objects were created
in this process before. The new detections of all frames are in the memory from the beginning; in the program they come into
being frame by frame. The result is the number of objects created, the text file, the accumulator and the video; `none` if
something raises. -/
def xyahSeq [Field K] [LinearOrder K] [FloorRing K] [LinearOrder D] [Top D] [Zero D] [DecidableEq L]
    (cfg : Cfg K L D F X) (fmt : K → Str) (dr : EvalDraw K L H) (sortRows : List (List K) → List (List K)) (label : L)
    (extra : X) (make : Bool) (g : Nat) (acc : Accum K) (v : FilmSeq K Img) :
    Option ((Nat × PredFile × Accum K) × Option (FrameSeq Pic)) :=
  match DetParser.init sortRows v.rows v.length with
  | none => none
  | some p =>
    match acc.create v.path v.length with
    | (_, true) => none
    | (acc, false) =>
      let dets := p.sortedByFrame.map fun l => l.map fun d => detOfParsed label extra (xyahParsed d)
      (xyahFrames cfg fmt dr label extra v.load
        ⟨⟨detHeap label extra dets.flatten, g, 0, 0, []⟩, PredFile.init v.length, acc⟩ (otherVideo make v)
        (p.sortedByFrame.zip (refsFrom 0 dets))).map fun r => ((r.1.world.gcount, r.1.file, r.1.acc), r.2)

/-! ### ByteTrack -/

/-- `byteFrames` with the video (`motmetrics4bytetrack.py` lines 114-145) -/
def byteVideoFrames [Field K] [LinearOrder K] [FloorRing K] (tr : ByteOps K S) (fmt : K → Str) (dr : EvalDraw K L H) (label : L)
    (extra : X) (load : Str → Option (EvalFrame Img)) :
    ByteState K S → Option (FrameSeq Pic) → List (List (ParsedDet K)) → Option (ByteState K S × Option (FrameSeq Pic))
  | s, video, [] => some (s, video)
  | s, video, dets :: ds =>
    match dets.mapM byteDet with
    | none => none
    | some rows =>
      let t := if rows.length > 0 then tr.update s.tracker rows else (s.tracker, s.objs)
      match otherWrite dr label extra load dets (t.2.map ByteObj.static) video with
      | none => none
      | some video =>
        match s.file.update fmt (t.2.map ByteObj.static) none with
        | (_, true) => none
        | (file, false) =>
          match s.acc.update (some (t.2.map ByteObj.static)) with
          | (_, true) => none
          | (acc, false) => byteVideoFrames tr fmt dr label extra load ⟨t.1, t.2, file, acc⟩ video ds

/-- `byteSeq` with the video (`motmetrics4bytetrack.py` lines 80-145) -/
def byteVideoSeq [Field K] [LinearOrder K] [FloorRing K] (tr : ByteOps K S) (fmt : K → Str) (dr : EvalDraw K L H)
    (sortRows : List (List K) → List (List K)) (label : L) (extra : X) (make : Bool) (acc : Accum K) (v : FilmSeq K Img) :
    Option ((PredFile × Accum K) × Option (FrameSeq Pic)) :=
  match DetParser.init sortRows v.rows v.length with
  | none => none
  | some p =>
    match acc.create v.path v.length with
    | (_, true) => none
    | (acc, false) =>
      (byteVideoFrames tr fmt dr label extra v.load ⟨tr.fresh, [], PredFile.init v.length, acc⟩ (otherVideo make v)
        p.sortedByFrame).map fun r => ((r.1.file, r.1.acc), r.2)

end Norfair
