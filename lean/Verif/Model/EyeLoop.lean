import Verif.Model.DemoLoop
import Verif.Model.Draw3d

/-!
Model of the loop over the frames of the 3D demo (`demos/3d_track/src/demo.py` lines 50-106).

Not modelled: the detector (MediaPipe Objectron); what it sees in a frame comes with the frame. The detections are in the
memory before the loop begins; nothing reads them before the call that gets them. Simplifications: all frames of a video have
the same size, and no coordinate `z` that is projected is 0.
-/

namespace Norfair

variable {K D F H : Type}

/-- a frame: its size, the picture, and the points of the objects that the detector sees; `none` is the `None` of a frame in
which it sees nothing -/
structure EyeFrame (K : Type) where
  h : Nat
  w : Nat
  pic : Pic
  seen : Option (List (List (K × K × K)))

/-- the detections of a frame (lines 83-92); iterating over `None` is the `TypeError`. There are no labels. `none` if it
raises. -/
def eyeDetections (f : EyeFrame K) : Option (List (Det K Unit Unit)) :=
  match f.seen with
  | none => some []
  | some os => (os.mapM fun ps => mkDetection (⟨[ps.length, 3], ps.flatMap fun p => [p.1, p.2.1, p.2.2]⟩ : NdArray K) none () ()).bind
      fun ds => ds.mapM RawDet.toDet

variable [Field K] [LinearOrder K] [FloorRing K]

/-- a row of an array with three columns -/
def rowPoint (r : List K) : K × K × K := (r.getD 0 0, r.getD 1 0, r.getD 2 0)

/-- what `draw_3d_tracked_boxes` reads of an object (`3d_track/src/utils.py` lines 145-166); returned objects have an id -/
def obj3d (flt : FilterOps K F) (o : Obj K Unit D F) : Obj3d K :=
  ⟨o.id.getD 0, (o.estimate flt).rows.map rowPoint, o.livePoints⟩

/-- what `Paths` reads of an object -/
def pathObj (flt : FilterOps K F) (idOf : Nat → H) (o : Obj K Unit D F) : PathObj K H :=
  ⟨o.id.map idOf, (o.estimate flt).rows, (o.estimate flt).rows, o.livePoints⟩

/-- a call of `cv2.polylines` (lines between neighbors) or of `cv2.putText` (`3d_track/src/utils.py` lines 157-180) -/
def Mark3d.put (ras : Raster K) (pic : Pic) : Mark3d K → Pic
  | .lines pts c t => (pts.zip pts.tail).foldl (fun pic s => paint (ras.line [s.1.1, s.1.2] [s.2.1, s.2.2] t) c pic) pic
  | .text s pos size c t => ras.write pic ⟨s, pos, size, c, t⟩

/-- lines 96-101: the frame with the boxes; `none` if it raises -/
def eyePicture (dr : EvalDraw K Unit H) (flt : FilterOps K F) (pr : Projecter K) (alive : Bool) (f : EyeFrame K)
    (act : List (Obj K Unit D F)) : Option Pic :=
  (draw3dTrackedBoxes (fun i => dr.env.palette.choose (some (dr.env.hash (dr.idOf i)))) (fun i => dr.env.str (dr.idOf i))
    pr.eyeToPixel { onlyAlive := alive } f.h (act.map (obj3d flt))).map fun ms => ms.foldl (Mark3d.put dr.ras) f.pic

/-- `get_points_to_draw` (lines 75-76): the pixel of the first point, as ints -/
def eyeCenter (pr : Projecter K) (est : List (List K)) : List (List K) :=
  let p := pr.eyeToPixel (rowPoint (est.getD 0 []))
  [[((truncInt p.1 : ℤ) : K), ((truncInt p.2 : ℤ) : K)]]

/-- the variables `projecter` and `path_drawer`, made for the first frame (lines 69-78); `none` if it raises -/
def eyeStart (f : EyeFrame K) : Option (Projecter K × Paths K) :=
  (Projecter.init ((f.w : K), (f.h : K)) none none none none).map fun pr => (pr, ⟨none, none, none⟩)

/-- what is done with the returned objects (lines 96-106): the frame that is written, and `path_drawer` afterwards; `none` if
it raises. `alive` is `draw_only_alive`, `paths` is `draw_paths`. -/
def eyeShot (dr : EvalDraw K Unit H) (flt : FilterOps K F) (alive paths : Bool) (st : Projecter K × Paths K) (f : EyeFrame K)
    (act : List (Obj K Unit D F)) : Option ((Projecter K × Paths K) × Pic) :=
  (eyePicture dr flt st.1 alive f act).bind fun pic =>
    if paths then
      (Paths.draw dr.env.hash dr.env.palette (eyeCenter st.1) none (1 - 1 / 100) f.h st.2 (act.map (pathObj flt dr.idOf))).map
        fun q => ((st.1, q.1), q.2.render dr.ras [f.h, f.w, 3] pic)
    else some (st, pic)

/-- the loop (lines 68-106): the last state and the frames that were written; `none` if something raises. The variables are
`none` before the first frame. -/
def eyeLoop [LinearOrder D] [Top D] [Zero D] (cfg : Cfg K Unit D F Unit) (dr : EvalDraw K Unit H) (alive paths : Bool) :
    Option (Projecter K × Paths K) → World K Unit D F Unit → List (EyeFrame K × List Ref) →
    Option (World K Unit D F Unit × List Pic)
  | _, w, [] => some (w, [])
  | st, w, x :: xs =>
    (st <|> eyeStart x.1).bind fun st =>
      match update cfg w (some x.2) 1 none with
      | (_, .error _) => none
      | (w, .ok act) =>
        (eyeShot dr cfg.flt alive paths st x.1 act).bind fun s =>
          (eyeLoop cfg dr alive paths (some s.1) w xs).map fun r => (r.1, s.2 :: r.2)

/-- one video (lines 58-106) -/
def eyeRun [LinearOrder D] [Top D] [Zero D] (cfg : Cfg K Unit D F Unit) (dr : EvalDraw K Unit H) (alive paths : Bool) (g : Nat)
    (frames : List (EyeFrame K)) : Option (World K Unit D F Unit × List Pic) :=
  (frames.mapM eyeDetections).bind fun dets =>
    eyeLoop cfg dr alive paths none ⟨detHeap () () dets.flatten, g, 0, 0, []⟩ (frames.zip (refsFrom 0 dets))

/-- the tracker (lines 61-66) with the default filter `flt` -/
noncomputable def eyeArgs (flt : FilterOps ℝ F) (threshold : WithTop ℝ) (hits delay : Int) : TrackerArgs Unit F Unit where
  distance := .callable fun d v => scaledEuclidean d.points (v.obj.estimate flt)
  threshold := threshold
  hitCounterMax := hits
  initializationDelay := some delay
  filter := flt

end Norfair
