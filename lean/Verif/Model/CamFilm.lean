import Verif.Model.CamDemo
import Verif.Model.MotVideo
import Verif.Model.Pixels

/-!
Model of what the camera motion demo draws and writes (`demos/camera_motion/src/demo.py` lines 192-295): objects, grid, paths
and the fixed camera.

Not modelled: the detector (what it sees comes with the frame), `--draw-flow`, which is off, and `_get_grid`, which is a
parameter here (`getGrid` in `Model/Grid.lean`). Showing a frame is treated as writing it.
-/

namespace Norfair

variable {K L D F X H Img G T : Type}

/-- a frame as in `CamDemo.lean`, and its picture -/
structure FilmFrame (K Img : Type) extends CamFrame K Img where
  pic : Pic

/-- the arguments for drawing (`demo.py` lines 87-190): `--draw-objects`, `--draw-absolute-grid`, `--draw-paths`,
`--path-history`, `--id-size`, `--fixed-camera-scale`, and whether `--transformation` is `homography` -/
structure CamPens (K : Type) where
  objects : Bool := false
  grid : Bool := false
  paths : Bool := false
  history : Nat := 20
  idSize : Option K := none
  fixed : K
  homography : Bool := false

/-- the picture as an array of this height and width with three channels -/
def picImage (h w : Nat) (pic : Pic) : Image (Nat × Nat × Nat) :=
  ⟨h, w, fun i j => (pic (j, i) 0, pic (j, i) 1, pic (j, i) 2)⟩

section
variable [Field K] [LinearOrder K] [FloorRing K]

/-- lines 93-95 of `fixed_camera.py` for one pixel, with the default attenuation 0.05 -/
def fixedAtt (K : Type) [Field K] [LinearOrder K] [FloorRing K] (v : Nat × Nat × Nat) : Nat × Nat × Nat :=
  let a := fun x : Nat => (truncInt ((x : K) * (1 - 1 / 20))).toNat
  (a v.1, a v.2.1, a v.2.2)

/-- `path_drawer` and `fixed_camera` of a video -/
structure CamDrawn (K H : Type) where
  paths : AbsPaths K H
  fixed : FixedCamera K (Nat × Nat × Nat)

/-- lines 214-218: what is made for each video -/
def camStart (pens : CamPens K) : CamDrawn K H :=
  ⟨⟨none, some 2, fun _ => []⟩, FixedCamera.create pens.fixed (fixedAtt K)⟩

/-- lines 274-282: `draw_boxes` or `draw_points` with the objects; `none` if it raises -/
def camObjects (dr : EvalDraw K L H) (flt : FilterOps K F) (pens : CamPens K) (track : Bool) (shape : List Nat)
    (act : List (Obj K L D F)) (pic : Pic) : Option Pic :=
  if pens.objects then
    let ds := some (act.map (Drawable.ofObj flt dr.idOf dr.lab))
    let thickness := pens.idSize.map fun s => truncInt (s * 2)
    if track then
      (drawBoxes dr.env shape { textSize := pens.idSize, textThickness := thickness } ds).map fun c => c.render dr.ras shape pic
    else
      (drawPoints dr.env shape { textSize := pens.idSize, textThickness := thickness } ds).map fun c =>
        (c.getD .base).render dr.ras shape pic
  else some pic

/-- `abs_to_rel` for the points of the grid, as pairs -/
def CoordTrans.onPairs (t : CoordTrans K) (l : List (K × K)) : List (K × K) := pairs (t.absToRel ⟨l.length, 2, unpairs l⟩).data

/-- lines 284-285: `draw_absolute_grid` with its default values; `grid` gives the points for a width and a height -/
def camGrid (ras : Raster K) (pens : CamPens K) (grid : Nat → Nat → List (K × K)) (h w : Nat) (t : Option (CoordTrans K))
    (pic : Pic) : Pic :=
  if pens.grid then
    (drawAbsoluteGrid (grid w h) (t.map CoordTrans.onPairs) h w 2 1 [0, 0, 0]).render ras [h, w, 3] pic
  else pic

/-- what `AbsolutePaths` reads of an object; `get_estimate(absolute=True)` gives the positions, see `camPaths` -/
def camPathObj (flt : FilterOps K F) (idOf : Nat → H) (o : Obj K L D F) : PathObj K H :=
  ⟨o.id.map idOf, (o.estimate flt).rows, (o.positions flt).rows, o.livePoints⟩

/-- `abs_to_rel` for rows -/
def CoordTrans.onRows (t : CoordTrans K) (l : List (List K)) : List (List K) :=
  (t.absToRel ⟨l.length, (l.headD []).length, l.flatten⟩).rows

/-- lines 287-290: the new `path_drawer` and the frame; `none` if it raises. `get_estimate(absolute=True)` raises for an object
that has never seen a transformation (`tracker.py` lines 579-609). -/
def camPaths [DecidableEq H] (dr : EvalDraw K L H) (flt : FilterOps K F) (pens : CamPens K) (h w : Nat) (st : AbsPaths K H)
    (t : Option (CoordTrans K)) (act : List (Obj K L D F)) (pic : Pic) : Option (AbsPaths K H × Pic) :=
  if pens.paths then
    if act.any fun o => o.livePoints.any (·) && (o.getEstimate flt true).isNone then none
    else (AbsPaths.draw dr.env.hash dr.env.palette meanPoint none pens.history h st (act.map (camPathObj flt dr.idOf))
      (t.map CoordTrans.onRows)).map fun q => (q.1, q.2.render dr.ras [h, w, 3] pic)
  else some (st, pic)

/-- lines 292-293: the new `fixed_camera` and the frame that is written; `none` if it raises. The corner of the frame is given to
`rel_to_abs` as an array with one dimension (`fixed_camera.py` line 103); with a homography `np.hstack` raises
(`camera_motion.py` lines 160-161). -/
def camFixed (pens : CamPens K) (fc : FixedCamera K (Nat × Nat × Nat)) (t : Option (CoordTrans K)) (img : Image (Nat × Nat × Nat)) :
    Option (FixedCamera K (Nat × Nat × Nat) × Image (Nat × Nat × Nat)) :=
  if 0 < pens.fixed then
    if pens.homography then none
    else (fc.adjustFrame img t).map fun fc => (fc, fc.background.getD img)
  else some (fc, img)

/-- lines 274-295 for one frame: `s` is the motion and the objects; `none` if it raises -/
def camShot [DecidableEq H] (dr : EvalDraw K L H) (flt : FilterOps K F) (grid : Nat → Nat → List (K × K)) (ct : T → CoordTrans K)
    (pens : CamPens K) (track : Bool) (size : Nat × Nat) (pic : Pic) (st : CamDrawn K H) (s : CamShown K L D F T) :
    Option (CamDrawn K H × Image (Nat × Nat × Nat)) :=
  (camObjects dr flt pens track [size.1, size.2, 3] s.objs pic).bind fun pic =>
    (camPaths dr flt pens size.1 size.2 st.paths (s.motion.map ct) s.objs
      (camGrid dr.ras pens grid size.1 size.2 (s.motion.map ct) pic)).bind fun q =>
        (camFixed pens st.fixed (s.motion.map ct) (picImage size.1 size.2 q.2)).map fun r => (⟨q.1, r.1⟩, r.2)

/-- what a video leaves: the frames written, the variable `tracked_objects`, the number of objects created in this process,
and whether the loop got to its end -/
structure FilmOut (K L D F : Type) where
  written : List (Image (Nat × Nat × Nat))
  last : List (Obj K L D F)
  gcount : Nat
  ended : Bool

variable [LinearOrder D] [Top D] [Zero D] [DecidableEq L] [DecidableEq H]

/-- the loop over the frames of a video (`demo.py` lines 246-295) -/
def camFilmFrames (cfg : Cfg K L D F X) (cam : MotCam K Img G T) (args : CamArgs) (dr : EvalDraw K L H)
    (grid : Nat → Nat → List (K × K)) (pens : CamPens K) :
    World K L D F X → MotionEstimator K Img (Image Bool) G → List (Obj K L D F) → CamDrawn K H → List (FilmFrame K Img) →
      FilmOut K L D F
  | w, _, objs, _, [] => ⟨[], objs, w.gcount, true⟩
  | w, e, objs, st, f :: fs =>
    let m := if args.motion then e.update cam.flow cam.g0 cam.call f.img (camMask cfg cam args objs f.toCamFrame) else (e, none)
    match update cfg w (some f.dets) 1 (m.2.map cam.ct) with
    | (w, .error _) => ⟨[], objs, w.gcount, false⟩
    | (w, .ok act) =>
      match camShot dr cfg.flt grid cam.ct pens args.track (cam.size f.img) f.pic st ⟨m.2, act⟩ with
      | none => ⟨[], act, w.gcount, false⟩
      | some (st, img) =>
        let out := camFilmFrames cfg cam args dr grid pens w m.1 act st fs
        { out with written := img :: out.written }

/-- one video with the tracker `cfg` and the memory `heap` (`demo.py` lines 196-295); `objs` is the variable `tracked_objects`
before it -/
def camFilm (cam : MotCam K Img G T) (args : CamArgs) (dr : EvalDraw K L H) (grid : Nat → Nat → List (K × K)) (pens : CamPens K)
    (cfg : Cfg K L D F X) (heap : Ref → Det K L X) (g : Nat) (objs : List (Obj K L D F)) (frames : List (FilmFrame K Img)) :
    FilmOut K L D F :=
  camFilmFrames cfg cam args dr grid pens ⟨heap, g, 0, 0, []⟩ (MotionEstimator.create cam.g0) objs (camStart pens) frames

end

end Norfair
