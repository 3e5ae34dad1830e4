import Verif.Model.MotVideo
import Verif.Spec.MotCam

/-! C128: the video of the evaluation. -/

namespace Norfair.Spec

open Norfair

variable {K L D F X H Img : Type}

/-- the corners of a box `[x0, y0, x1, y1]` in pixels -/
def corners [Ring K] [LinearOrder K] [FloorRing K] (b : List K) : List ℤ × List ℤ :=
  ([truncInt (b.getD 0 0), truncInt (b.getD 1 0)], [truncInt (b.getD 2 0), truncInt (b.getD 3 0)])

/-- a picture with frames of thickness `t` around boxes: a pixel has the color of the last frame that covers it, and
otherwise the color it had -/
def framed [Ring K] [LinearOrder K] [FloorRing K] (ras : Raster K) (t : ℤ) (boxes : List (List K × Color)) (pic : Pic) :
    Pic := fun p ch =>
  match boxes.reverse.find? fun b => ras.rectangle (corners b.1).1 (corners b.1).2 t p with
  | some b => toByte (b.2.getD ch 0)
  | none => pic p ch

/-- the box of an object and the color that the palette has for its id -/
def objBox [Zero K] (dr : EvalDraw K L H) (flt : FilterOps K F) (o : Obj K L D F) : List K × Color :=
  ((o.estimate flt).data, (dr.env.palette.choose (o.id.map fun i => dr.env.hash (dr.idOf i))).getD [])

/-- A sequence of `n` frames: its files are all there and can be read -/
structure FilmOk (v : FilmSeq K Img) (n : Nat) (frames : List (EvalFrame Img)) : Prop where
  rows : 2 ≤ v.rows.length
  width : ∃ m, 7 ≤ m ∧ ∀ r ∈ v.rows, r.length = m
  length : v.length = .int n
  pos : 1 ≤ n
  count : frames.length = n
  files : ∃ dir ext, v.imDir = .str dir ∧ v.imExt = .str ext ∧ ∀ k f, frames[k]? = some f →
    v.load (pathJoin (pathJoin v.path dir) (zfill6 (natStr (k + 1)) ++ ext)) = some f

end Norfair.Spec
