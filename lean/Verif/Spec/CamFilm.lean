import Verif.Model.CamFilm
import Verif.Spec.YoloDemo

/-! C137: what the camera motion demo writes, in terms of the motions and objects of the frames. -/

namespace Norfair.Spec

open Norfair

variable {K L D F H T : Type}

section
variable [Field K] [LinearOrder K] [FloorRing K]

/-- the label, if there is one, and the id -/
def fullText (dr : EvalDraw K L H) (o : Obj K L D F) : Str :=
  ((dr.lab o.label).elim [] fun l => dr.env.str l ++ ['-']) ++ idText dr o

/-- an object with a live point -/
def alive (o : Obj K L D F) : Bool := o.pointHits.any fun c => decide (0 < c)

/-- the frame with the objects: a rectangle and the id for each one, or a disc, label and id for each one with a live point -/
def withTracked (dr : EvalDraw K L H) (flt : FilterOps K F) (boxes : Bool) (size : Nat × Nat) (text : Option K)
    (objs : List (Obj K L D F)) (pic : Pic) : Pic :=
  let z := fun (o : Obj K L D F) i => (o.estimate flt).data.getD i 0
  let thick := text.map fun s => truncInt (2 * s)
  let big : Nat := max size.1 (max size.2 3)
  (if boxes then
    let t : ℤ := (big / 500 : Nat)
    objs.foldl (fun (c : Canvas K) o =>
      (c.rectangle [truncInt (z o 0), truncInt (z o 1)] [truncInt (z o 2), truncInt (z o 3)] t (idColor dr o)).text (idText dr o)
        (some [truncInt (z o 0) - t / 2, truncInt (z o 1) - t / 2 - 1]) (idColor dr o) text thick) .base
  else
    let r : ℤ := around (max ((big : K) / 500) 1)
    (objs.filter alive).foldl (fun (c : Canvas K) o =>
      (c.circle [truncInt (z o 0), truncInt (z o 1)] r (-1) (idColor dr o)).text (fullText dr o)
        (some [truncInt (z o 0 - (r : K)), truncInt (z o 1 - (r : K))]) (idColor dr o) text thick) .base).render dr.ras
          [size.1, size.2, 3] pic

/-- the frame with a black cross of two lines at each of these points that is visible -/
def withCrosses (ras : Raster K) (size : Nat × Nat) (points : List (K × K)) (pic : Pic) : Pic :=
  (points.filter fun p => decide (0 ≤ p.1 ∧ p.1 ≤ (size.2 : K) ∧ 0 ≤ p.2 ∧ p.2 ≤ (size.1 : K))).foldl (fun pic p =>
    let x := truncInt p.1
    let y := truncInt p.2
    paint (ras.line [x - 2, y] [x + 2, y] 1) [0, 0, 0] (paint (ras.line [x, y - 2] [x, y + 2] 1) [0, 0, 0] pic)) pic

/-- the middle of the points of an object, in absolute coordinates -/
def midPlace (flt : FilterOps K F) (n : Nat) (o : Obj K L D F) : K × K :=
  let x := (o.positions flt).data
  (((List.range n).map fun i => x.getD (2 * i) 0).sum / (n : K), ((List.range n).map fun i => x.getD (2 * i + 1) 0).sum / (n : K))

/-- where an object with this id was in earlier frames in which it was returned with a live point, newest first, at most `m` -/
def placesOf (flt : FilterOps K F) (n m : Nat) (id : Option Nat) (old : List (List (Obj K L D F))) : List (K × K) :=
  (old.filterMap fun objs => (objs.find? fun q => decide (q.id = id) && alive q).map (midPlace flt n)).take m

/-- one picture over another one, with this weight -/
def over (a : K) (top pic : Pic) : Pic := fun p ch => toByte (around (a * (top p ch : K) + (1 - a) * (pic p ch : K)))

/-- a circle at the first of these places, and lines from each one to the next, which is older; the lines have smaller and
smaller weights, from 0.99 to 0.01 in `m - 1` equal steps. `see` tells where a place is seen. -/
def pathOn (ras : Raster K) (see : K × K → K × K) (h m : Nat) (color : Color) (places : List (K × K)) (pic : Pic) : Pic :=
  let z := fun p => [truncInt (see p).1, truncInt (see p).2]
  (places.zip places.tail).zipIdx.foldl (fun pic s =>
    over (99 / 100 - (s.2 : K) * ((98 / 100) / ((m - 1 : Nat) : K))) (paint (ras.line (z s.1.1) (z s.1.2) 2) color pic) pic)
    (paint (ras.circle (z (places.headD (0, 0))) (max (7 * h / 1000) 1 : Nat) 2) color pic)

/-- the frame with the paths of the objects with a live point; `old` are the objects of the frames before, newest first -/
def withPaths (dr : EvalDraw K L H) (flt : FilterOps K F) (n : Nat) (see : K × K → K × K) (h m : Nat)
    (objs : List (Obj K L D F)) (old : List (List (Obj K L D F))) (pic : Pic) : Pic :=
  (objs.filter alive).foldl (fun pic o =>
    pathOn dr.ras see h m (idColor dr o) (midPlace flt n o :: placesOf flt n m o.id old) pic) pic

/-- what is drawn on a frame; `shown` are the motion and the objects of this frame and of those before, newest first. `see`
tells where a place is seen for a motion; without motion, it is seen where it is. -/
def camPic (dr : EvalDraw K L H) (flt : FilterOps K F) (grid : Nat → Nat → List (K × K)) (see : T → K × K → K × K)
    (pens : CamPens K) (boxes : Bool) (size : Nat × Nat) (pic : Pic) (shown : List (CamShown K L D F T)) : Pic :=
  match shown with
  | [] => pic
  | s :: old =>
    let look := fun p => s.motion.elim p fun t => see t p
    let a := if pens.objects then withTracked dr flt boxes size pens.idSize s.objs pic else pic
    let b := if pens.grid then withCrosses dr.ras size ((grid size.2 size.1).map look) a else a
    if pens.paths then
      withPaths dr flt (if boxes then 2 else 1) look size.1 pens.history s.objs (old.map (·.objs)) b
    else b

/-- nothing asked for needs a motion that is not there: paths of live objects need one, and the fixed camera needs one that is
not a homography -/
def canDraw (pens : CamPens K) (s : CamShown K L D F T) : Bool :=
  !(pens.paths && s.motion.isNone && s.objs.any alive) && !(decide (0 < pens.fixed) && (pens.homography || s.motion.isNone))

end

/-- the fixed camera darkens each channel by a twentieth -/
def darker (v : Nat × Nat × Nat) : Nat × Nat × Nat := (v.1 * 19 / 20, v.2.1 * 19 / 20, v.2.2 * 19 / 20)

/-- a transformation that moves each point on its own: `see` is `abs_to_rel` for one point -/
structure SeesBy [Field K] (see : K × K → K × K) (t : CoordTrans K) : Prop where
  back : ∀ l : List (K × K), t.absToRel ⟨l.length, 2, unpairs l⟩ = ⟨l.length, 2, unpairs (l.map see)⟩
  forth : ∃ f : K × K → K × K, ∀ l : List (K × K), t.relToAbs ⟨l.length, 2, unpairs l⟩ = ⟨l.length, 2, unpairs (l.map f)⟩

end Norfair.Spec
