import Verif.Model.EyeLoop
import Verif.Spec.DemoLoop

/-! C135: the loop of the 3D demo, in terms of the tracker alone. -/

namespace Norfair.Spec

open Norfair

variable {K D F H : Type}

/-- the detection of an object with these points -/
def eyeDet (ps : List (K × K × K)) : Det K Unit Unit :=
  let pts : Pts K := ⟨ps.length, 3, ps.flatMap fun p => [p.1, p.2.1, p.2.2]⟩
  ⟨pts, none, (), (), pts, none⟩

/-- the call for a frame: detections of what is seen -/
def eyeCall (f : EyeFrame K) : Option (List (Det K Unit Unit)) × Int := (some ((f.seen.getD []).map eyeDet), 1)

variable [Field K] [LinearOrder K] [FloorRing K]

/-- where a point is seen in a frame of this width and height, by a camera that looks along the axis and sees `-z..z` -/
def pixelOf (size : Nat × Nat) (p : K × K × K) : ℤ × ℤ :=
  (truncInt ((size.1 : K) / 2 * (1 - p.1 / p.2.2)), truncInt ((size.2 : K) / 2 * (1 + p.2.1 / p.2.2)))

/-- where point `i` of an object is seen -/
def cornerAt (flt : FilterOps K F) (size : Nat × Nat) (o : Obj K Unit D F) (i : Nat) : ℤ × ℤ :=
  let x := (o.estimate flt).data
  pixelOf size (x.getD (3 * i) 0, x.getD (3 * i + 1) 0, x.getD (3 * i + 2) 0)

/-- the lines of a box, from corner to corner -/
def boxSides : List (Nat × Nat) :=
  [(1, 2), (2, 4), (4, 3), (3, 1), (1, 5), (5, 7), (7, 3), (3, 7), (7, 8), (8, 6), (6, 5), (5, 6), (6, 2), (2, 4), (4, 8)]

/-- an object: the sides of its box and its id at its center, in its color -/
def boxOn (dr : EvalDraw K Unit H) (flt : FilterOps K F) (size : Nat × Nat) (pic : Pic) (o : Obj K Unit D F) : Pic :=
  let z := cornerAt flt size o
  dr.ras.write (boxSides.foldl (fun pic s =>
    paint (dr.ras.line [(z s.1).1, (z s.1).2] [(z s.2).1, (z s.2).2] (size.2 / 200 : Nat)) (idColor dr o) pic) pic)
    ⟨idText dr o, z 0, (size.2 : K) / 1000, idColor dr o, (size.2 / 500 : Nat)⟩

/-- a frame with the objects, only those with a live point or all -/
def withBoxes3d (dr : EvalDraw K Unit H) (flt : FilterOps K F) (size : Nat × Nat) (alive : Bool) (pic : Pic)
    (objs : List (Obj K Unit D F)) : Pic :=
  (objs.filter fun o => !alive || o.pointHits.any fun c => decide (0 < c)).foldl (boxOn dr flt size) pic

/-- the paths after frames in which these objects were returned, newest first: what was there fades by a hundredth, then the
center of every object is painted -/
def trail (dr : EvalDraw K Unit H) (flt : FilterOps K F) (size : Nat × Nat) : List (List (Obj K Unit D F)) → Pic
  | [] => fun _ _ => 0
  | objs :: old => objs.foldl (fun pic o =>
      paint (dr.ras.circle [(cornerAt flt size o 0).1, (cornerAt flt size o 0).2] (max (7 * size.2 / 1000) 1 : Nat)
        (max (size.2 / 700) 1 : Nat)) (idColor dr o) pic) fun p ch => trail dr flt size old p ch * 99 / 100

/-- what is written for a frame: `objs` are the objects of this frame and those before, newest first -/
def eyePic (dr : EvalDraw K Unit H) (flt : FilterOps K F) (size : Nat × Nat) (alive paths : Bool) (pic : Pic)
    (objs : List (List (Obj K Unit D F))) : Pic :=
  let boxes := withBoxes3d dr flt size alive pic (objs.headD [])
  if paths then fun p ch => min (trail dr flt size objs p ch + boxes p ch) 255 else boxes

end Norfair.Spec
