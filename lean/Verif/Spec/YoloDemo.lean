import Verif.Model.YoloDemo
import Verif.Spec.MotLoop

/-! C129: the loop of the YOLOv5 demo. -/

namespace Norfair.Spec

open Norfair

variable {K D F H : Type}

/-- the detection at the center of a box -/
def centerDet [Field K] [LinearOrder K] [FloorRing K] (b : YoloBox K) : Det K ℤ Unit :=
  let p : Pts K := ⟨1, 2, [(b.x1 + b.x2) / 2, (b.y1 + b.y2) / 2]⟩
  ⟨p, some [b.conf], truncInt b.cls, (), p, none⟩

/-- the detection with the two corners of a box -/
def cornerDet [Ring K] [LinearOrder K] [FloorRing K] (b : YoloBox K) : Det K ℤ Unit :=
  let p : Pts K := ⟨2, 2, [b.x1, b.y1, b.x2, b.y2]⟩
  ⟨p, some [b.conf, b.conf], truncInt b.cls, (), p, none⟩

/-- the objects that a new tracker returns for frames with these detections, and its last state -/
def framesTrack [Ring K] [LinearOrder K] [LinearOrder D] [Top D] [Zero D] (cfg : Cfg K ℤ D F Unit) (g : Nat)
    (dets : List (List (Det K ℤ Unit))) : Option (World K ℤ D F Unit × List (List (Obj K ℤ D F))) :=
  trackAll cfg ⟨listHeap dets.flatten, g, 0, 0, []⟩ ((refsFrom 0 dets).map fun l => (l, none))

variable [Field K] [LinearOrder K] [FloorRing K]

/-- the color of the id of an object -/
def idColor {L : Type} (dr : EvalDraw K L H) (o : Obj K L D F) : Color :=
  (dr.env.palette.choose (o.id.map fun i => dr.env.hash (dr.idOf i))).getD []

/-- the text of the id of an object -/
def idText {L : Type} (dr : EvalDraw K L H) (o : Obj K L D F) : Str := o.id.elim [] fun i => dr.env.str (dr.idOf i)

/-- the text of the label of an object -/
def labelText (dr : EvalDraw K ℤ H) (o : Obj K ℤ D F) : Str := (dr.lab o.label).elim [] dr.env.str

/-- the frame with a disc and `label-id` for each object with a live point -/
def withPoints (dr : EvalDraw K ℤ H) (flt : FilterOps K F) (f : NetFrame K) (objs : List (Obj K ℤ D F)) : Pic :=
  let r : ℤ := around (max (((f.shape.foldl max 0 : Nat) : K) * (2 / 1000)) 1)
  ((objs.filter fun o => o.pointHits.any fun c => decide (0 < c)).foldl (fun (c : Canvas K) o =>
    let x := (o.estimate flt).data.getD 0 0
    let y := (o.estimate flt).data.getD 1 0
    (c.circle [truncInt x, truncInt y] r (-1) (idColor dr o)).text (labelText dr o ++ '-' :: idText dr o)
      (some [truncInt (x - (r : K)), truncInt (y - (r : K))]) (idColor dr o) none none) .base).render dr.ras f.shape f.pic

/-- the frame with a rectangle and the id for each object -/
def withBoxes (dr : EvalDraw K ℤ H) (flt : FilterOps K F) (f : NetFrame K) (objs : List (Obj K ℤ D F)) : Pic :=
  let t : ℤ := truncInt (((f.shape.foldl max 0 : Nat) : K) / 500)
  (objs.foldl (fun (c : Canvas K) o =>
    let z := fun i => truncInt ((o.estimate flt).data.getD i 0)
    (c.rectangle [z 0, z 1] [z 2, z 3] t (idColor dr o)).text (idText dr o)
      (some [z 0 - t / 2, z 1 - t / 2 - 1]) (idColor dr o) none none) .base).render dr.ras f.shape f.pic

end Norfair.Spec
