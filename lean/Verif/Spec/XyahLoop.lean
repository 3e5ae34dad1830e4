import Verif.Model.XyahLoop
import Verif.Spec.MotVideo
import Verif.Spec.DemoLoop
import Verif.Props.ByteLoop

/-! C138, C139: the evaluation with boxes given by center, ratio of sides and height, in terms of the tracker alone; and the
videos of the evaluations with objects of other classes. -/

namespace Norfair.Spec

open Norfair Norfair.Props

variable {K L D F X H Img : Type}

/-- the detection of a row `frame, id, left, top, width, height, confidence`: center, width / height, height -/
def xyahRow [Field K] (label : L) (extra : X) (r : List K) : Det K L X :=
  let p : Pts K := ⟨2, 2, [r.getD 2 0 + r.getD 4 0 / 2, r.getD 3 0 + r.getD 5 0 / 2, r.getD 4 0 / r.getD 5 0, r.getD 5 0]⟩
  ⟨p, some [r.getD 6 0, r.getD 6 0], label, extra, p, none⟩

/-- the calls of the tracker: frame `k` with the rows that have this number, as new detections -/
def xyahCalls [Field K] [LinearOrder K] (label : L) (extra : X) (sortRows : List (List K) → List (List K))
    (rows : List (List K)) (n : Nat) : List (Option (List (Det K L X)) × Int) :=
  (List.range' 1 n).map fun k : Nat =>
    (some (((sortRows rows).filter fun r => r.head? == some (k : K)).map (xyahRow label extra)), 1)

/-- id and corners of an object whose estimate is center, ratio of sides and height -/
def xyahBox [Field K] (fo : FilterOps K F) (o : Obj K L D F) : BoxPred K :=
  let x := (o.estimate fo).data
  let w := x.getD 2 0 * x.getD 3 0
  let h := x.getD 3 0
  ⟨(o.id.getD 0 : Nat), x.getD 0 0 - w / 2, x.getD 1 0 - h / 2, x.getD 0 0 + w / 2, x.getD 1 0 + h / 2⟩

/-- A sequence of `n` frames whose text files can be read; no detection has height 0 -/
structure TallOk (v : FilmSeq K Img) (n : Nat) [Zero K] : Prop where
  rows : 2 ≤ v.rows.length
  width : ∃ m, 7 ≤ m ∧ ∀ r ∈ v.rows, r.length = m
  length : v.length = .int n
  pos : 1 ≤ n
  tall : ∀ r ∈ v.rows, r.getD 5 0 ≠ 0

/-- frame `k` with frames around the boxes of its detections, in the default color -/
def detsPicture [Field K] [LinearOrder K] [FloorRing K] (dr : EvalDraw K L H) (f : EvalFrame Img) (dets : List (ParsedDet K)) :
    Pic :=
  framed dr.ras (truncInt (((f.shape.foldl max 0 : Nat) : K) / 500))
    (dets.map fun d => (d.points.flatten, dr.env.palette.default)) f.pic

end Norfair.Spec
