import Verif.Model.AlphaLoop
import Verif.Spec.DemoLoop

/-! C142: the AlphaPose demo, in terms of the tracker alone. -/

namespace Norfair.Spec

open Norfair

variable {K D F H : Type} [Field K] [LinearOrder K] [FloorRing K]

/-- the detections of poses: a place and a score for each keypoint -/
def alphaDets (ps : List (List (K × K × K))) : List (Det K Unit Unit) :=
  ps.map fun p =>
    let pts : Pts K := ⟨p.length, 2, p.flatMap fun x => [x.1, x.2.1]⟩
    ⟨pts, some (p.map (·.2.2)), (), (), pts, none⟩

/-- the calls of the tracker: one for each frame with boxes -/
def alphaCalls (frames : List (PoseFrame K)) : List (Option (List (Det K Unit Unit)) × Int) :=
  (frames.filterMap (·.poses)).map fun ps => (some (alphaDets ps), 1)

/-- the frames with boxes among these -/
def posed (frames : List (PoseFrame K)) : Nat := (frames.filterMap (·.poses)).length

/-- what is written for frame `f`, if `acts` was returned by the calls: frames without boxes are not changed, on the others
there are the objects of their call -/
def alphaShot (dr : EvalDraw K Unit H) (flt : FilterOps K F) (n : Nat) (acts : List (List (Obj K Unit D F)))
    (before : Nat) (f : PoseFrame K) : Pic :=
  if f.poses = none then f.pic else withObjs dr flt n [f.h, f.w, 3] (acts.getD before []) f.pic

end Norfair.Spec
