import Verif.Spec.EvalOut
import Verif.Spec.XyahLoop

/-!
What the scripts `motmetrics4norfair_xyah.py` and `motmetrics4bytetrack.py` show for all sequences.
-/

namespace Norfair.Spec

open Norfair Norfair.Props

variable {K L D F X Img S V : Type}

/-- the boxes shown in each frame of each sequence, one sequence after the other, where `shown` gives those of one sequence with the number
of objects created before -/
def seqsShown (shown : Nat → V → Option (Nat × List (List (BoxPred K)))) : Nat → List V → Option (List (List (List (BoxPred K))))
  | _, [] => some []
  | g, v :: vs => (shown g v).bind fun r => (seqsShown shown r.1 vs).map (r.2 :: ·)

/-- the number in `seqLength` -/
def framesIn (v : FilmSeq K Img) : Nat :=
  match v.length with
  | .int n => n
  | .str _ => 0

/-- the boxes by center of the objects that the tracker returns in each frame -/
def centerShown [Field K] [LinearOrder K] [FloorRing K] [LinearOrder D] [Top D] [Zero D] [DecidableEq L] (cfg : Cfg K L D F X)
    (sortRows : List (List K) → List (List K)) (label : L) (extra : X) (g : Nat) (v : FilmSeq K Img) :
    Option (Nat × List (List (BoxPred K))) :=
  (demoTrack cfg label extra g (xyahCalls label extra sortRows v.rows (framesIn v))).map fun r =>
    (r.1.gcount, r.2.map fun act => act.map (xyahBox cfg.flt))

/-- the boxes that are shown in each frame with ByteTrack: those of the last call, where the tracker is called in the frames with
detections only -/
def byteBoxes [Field K] [LinearOrder K] (sortRows : List (List K) → List (List K)) (v : FilmSeq K Img × ByteOps K S) : List (List (BoxPred K)) :=
  (List.range (framesIn v.1)).map fun k => ((byteOutputs v.2 v.2.fresh
    (((byteRows sortRows v.1.rows (framesIn v.1)).take (k + 1)).filter fun c => !c.isEmpty)).getLast?.getD []).map boxOfByte

end Norfair.Spec
