import Verif.Model.MotLoop
import Verif.Props.Accumulators
import Verif.Spec.Shaped

/-! C105: what an evaluation on MOTChallenge data should write and compare, in terms of the tracker alone. -/

namespace Norfair.Spec

open Norfair Norfair.Props

variable {K L D F X : Type}

/-- the objects returned by each of the calls of `update`, and the last state; `none` if one raises -/
def trackAll [Zero K] [LinearOrder K] [LinearOrder D] [Top D] [Zero D] [DecidableEq L] (cfg : Cfg K L D F X) :
    World K L D F X → List (List Ref × Option (CoordTrans K)) → Option (World K L D F X × List (List (Obj K L D F)))
  | w, [] => some (w, [])
  | w, c :: cs =>
    match update cfg w (some c.1) 1 c.2 with
    | (_, .error _) => none
    | (w', .ok act) => (trackAll cfg w' cs).map fun r => (r.1, act :: r.2)

/-- the detections of the frames 1 to `n`: the rows with that number, with the corners of the boxes -/
def seqDets [Ring K] [LinearOrder K] (sortRows : List (List K) → List (List K)) (rows : List (List K)) (n : Nat) :
    List (List (ParsedDet K)) :=
  (List.range' 1 n).map fun k : Nat => ((sortRows rows).filter fun r => r.head? == some (k : K)).map detOf

/-- a new tracker with these detections in the memory; `g` objects were created in this process before -/
def seqWorld (label : L) (extra : X) (g : Nat) (dets : List (List (ParsedDet K))) : World K L D F X :=
  ⟨motHeap label extra dets.flatten, g, 0, 0, []⟩

/-- the objects that a new tracker returns for the frames of a sequence of length `n`, and the last state -/
def seqTrack [Ring K] [LinearOrder K] [LinearOrder D] [Top D] [Zero D] [DecidableEq L] (cfg : Cfg K L D F X)
    (sortRows : List (List K) → List (List K)) (label : L) (extra : X) (g : Nat) (v : MotSeq K) (n : Nat) :
    Option (World K L D F X × List (List (Obj K L D F))) :=
  let dets := seqDets sortRows v.rows n
  trackAll cfg (seqWorld label extra g dets) ((refsFrom 0 dets).zip v.cts)

/-- the same for several sequences with their lengths, one after the other -/
def seqsTrack [Ring K] [LinearOrder K] [LinearOrder D] [Top D] [Zero D] [DecidableEq L] (cfg : Cfg K L D F X)
    (sortRows : List (List K) → List (List K)) (label : L) (extra : X) :
    Nat → List (MotSeq K × Nat) → Option (List (List (List (Obj K L D F))))
  | _, [] => some []
  | g, v :: vs =>
    (seqTrack cfg sortRows label extra g v.1 v.2).bind fun r =>
      (seqsTrack cfg sortRows label extra r.1.gcount vs).map (r.2 :: ·)

/-- id and corners of the estimate, in the coordinates of the frame -/
def boxOfObj [Zero K] (fo : FilterOps K F) (o : Obj K L D F) : BoxPred K :=
  let x := (o.estimate fo).data
  ⟨(o.id.getD 0 : Nat), x.getD 0 0, x.getD 1 0, x.getD 2 0, x.getD 3 0⟩

/-- A sequence of `n` frames: at least two detections in the file, in rows of the same length, which is at least 7; a
transformation for every frame, or `None`. -/
structure MotOk (v : MotSeq K) (n : Nat) : Prop where
  rows : 2 ≤ v.rows.length
  width : ∃ m, 7 ≤ m ∧ ∀ r ∈ v.rows, r.length = m
  length : v.length = .int n
  pos : 1 ≤ n
  frames : v.cts.length = n
  keeps : ∀ c, some c ∈ v.cts → KeepsBoth (fun _ : Unit => (2, 2)) c

end Norfair.Spec
