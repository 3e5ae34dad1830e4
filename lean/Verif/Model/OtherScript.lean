import Verif.Model.EvalOut
import Verif.Model.XyahLoop

/-!
Model of the scripts `motmetrics4norfair_xyah.py` and `motmetrics4bytetrack.py` as a whole, without `--make-video`: all sequences, the
metrics, and what is on the disk afterwards.
-/

namespace Norfair

variable {K L D F X H G Tab Img S V : Type}

/-- All sequences (`motmetrics4norfair_xyah.py` lines 119-199, `motmetrics4bytetrack.py` lines 80-145) with what is on the disk; `run` is
the evaluation of one of them, with the number of objects created before. `none` if something raises. Simplifications as in
`evalAll`. -/
def otherAll (run : Nat → Accum K → V → Option (Nat × PredFile × Accum K)) (pathOf : V → Str) (savePred : Bool) (out : List Str) :
    Nat → Accum K → Disk → List V → Option (Accum K × Disk)
  | _, acc, d, [] => some (acc, d)
  | g, acc, d, v :: vs =>
    match run g acc v with
    | none => none
    | some (g, file, acc) =>
      match if savePred then writePred out d (pathOf v) file.text else some d with
      | none => none
      | some d => otherAll run pathOf savePred out g acc d vs

/-- The script (`motmetrics4norfair_xyah.py` lines 77-205, `motmetrics4bytetrack.py` lines 70-151): the printed text and the disk; `none`
if something raises -/
def otherScript [Ring K] [LinearOrder K] (run : Nat → Accum K → V → Option (Nat × PredFile × Accum K)) (pathOf : V → Str)
    (mm : MotMetrics K G Tab) (gt : Str → G) (savePred saveMetrics : Bool) (out : List Str) (d : Disk) (vs : List V) :
    Option (Str × Disk) :=
  match otherAll run pathOf savePred out 0 Accum.init d vs with
  | none => none
  | some (acc, d) =>
    match (AccReport.mk acc none).compute mm gt none true with
    | (_, true) => none
    | (s, false) =>
      match s.print with
      | none => none
      | some text =>
        if saveMetrics then
          match s.save d out "metrics.txt".toList with
          | (_, true) => none
          | (d, false) => some (text, d)
        else some (text, d)

/-- the script with boxes by center (`motmetrics4norfair_xyah.py` lines 77-205) -/
def xyahScript [Field K] [LinearOrder K] [FloorRing K] [LinearOrder D] [Top D] [Zero D] [DecidableEq L] (cfg : Cfg K L D F X)
    (fmt : K → Str) (dr : EvalDraw K L H) (sortRows : List (List K) → List (List K)) (label : L) (extra : X)
    (mm : MotMetrics K G Tab) (gt : Str → G) (savePred saveMetrics : Bool) (out : List Str) (d : Disk)
    (vs : List (FilmSeq K Img)) : Option (Str × Disk) :=
  otherScript (fun g acc v => (xyahSeq cfg fmt dr sortRows label extra false g acc v).map (·.1)) FilmSeq.path mm gt savePred saveMetrics
    out d vs

/-- the script with ByteTrack (`motmetrics4bytetrack.py` lines 70-151). Each sequence has its own tracker, which may depend on
`seqinfo.ini` and on the ids given before. -/
def byteScript [Field K] [LinearOrder K] (fmt : K → Str) (sortRows : List (List K) → List (List K)) (mm : MotMetrics K G Tab)
    (gt : Str → G) (savePred saveMetrics : Bool) (out : List Str) (d : Disk) (vs : List (FilmSeq K Img × ByteOps K S)) :
    Option (Str × Disk) :=
  otherScript (fun g acc v => (byteSeq v.2 fmt sortRows acc v.1.path v.1.length v.1.rows).map fun r => (g, r.1, r.2))
    (fun v => v.1.path) mm gt savePred saveMetrics out d vs

end Norfair
