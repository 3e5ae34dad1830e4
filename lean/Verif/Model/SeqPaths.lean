import Verif.Model.OtherScript
import Verif.Model.Video

/-!
Model of how the three evaluation scripts of `demos/motmetrics4norfair/src` find their sequences.
-/

namespace Norfair

variable {K L D F X H G Tab Img S : Type}

/-- `sequences_paths` (`motmetrics4norfair.py` lines 74-79, `motmetrics4norfair_xyah.py` lines 70-75, `motmetrics4bytetrack.py` lines
63-68): `dataset` is `dataset_path` (`None` if it is not given), `entries` are the names in this folder, or in the current one, in the
order of `os.scandir`, with `is_dir()`; `sel` are the names after `--select-sequences`. `none` if it raises: `os.path.join(None, f)`.
Simplification: the folder exists. -/
def seqPaths (dataset : Option Str) (entries : List (Str × Bool)) (sel : Option (List Str)) : Option (List Str) :=
  match sel with
  | none => some ((entries.filter (·.2)).map fun e => pathJoin (dataset.getD ".".toList) e.1)
  | some fs => fs.mapM fun f => dataset.map fun ds => pathJoin ds f

/-- A script from its arguments on (`motmetrics4norfair.py` lines 74-144, `motmetrics4norfair_xyah.py` lines 70-205,
`motmetrics4bytetrack.py` lines 63-151): `load` reads the files of a sequence, `script` is the rest; `none` if something raises.
Simplifications: all are read at the beginning; the announcements before are not in the printed text. -/
def scriptMain {V R : Type} (dataset : Option Str) (entries : List (Str × Bool)) (sel : Option (List Str)) (load : Str → Option V)
    (script : List V → Option R) : Option R :=
  (seqPaths dataset entries sel).bind fun ps => (ps.mapM load).bind script

/-- the script `motmetrics4norfair.py` from its arguments on (lines 74-144) -/
def evalMain [Ring K] [LinearOrder K] [LinearOrder D] [Top D] [Zero D] [DecidableEq L]
    (cfg : Cfg K L D F X) (fmt : K → Str) (sortRows : List (List K) → List (List K)) (label : L) (extra : X)
    (mm : MotMetrics K G Tab) (gt : Str → G) (savePred saveMetrics : Bool) (out : List Str) (d : Disk) (dataset : Option Str)
    (entries : List (Str × Bool)) (sel : Option (List Str)) (load : Str → Option (MotSeq K)) : Option (Str × Disk) :=
  scriptMain dataset entries sel load (evalScript cfg fmt sortRows label extra mm gt savePred saveMetrics out d)

/-- the script `motmetrics4norfair_xyah.py` from its arguments on (lines 70-205) -/
def xyahMain [Field K] [LinearOrder K] [FloorRing K] [LinearOrder D] [Top D] [Zero D] [DecidableEq L] (cfg : Cfg K L D F X)
    (fmt : K → Str) (dr : EvalDraw K L H) (sortRows : List (List K) → List (List K)) (label : L) (extra : X)
    (mm : MotMetrics K G Tab) (gt : Str → G) (savePred saveMetrics : Bool) (out : List Str) (d : Disk) (dataset : Option Str)
    (entries : List (Str × Bool)) (sel : Option (List Str)) (load : Str → Option (FilmSeq K Img)) : Option (Str × Disk) :=
  scriptMain dataset entries sel load (xyahScript cfg fmt dr sortRows label extra mm gt savePred saveMetrics out d)

/-- the script `motmetrics4bytetrack.py` from its arguments on (lines 63-151) -/
def byteMain [Field K] [LinearOrder K] (fmt : K → Str) (sortRows : List (List K) → List (List K)) (mm : MotMetrics K G Tab)
    (gt : Str → G) (savePred saveMetrics : Bool) (out : List Str) (d : Disk) (dataset : Option Str) (entries : List (Str × Bool))
    (sel : Option (List Str)) (load : Str → Option (FilmSeq K Img × ByteOps K S)) : Option (Str × Disk) :=
  scriptMain dataset entries sel load (byteScript fmt sortRows mm gt savePred saveMetrics out d)

end Norfair
