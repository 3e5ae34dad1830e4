import Verif.Model.MotLoop

/-!
Model of what the evaluation leaves behind: `Accumulators.compute_metrics`, `save_metrics` and `print_metrics`, the text
files of the predictions, and the script `demos/motmetrics4norfair/src/motmetrics4norfair.py` around them. What
`motmetrics` computes from the comparisons is a parameter.

A path is given by its parts, from the root of the file system. Simplifications: no links, all rights are given, the
name of a file has no `/`.
-/

namespace Norfair

variable {K L D F X G Tab : Type}

/-- what can be at a path -/
inductive Node
  | dir
  | file (text : Str)
  deriving DecidableEq

/-- the file system -/
abbrev Disk := List Str → Option Node

/-- something new at a path -/
def Disk.put (d : Disk) (p : List Str) (n : Node) : Disk := fun q => if q = p then some n else d q

/-- one of the directories that `os.makedirs` makes (`metrics.py` lines 59, 236) if it does not exist; `none` if there
is a file -/
def Disk.mkdir (d : Disk) (q : List Str) : Option Disk :=
  match d q with
  | some .dir => some d
  | some (.file _) => none
  | none => some (d.put q .dir)

/-- `os.makedirs(p)` for a path that does not exist (`metrics.py` lines 59, 236): all on the way to it are made; `none`
if it raises since there is a file on the way -/
def Disk.makedirs (d : Disk) (p : List Str) : Option Disk := p.inits.foldlM Disk.mkdir d

/-- `if not os.path.exists(p): os.makedirs(p)` (`metrics.py` lines 58-59, 235-236) -/
def Disk.ensure (d : Disk) (p : List Str) : Option Disk := if (d p).isSome then some d else d.makedirs p

/-- `open(os.path.join(p, name), "w+")` (`metrics.py` lines 61-62, 238-239): the file is empty afterwards; `none` if it
raises since there is a directory with this name or `p` is none -/
def Disk.openW (d : Disk) (p : List Str) (name : Str) : Option Disk :=
  match d (p ++ [name]) with
  | some .dir => none
  | _ => if d p = some .dir then some (d.put (p ++ [name]) (.file [])) else none

/-- `Accumulators` with the attributes `summary_text` and `summary_dataframe`, which it has after the first
`compute_metrics` -/
structure AccReport (K Tab : Type) where
  acc : Accum K
  summary : Option (Str × Tab)

/-- The part of `motmetrics` that is used: `default` are `mm.metrics.motchallenge_metrics`; `summary` is what
`compute_many` and `render_summary` make of the comparisons, their names, the metrics and `generate_overall`
(`metrics.py` lines 336-348); `none` if they raise. -/
structure MotMetrics (K G Tab : Type) where
  default : List Str
  summary : List (Str × G × List (MotFrame K)) → List Str → Bool → Option (Str × Tab)

/-- `Accumulators.compute_metrics` (`metrics.py` lines 217-232); the second component tells if it raised -/
def AccReport.compute [Ring K] [LinearOrder K] (mm : MotMetrics K G Tab) (gt : Str → G) (s : AccReport K Tab)
    (metrics : Option (List Str)) (overall : Bool) : AccReport K Tab × Bool :=
  match evalMotchallenge gt s.acc.matrixes s.acc.paths with
  | none => (s, true)
  | some cs =>
    match mm.summary cs (metrics.getD mm.default) overall with
    | none => (s, true)
    | some r => ({ s with summary := some r }, false)

/-- `Accumulators.save_metrics` (`metrics.py` lines 234-241); the second component tells if it raised. The file is
opened before `summary_text` is read. -/
def AccReport.save (s : AccReport K Tab) (d : Disk) (path : List Str) (name : Str) : Disk × Bool :=
  match d.ensure path with
  | none => (d, true)
  | some d =>
    match d.openW path name with
    | none => (d, true)
    | some d =>
      match s.summary with
      | none => (d, true)
      | some r => (d.put (path ++ [name]) (.file r.1), false)

/-- `Accumulators.print_metrics` (`metrics.py` lines 243-244): what is given to `print`; `none` if it raises -/
def AccReport.print (s : AccReport K Tab) : Option Str := s.summary.map (·.1)

/-- the calls of the methods of `Accumulators` -/
inductive AccOp (K : Type)
  | create (path : Str) (length : InfoValue)
  | update (preds : Option (List (Pred K)))
  | compute (metrics : Option (List Str)) (overall : Bool)
  | save (path : List Str) (name : Str)
  | print

/-- a call; the program goes on also if it raises -/
def accStep [Ring K] [LinearOrder K] (mm : MotMetrics K G Tab) (gt : Str → G) (s : AccReport K Tab × Disk) :
    AccOp K → AccReport K Tab × Disk
  | .create path length => ({ s.1 with acc := (s.1.acc.create path length).1 }, s.2)
  | .update preds => ({ s.1 with acc := (s.1.acc.update preds).1 }, s.2)
  | .compute metrics overall => ((s.1.compute mm gt metrics overall).1, s.2)
  | .save path name => (s.1, (s.1.save s.2 path name).1)
  | .print => s

/-! ### The script -/

/-- the file of the predictions of a sequence (`metrics.py` lines 49, 57-62) and, when it is closed, its text; `none` if
it raises -/
def writePred (out : List Str) (d : Disk) (path text : Str) : Option Disk :=
  (d.ensure (out ++ ["predictions".toList])).bind fun d =>
    (d.openW (out ++ ["predictions".toList]) (pathTail path ++ ".txt".toList)).map fun d =>
      d.put (out ++ ["predictions".toList, pathTail path ++ ".txt".toList]) (.file text)

/-- All sequences (`motmetrics4norfair.py` lines 81-138, without `--make-video`) with what is on the disk; `none` if
something raises. Simplifications: the text is written as a whole, when the sequence is done; it
is also made, but not written, without `--save-pred`. -/
def evalAll [Ring K] [LinearOrder K] [LinearOrder D] [Top D] [Zero D] [DecidableEq L]
    (cfg : Cfg K L D F X) (fmt : K → Str) (sortRows : List (List K) → List (List K)) (label : L) (extra : X)
    (savePred : Bool) (out : List Str) : Nat → Accum K → Disk → List (MotSeq K) → Option (Accum K × Disk)
  | _, acc, d, [] => some (acc, d)
  | g, acc, d, v :: vs =>
    match motSeq cfg fmt sortRows label extra g acc v with
    | none => none
    | some (g, file, acc) =>
      match if savePred then writePred out d v.path file.text else some d with
      | none => none
      | some d => evalAll cfg fmt sortRows label extra savePred out g acc d vs

/-- The script (`motmetrics4norfair.py` lines 79-144): the printed text and the disk; `none` if something raises -/
def evalScript [Ring K] [LinearOrder K] [LinearOrder D] [Top D] [Zero D] [DecidableEq L]
    (cfg : Cfg K L D F X) (fmt : K → Str) (sortRows : List (List K) → List (List K)) (label : L) (extra : X)
    (mm : MotMetrics K G Tab) (gt : Str → G) (savePred saveMetrics : Bool) (out : List Str) (d : Disk)
    (vs : List (MotSeq K)) : Option (Str × Disk) :=
  match evalAll cfg fmt sortRows label extra savePred out 0 Accum.init d vs with
  | none => none
  | some (acc, d) =>
    match (AccReport.mk acc none).compute mm gt none true with
    | (_, true) => none
    | (s, false) =>
      match s.print with
      | none => none
      | some text =>
        if saveMetrics then
          match s.save d out "metrics.txt".toList with
          | (_, true) => none
          | (d, false) => some (text, d)
        else some (text, d)

end Norfair
