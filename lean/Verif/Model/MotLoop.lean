import Verif.Model.Tracker
import Verif.Model.Metrics
import Verif.Model.Drawing

/-!
Model of the evaluation on MOTChallenge data (`demos/motmetrics4norfair/src/motmetrics4norfair.py`): the detections of
a file go through the tracker, the returned objects go to the text file and to the accumulator. Not modelled here: the
videos (`make_video`), and where the coordinate transformations come from: they are given, one per frame.
-/

namespace Norfair

variable {K L D F X : Type}

/-- `Detection(points, np.array([conf, conf]))` (`metrics.py` line 143): label and data are those of the default
arguments -/
def detOfParsed (label : L) (extra : X) (d : ParsedDet K) : Det K L X :=
  ⟨⟨2, 2, d.points.flatten⟩, some d.scores, label, extra, ⟨2, 2, d.points.flatten⟩, none⟩

/-- the memory with the detections that `DetectionFileParser.__init__` creates (`metrics.py` lines 129-131), one after
the other -/
def motHeap (label : L) (extra : X) (ds : List (ParsedDet K)) : Ref → Det K L X :=
  fun r => detOfParsed label extra (ds.getD r ⟨[], []⟩)

/-- where the detections of each frame are in this memory, the first of them at `k` -/
def refsFrom {α : Type} : Nat → List (List α) → List (List Ref)
  | _, [] => []
  | k, l :: ls => List.range' k l.length :: refsFrom (k + l.length) ls

/-- the attributes of a tracked object that `metrics.py` reads (lines 74-79, 193-201) -/
def Pred.ofObj (fo : FilterOps K F) (o : Obj K L D F) : Pred K :=
  ⟨o.id.map fun n => (n : ℤ), (o.estimate fo).rows⟩

/-- tracker, text file and accumulator -/
structure MotState (K L D F X : Type) where
  world : World K L D F X
  file : PredFile
  acc : Accum K

/-- The loop over the frames (`motmetrics4norfair.py` lines 118-138, with `--save-pred` and without `--make-video`);
`none` if something raises. -/
def motFrames [Ring K] [LinearOrder K] [LinearOrder D] [Top D] [Zero D] [DecidableEq L]
    (cfg : Cfg K L D F X) (fmt : K → Str) :
    MotState K L D F X → List (List Ref × Option (CoordTrans K)) → Option (MotState K L D F X)
  | s, [] => some s
  | s, (dets, ct) :: cs =>
    match update cfg s.world (some dets) 1 ct with
    | (_, .error _) => none
    | (w, .ok act) =>
      match s.file.update fmt (act.map (Pred.ofObj cfg.flt)) none with
      | (_, true) => none
      | (file, false) =>
        match s.acc.update (some (act.map (Pred.ofObj cfg.flt))) with
        | (_, true) => none
        | (acc, false) => motFrames cfg fmt ⟨w, file, acc⟩ cs

/-- the files of a sequence: its folder, `seqLength`, the rows of `det.txt`, and the transformations of its frames -/
structure MotSeq (K : Type) where
  path : Str
  length : InfoValue
  rows : List (List K)
  cts : List (Option (CoordTrans K))

/-- One sequence (`motmetrics4norfair.py` lines 83-138): a new parser, text file and tracker; `g` objects were created
in this process before. The result is the number of objects created, the text file and the accumulator; `none` if
something raises. `zip` ends with the shorter of the frames and the lists of detections. -/
def motSeq [Ring K] [LinearOrder K] [LinearOrder D] [Top D] [Zero D] [DecidableEq L]
    (cfg : Cfg K L D F X) (fmt : K → Str) (sortRows : List (List K) → List (List K)) (label : L) (extra : X)
    (g : Nat) (acc : Accum K) (v : MotSeq K) : Option (Nat × PredFile × Accum K) :=
  match DetParser.init sortRows v.rows v.length with
  | none => none
  | some p =>
    match acc.create v.path v.length with
    | (_, true) => none
    | (acc, false) =>
      (motFrames cfg fmt ⟨⟨motHeap label extra p.sortedByFrame.flatten, g, 0, 0, []⟩, PredFile.init v.length, acc⟩
        ((refsFrom 0 p.sortedByFrame).zip v.cts)).map fun s => (s.world.gcount, s.file, s.acc)

/-- All sequences (`motmetrics4norfair.py` lines 81-138): the text files and the accumulator -/
def motAll [Ring K] [LinearOrder K] [LinearOrder D] [Top D] [Zero D] [DecidableEq L]
    (cfg : Cfg K L D F X) (fmt : K → Str) (sortRows : List (List K) → List (List K)) (label : L) (extra : X) :
    Nat → Accum K → List (MotSeq K) → Option (List PredFile × Accum K)
  | _, acc, [] => some ([], acc)
  | g, acc, v :: vs =>
    match motSeq cfg fmt sortRows label extra g acc v with
    | none => none
    | some (g, file, acc) =>
      (motAll cfg fmt sortRows label extra g acc vs).map fun s => (file :: s.1, s.2)

/-- The whole evaluation (`motmetrics4norfair.py` lines 81-140): what is compared with the ground truth -/
def motEval {G : Type} [Ring K] [LinearOrder K] [LinearOrder D] [Top D] [Zero D] [DecidableEq L]
    (cfg : Cfg K L D F X) (fmt : K → Str) (sortRows : List (List K) → List (List K)) (label : L) (extra : X)
    (gt : Str → G) (vs : List (MotSeq K)) : Option (List (Str × G × List (MotFrame K))) :=
  match motAll cfg fmt sortRows label extra 0 Accum.init vs with
  | none => none
  | some (_, acc) => evalMotchallenge gt acc.matrixes acc.paths

end Norfair
