import Verif.Model.Metrics

/-!
Model of the evaluation of ByteTrack on MOTChallenge data (`demos/motmetrics4norfair/src/motmetrics4bytetrack.py`). The
tracker is not part of the project: it is a parameter, a state that changes with every call. Not modelled: `--make-video`.
-/

namespace Norfair

variable {K S : Type}

/-- the attributes of an object of ByteTrack that are read: `tlbr` (four numbers) and `track_id`
(`motmetrics4bytetrack.py` lines 128-132) -/
structure ByteObj (K : Type) where
  x0 : K
  y0 : K
  x1 : K
  y1 : K
  trackId : ℤ
  deriving DecidableEq

/-- `BYTETracker`: `fresh` is a new one (line 107), `update` a call of `update` with rows of five numbers (lines 122-125); the
size of the image is the same in all calls. -/
structure ByteOps (K S : Type) where
  fresh : S
  update : S → List (List K) → S × List (ByteObj K)

/-- `np.append(det.points.reshape((1, -1)), det.scores[0])` (line 119); `none` is an `IndexError` -/
def byteDet (d : ParsedDet K) : Option (List K) := d.scores.head?.map fun s => d.points.flatten ++ [s]

/-- `PartialStaticTracker(box, obj.track_id, np.array([True]))` with `box = obj.tlbr.reshape((2, 2))`: the attributes that
`metrics.py` reads (lines 128-132) -/
def ByteObj.static (o : ByteObj K) : Pred K := ⟨some o.trackId, [[o.x0, o.y0], [o.x1, o.y1]]⟩

/-- tracker, `byte_tracked_objects`, text file and accumulator -/
structure ByteState (K S : Type) where
  tracker : S
  objs : List (ByteObj K)
  file : PredFile
  acc : Accum K

/-- The loop over the frames (lines 114-145, with `--save-pred` and without `--make-video`); `none` if something raises. -/
def byteFrames [Ring K] (tr : ByteOps K S) (fmt : K → Str) :
    ByteState K S → List (List (ParsedDet K)) → Option (ByteState K S)
  | s, [] => some s
  | s, dets :: ds =>
    match dets.mapM byteDet with
    | none => none
    | some rows =>
      let t := if rows.length > 0 then tr.update s.tracker rows else (s.tracker, s.objs)
      match s.file.update fmt (t.2.map ByteObj.static) none with
      | (_, true) => none
      | (file, false) =>
        match s.acc.update (some (t.2.map ByteObj.static)) with
        | (_, true) => none
        | (acc, false) => byteFrames tr fmt ⟨t.1, t.2, file, acc⟩ ds

/-- One sequence (lines 80-145): folder, `seqLength` and the rows of `det.txt`; a new parser, text file and tracker. `none`
if something raises. -/
def byteSeq [Ring K] [DecidableEq K] (tr : ByteOps K S) (fmt : K → Str) (sortRows : List (List K) → List (List K))
    (acc : Accum K) (path : Str) (length : InfoValue) (rows : List (List K)) : Option (PredFile × Accum K) :=
  match DetParser.init sortRows rows length with
  | none => none
  | some p =>
    match acc.create path length with
    | (_, true) => none
    | (acc, false) =>
      (byteFrames tr fmt ⟨tr.fresh, [], PredFile.init length, acc⟩ p.sortedByFrame).map fun s => (s.file, s.acc)

end Norfair
