import Mathlib.Data.Nat.Notation
import Mathlib.Data.Int.Notation
import Mathlib.Data.Nat.Digits.Defs
import Mathlib.Algebra.Ring.Defs
import Mathlib.Order.Defs.LinearOrder

/-!
Model of `norfair/metrics.py`. A Python string is a list of characters. Files are given by their content;
`K` is the type of the numbers in arrays. Not modelled: `py-motmetrics` and pandas beyond the rows of a
data frame, the summary of the metrics, the progress bar beyond the number of its steps.
-/

namespace Norfair

variable {K : Type}

/-- a Python string -/
abbrev Str := List Char

/-! ### Python strings -/

/-- what `open(path, "r").read()` makes of the line ends of a file (universal newlines) -/
def universalNewlines : Str → Str
  | [] => []
  | ['\r'] => ['\n']
  | '\r' :: '\n' :: s => '\n' :: universalNewlines s
  | '\r' :: c :: s => '\n' :: universalNewlines (c :: s)
  | c :: s => c :: universalNewlines s

/-- the characters at which `str.splitlines` ends a line -/
def isLineBreak (c : Char) : Bool :=
  [0x0a, 0x0b, 0x0c, 0x0d, 0x1c, 0x1d, 0x1e, 0x85, 0x2028, 0x2029].contains c.toNat

/-- `str.splitlines()` of a string without `\r` -/
def splitlines : Str → List Str
  | [] => []
  | c :: s =>
    if isLineBreak c then [] :: splitlines s
    else match splitlines s with
      | [] => [[c]]
      | l :: ls => (c :: l) :: ls

/-- the character of a decimal digit -/
def digitChar (d : Nat) : Char := Char.ofNat ('0'.toNat + d)

/-- `str(n)` of an integer `n ≥ 0` -/
def natStr (n : Nat) : Str := if n = 0 then ['0'] else ((Nat.digits 10 n).map digitChar).reverse

/-- `str(n)` of an integer -/
def intStr (n : ℤ) : Str := if n < 0 then '-' :: natStr n.natAbs else natStr n.natAbs

/-- The properties of characters that `str.isdigit` and `int` look at: Unicode has digits (such as `²`) that
are not decimal. -/
structure Unicode where
  isDigit : Char → Bool
  decimal : Char → Option Nat

/-- `s.isdigit()` -/
def Unicode.strIsDigit (u : Unicode) (s : Str) : Bool := !s.isEmpty && s.all u.isDigit

/-- `int(s)` of a string for which `isdigit` holds (so without sign, spaces and underscores); `none` is a
`ValueError`. Simplification: no limit on the number of digits. -/
def Unicode.parseInt (u : Unicode) (s : Str) : Option Nat :=
  (s.mapM u.decimal).map fun ds => ds.foldl (fun n d => 10 * n + d) 0

/-! ### `InformationFile` -/

/-- what `search` returns: an `int` or a `str` -/
inductive InfoValue
  | int (n : Nat)
  | str (s : Str)
  deriving DecidableEq

/-- `InformationFile.__init__` (`metrics.py` lines 21-25): the lines of the file -/
def infoLines (content : Str) : List Str := splitlines (universalNewlines content)

/-- `InformationFile.search`, the loop of lines 28-33; `none` if the loop ends without `break` -/
def infoFind (name : Str) : List Str → Option Str
  | [] => none
  | line :: lines =>
    if line.take name.length = name then some (line.drop (name.length + 1)) else infoFind name lines

/-- `InformationFile.search` (`metrics.py` lines 27-37); `none` is a `ValueError` -/
def infoSearch (u : Unicode) (lines : List Str) (name : Str) : Option InfoValue :=
  match infoFind name lines with
  | none => none
  | some result =>
    if u.strIsDigit result then (u.parseInt result).map .int else some (.str result)

/-! ### `PredictionsTextFile` -/

/-- the attributes of a tracked object that are used here; the rows of `estimate` are a list -/
structure Pred (K : Type) where
  id : Option ℤ
  estimate : List (List K)

/-- `obj.estimate[i, j]`; `none` is an `IndexError` -/
def Pred.entry (p : Pred K) (i j : Nat) : Option K := (p.estimate[i]?).bind fun r => r[j]?

/-- lines 74-79 and 196-201: left, top, width, height -/
def Pred.box [Sub K] (p : Pred K) : Option (K × K × K × K) := do
  let x0 ← p.entry 0 0
  let y0 ← p.entry 0 1
  let x1 ← p.entry 1 0
  let y1 ← p.entry 1 1
  return (x0, y0, x1 - x0, y1 - y0)

/-- lines 74-94: the text of a line; `fmt` is `str` of an entry of the array; `none` if there is no id or an
entry is missing (`TypeError`, `IndexError`) -/
def predLine [Sub K] (fmt : K → Str) (frame : ℤ) (p : Pred K) : Option Str := do
  let id ← p.id
  let (x, y, w, h) ← p.box
  return intStr frame ++ ",".toList ++ intStr id ++ ",".toList ++ fmt x ++ ",".toList ++ fmt y ++
    ",".toList ++ fmt w ++ ",".toList ++ fmt h ++ ",-1,-1,-1,-1".toList

/-- `PredictionsTextFile`: `text` is what was written to the file -/
structure PredFile where
  length : InfoValue
  frameNumber : ℤ
  text : Str
  closed : Bool

/-- `PredictionsTextFile.__init__` (`metrics.py` lines 47-64) -/
def PredFile.init (length : InfoValue) : PredFile := ⟨length, 1, [], false⟩

/-- the loop of lines 73-96; the second component tells if it raised -/
def PredFile.writeAll [Sub K] (fmt : K → Str) (frame : ℤ) : PredFile → List (Pred K) → PredFile × Bool
  | s, [] => (s, false)
  | s, p :: ps =>
    match predLine fmt frame p with
    | none => (s, true)
    | some line =>
      if s.closed then (s, true)
      else PredFile.writeAll fmt frame { s with text := s.text ++ line ++ "\n".toList } ps

/-- `PredictionsTextFile.update` (`metrics.py` lines 66-101); the second component tells if it raised.
Comparing `frame_number` with a `length` that is a string raises. -/
def PredFile.update [Sub K] (fmt : K → Str) (s : PredFile) (preds : List (Pred K))
    (frameNumber : Option ℤ) : PredFile × Bool :=
  match PredFile.writeAll fmt (frameNumber.getD s.frameNumber) s preds with
  | (s, true) => (s, true)
  | (s, false) =>
    let s := { s with frameNumber := s.frameNumber + 1 }
    match s.length with
    | .str _ => (s, true)
    | .int n => (if s.frameNumber > n then { s with closed := true } else s, false)

/-! ### `DetectionFileParser` -/

/-- the detections made in lines 140-143: points and scores -/
structure ParsedDet (K : Type) where
  points : List (List K)
  scores : List K
  deriving DecidableEq

/-- lines 140-143; `none` is an `IndexError` -/
def rowDet (r : List K) : Option (ParsedDet K) := do
  let a ← r[2]?
  let b ← r[3]?
  let c ← r[4]?
  let d ← r[5]?
  let conf ← r[6]?
  return ⟨[[a, b], [c, d]], [conf, conf]⟩

/-- lines 117-122: columns 4 and 5 become the coordinates of the lower right corner -/
def rowCorners [Add K] (r : List K) : Option (List K) := do
  let a ← r[2]?
  let c ← r[4]?
  let b ← r[3]?
  let d ← r[5]?
  return (r.set 4 (a + c)).set 5 (b + d)

/-- `DetectionFileParser` -/
structure DetParser (K : Type) where
  frameNumber : Nat
  length : Nat
  sortedByFrame : List (List (ParsedDet K))

/-- `get_dets_from_frame` (`metrics.py` lines 133-147) -/
def detsFromFrame [NatCast K] [DecidableEq K] (m : List (List K)) (frame : Nat) :
    Option (List (ParsedDet K)) :=
  (m.filter fun r => r.head? == some (frame : K)).mapM rowDet

/-- `DetectionFileParser.__init__` (`metrics.py` lines 106-131); `none` if it raises. `rows` are the rows of
`det.txt`; `np.loadtxt` makes a one-dimensional array of a file with one row and of an empty one, so that
line 114 raises an `IndexError`. `sortRows` is `m[np.argsort(m[:, 0])]` (lines 114-115). `np.loadtxt`
itself raises if the rows have different lengths. Simplification: exact arithmetic instead of
float32. -/
def DetParser.init [NatCast K] [Add K] [DecidableEq K] (sortRows : List (List K) → List (List K))
    (rows : List (List K)) (length : InfoValue) : Option (DetParser K) :=
  if rows.length ≤ 1 then none
  else if rows.any fun r => r.length != (rows.headD []).length then none
  else
    match (sortRows rows).mapM rowCorners, length with
    | none, _ => none
    | some _, .str _ => none
    | some m, .int n =>
      ((List.range' 1 n).mapM (detsFromFrame m)).map fun l => ⟨1, n, l⟩

/-- what `next` of an iterator does -/
inductive Step (α : Type)
  | item (a : α)
  | stop
  | raise
  deriving DecidableEq

/-- `DetectionFileParser.__iter__` (`metrics.py` lines 149-151) -/
def DetParser.iter (s : DetParser K) : DetParser K := { s with frameNumber := 1 }

/-- `DetectionFileParser.__next__` (`metrics.py` lines 153-160) -/
def DetParser.next (s : DetParser K) : DetParser K × Step (List (ParsedDet K)) :=
  if s.frameNumber ≤ s.length then
    let s := { s with frameNumber := s.frameNumber + 1 }
    match s.sortedByFrame[s.frameNumber - 2]? with
    | some l => (s, .item l)
    | none => (s, .raise)
  else (s, .stop)

/-! ### `Accumulators` -/

/-- one row of a matrix of predictions (lines 193-204) -/
structure MotRow (K : Type) where
  frame : Nat
  id : Option ℤ
  x : K
  y : K
  width : K
  height : K
  confidence : K
  classId : K
  visibility : K
  unused : K
  deriving DecidableEq

/-- `matrix_predictions`: the empty list, the first row as a plain list, or an array with at least two
rows -/
inductive PredMat (K : Type)
  | empty
  | flat (r : MotRow K)
  | rows (rs : List (MotRow K))
  deriving DecidableEq

/-- lines 205-208 -/
def PredMat.push (r : MotRow K) : PredMat K → PredMat K
  | .empty => .flat r
  | .flat q => .rows [q, r]
  | .rows rs => .rows (rs ++ [r])

/-- the attributes that `create_accumulator` adds; `remaining` are the steps left in the progress bar -/
structure AccVideo (K : Type) where
  frameNumber : Nat
  matrix : PredMat K
  remaining : Option Nat

/-- `Accumulators`; `video` is `none` before the first call of `create_accumulator` -/
structure Accum (K : Type) where
  matrixes : List (PredMat K)
  paths : List Str
  video : Option (AccVideo K)

/-- `Accumulators.__init__` (`metrics.py` lines 164-166) -/
def Accum.init : Accum K := ⟨[], [], none⟩

/-- `Accumulators.create_accumulator` (`metrics.py` lines 168-188); the second component tells if it raised
(`range(length - 1)` with a string). Then the progress bar is still the old one. -/
def Accum.create (s : Accum K) (path : Str) (length : InfoValue) : Accum K × Bool :=
  match length with
  | .str _ => (⟨s.matrixes, s.paths ++ [path], some ⟨1, .empty, s.video.bind (·.remaining)⟩⟩, true)
  | .int n => (⟨s.matrixes, s.paths ++ [path], some ⟨1, .empty, some (n - 1)⟩⟩, false)

/-- lines 193-204 -/
def motRow [Sub K] [One K] [Neg K] (frame : Nat) (p : Pred K) : Option (MotRow K) :=
  p.box.map fun b => ⟨frame, p.id, b.1, b.2.1, b.2.2.1, b.2.2.2, -1, -1, -1, -1⟩

/-- the loop of lines 192-208; the second component tells if it raised -/
def pushAll [Sub K] [One K] [Neg K] (frame : Nat) : PredMat K → List (Pred K) → PredMat K × Bool
  | m, [] => (m, false)
  | m, p :: ps =>
    match motRow frame p with
    | none => (m, true)
    | some r => pushAll frame (m.push r) ps

/-- `Accumulators.update` (`metrics.py` lines 190-215); `none` for the default of `predictions`; the second
component tells if it raised -/
def Accum.update [Sub K] [One K] [Neg K] (s : Accum K) (preds : Option (List (Pred K))) : Accum K × Bool :=
  match preds with
  | none => (s, true)
  | some preds =>
    match s.video with
    | none => (s, true)
    | some v =>
      match pushAll v.frameNumber v.matrix preds with
      | (m, true) => ({ s with video := some { v with matrix := m } }, true)
      | (m, false) =>
        match v.remaining with
        | none => ({ s with video := some ⟨v.frameNumber + 1, m, none⟩ }, true)
        | some 0 => (⟨s.matrixes ++ [m], s.paths, some ⟨v.frameNumber + 1, m, some 0⟩⟩, false)
        | some (r + 1) => ({ s with video := some ⟨v.frameNumber + 1, m, some r⟩ }, false)

/-! ### Evaluation -/

/-- the rows of the data frame made by `load_motchallenge` -/
structure MotFrame (K : Type) where
  frame : Nat
  id : Option ℤ
  x : K
  y : K
  width : K
  height : K
  confidence : K
  classId : K
  visibility : K
  deriving DecidableEq

/-- `load_motchallenge` (`metrics.py` lines 247-294); `none` if it raises: a plain list of ten numbers has
the wrong shape for ten columns -/
def loadMotchallenge [Sub K] [One K] [LE K] [DecidableLE K] (m : PredMat K) (minConfidence : K) :
    Option (List (MotFrame K)) :=
  let load (rs : List (MotRow K)) : List (MotFrame K) :=
    (rs.map fun r => ⟨r.frame, r.id, r.x - 1, r.y - 1, r.width, r.height, r.confidence, r.classId,
      r.visibility⟩).filter fun r => decide (minConfidence ≤ r.confidence)
  match m with
  | .empty => some (load [])
  | .flat _ => none
  | .rows rs => some (load rs)

/-- `d[k] = v` in an `OrderedDict` -/
def dictSet {V : Type} (k : Str) (v : V) : List (Str × V) → List (Str × V)
  | [] => [(k, v)]
  | (k', v') :: d => if k' = k then (k', v) :: d else (k', v') :: dictSet k v d

/-- `OrderedDict(items)` -/
def dictOf {V : Type} (items : List (Str × V)) : List (Str × V) :=
  items.foldl (fun d i => dictSet i.1 i.2 d) []

/-- `os.path.split(p)[1]` -/
def pathTail (p : Str) : Str := (p.reverse.takeWhile (· ≠ '/')).reverse

/-- `compare_dataframes` (`metrics.py` lines 297-309): the names and the pairs of data frames that are
compared -/
def compareDataframes {G T : Type} (gts : List (Str × G)) (ts : List (Str × T)) : List (Str × G × T) :=
  ts.filterMap fun k => (gts.lookup k.1).map fun g => (k.1, g, k.2)

/-- `eval_motChallenge` (`metrics.py` lines 312-332) up to the comparison; `gt` is the ground truth read from
the folder of the video; `none` if it raises (`IndexError` if a matrix is missing, or
`load_motchallenge`) -/
def evalMotchallenge {G : Type} [Sub K] [One K] [Neg K] [LE K] [DecidableLE K] (gt : Str → G) (mats : List (PredMat K))
    (paths : List Str) : Option (List (Str × G × List (MotFrame K))) :=
  let gts := dictOf (paths.map fun p => (pathTail p, gt p))
  match paths.zipIdx.mapM (fun (p : Str × Nat) =>
      (mats[p.2]?).bind fun m => (loadMotchallenge m (-1)).map fun l => (pathTail p.1, l)) with
  | none => none
  | some items => some (compareDataframes gts (dictOf items))

end Norfair
