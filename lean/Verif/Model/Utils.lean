import Verif.Model.Tracker

/-!
Model of `validate_points` and `print_objects_as_table` (`norfair/utils.py`), of `Detection.__init__` and of
`TrackedObject.__repr__` (`norfair/tracker.py`).
-/

namespace Norfair

variable {K L X D F : Type}

/-- a numpy array of any rank: its shape and its entries in row-major order -/
structure NdArray (K : Type) where
  shape : List Nat
  data : List K
deriving DecidableEq, Repr

/-- `validate_points` (`utils.py` lines 12-18); `none` is the `ValueError` of lines 21-26 -/
def validatePoints (a : NdArray K) : Option (NdArray K) :=
  if a.shape.length = 1 then some ⟨1 :: a.shape, a.data⟩
  else if a.shape.length > 2 then none
  else some a

/-- `Detection` as the constructor leaves it (`tracker.py` lines 770-784), with arrays of any rank -/
structure RawDet (K L X : Type) where
  points : NdArray K
  scores : Option (List K)
  label : L
  extra : X
  absPoints : NdArray K
  age : Option Int

/-- `Detection.__init__` (`tracker.py` lines 770-784); `none` if it raises -/
def mkDetection (points : NdArray K) (scores : Option (List K)) (label : L) (extra : X) :
    Option (RawDet K L X) :=
  (validatePoints points).map fun p => ⟨p, scores, label, extra, p, none⟩

/-- an array of rank 2 as used by the model of the tracker -/
def NdArray.toPts (a : NdArray K) : Option (Pts K) :=
  match a.shape with
  | [n, dim] => some ⟨n, dim, a.data⟩
  | _ => none

/-- the detection that the model of the tracker works on, if both arrays have rank 2 -/
def RawDet.toDet (d : RawDet K L X) : Option (Det K L X) :=
  match d.points.toPts, d.absPoints.toPts with
  | some p, some q => some ⟨p, d.scores, d.label, d.extra, q, d.age⟩
  | _, _ => none

/-- Python's `str()` of an optional int -/
def strOpt (str : Int → List Char) : Option Int → List Char
  | none => "None".toList
  | some i => str i

/-- One row of `print_objects_as_table` (`utils.py` lines 39-46). `fmt` is the format `:.4f`; `none` is the
`TypeError` of formatting `None` with it. -/
def tableRow (str : Int → List Char) (fmt : D → List Char) (o : Obj K L D F) : Option (List (List Char)) :=
  match o.lastDistance with
  | none => none
  | some d => some [strOpt str (o.id.map Int.ofNat), str o.age, str o.hitCounter, fmt d, str o.initId]

/-- `print_objects_as_table` (`utils.py` lines 29-47): the rows of the table, `none` if it raises.
Not modelled: what `rich` makes of them. -/
def printTable (str : Int → List Char) (fmt : D → List Char) (objs : List (Obj K L D F)) :
    Option (List (List (List Char))) :=
  objs.mapM (tableRow str fmt)

/-- the text of `last_distance` in `__repr__` (`tracker.py` lines 688-691, 696) -/
def distText (fmt : D → List Char) : Option D → List Char
  | none => "None".toList
  | some d => fmt d

/-- `TrackedObject.__repr__` (`tracker.py` lines 687-698); `fmt` is the format `:.2f`. -/
def objRepr (str : Int → List Char) (fmt : D → List Char) (o : Obj K L D F) : List Char :=
  "\x1b[1mObject_".toList ++ strOpt str (o.id.map Int.ofNat) ++ "\x1b[0m(age: ".toList ++ str o.age ++
    ", hit_counter: ".toList ++ str o.hitCounter ++ ", last_distance: ".toList ++
    distText fmt o.lastDistance ++ ", init_id: ".toList ++ str o.initId ++ ")".toList

end Norfair
