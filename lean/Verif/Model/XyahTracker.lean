import Verif.Model.Demos
import Verif.Model.Distances
import Verif.Model.FilterPy

/-!
Model of the tracker of `demos/motmetrics4norfair/src/motmetrics4norfair_xyah.py`: its distance as a function of detection and
object, and its arguments.
-/

namespace Norfair

variable {K L D F X : Type}

/-- `iou_xyah` (`motmetrics4norfair_xyah.py` lines 88-116) of a detection and an object. `none`: it raises, for points that are not
two rows of two numbers; `some none`: NaN. Simplification: more than two rows, where it would use the first two, also raise. -/
def iouXyahFn [Field K] [LinearOrder K] (fo : FilterOps K F) (d : Det K L X) (o : ObjView K L (WithTop K) F X) :
    Option (Option (WithTop K)) :=
  match d.points.rows, (o.obj.estimate fo).rows with
  | [[cx, cy], [a, h]], [[cx', cy'], [a', h']] =>
    some ((iouXyah ⟨cx, cy, a, h⟩ ⟨cx', cy', a', h'⟩).map fun x => (x : WithTop K))
  | _, _ => none

/-- the arguments of the tracker (`motmetrics4norfair_xyah.py` lines 10-14 and 138-145), with the defaults of
`FilterPyKalmanFilterFactory` (`filter.py` lines 41-44) -/
noncomputable def xyahArgs : TrackerArgs L (Σ d, FPKalman ℝ d) X where
  distance := .callable (iouXyahFn (filterPyOps ⟨4, 1 / 10, 10⟩))
  threshold := ((9 / 10 : ℝ) : WithTop ℝ)
  detectionThreshold := 1 / 100
  pointwiseHitCounterMax := 3
  hitCounterMax := 2
  filter := filterPyOps ⟨4, 1 / 10, 10⟩

end Norfair
