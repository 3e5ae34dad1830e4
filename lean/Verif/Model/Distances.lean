import Verif.Model.Tracker
import Mathlib.Data.List.Sort
import Mathlib.Analysis.Real.Sqrt
import Mathlib.Algebra.BigOperators.Group.Finset.Basic
import Mathlib.Algebra.Order.Monoid.WithTop

/-!
Model of the predefined distances, `norfair/distances.py` lines 234-538.

Simplifications: exact arithmetic over the real numbers (over any ordered field for `iou`) instead of
floats, and no rounding to the float32 matrix. The logging calls are left out.
As in the model of the tracker an outer `none` is an exception and an inner `none` is NaN.
-/

namespace Norfair

open Finset

variable {K L D F X : Type}

/-! ### numpy arrays of rank 2 -/

/-- a rank 2 array with its entries -/
def Pts.mat [Zero K] (p : Pts K) : Mat K := ⟨p.n, p.dim, fun i j => (p.data[i * p.dim + j]?).getD 0⟩

/-- length of an axis after numpy broadcasting; `none` if the operands cannot be broadcast together -/
def bdim (a b : Nat) : Option Nat :=
  if a = b then some a else if a = 1 then some b else if b = 1 then some a else none

/-- index into an axis of length `n` of a broadcast operand -/
def bidx (n i : Nat) : Nat := if n = 1 then 0 else i

/-- `a - b` of two rank 2 arrays with numpy broadcasting; `none` if it raises -/
def Mat.sub [Sub K] (a b : Mat K) : Option (Mat K) :=
  match bdim a.rows b.rows, bdim a.cols b.cols with
  | some n, some m => some ⟨n, m, fun i j =>
      a.val (bidx a.rows i) (bidx a.cols j) - b.val (bidx b.rows i) (bidx b.cols j)⟩
  | _, _ => none

/-- `np.linalg.norm(x, axis=1)[i]` -/
noncomputable def Mat.rowNorm (x : Mat ℝ) (i : Nat) : ℝ := √(∑ j ∈ range x.cols, x.val i j ^ 2)

/-- `np.linalg.norm(x, ord=1, axis=1)[i]` -/
def Mat.rowNorm1 (x : Mat ℝ) (i : Nat) : ℝ := ∑ j ∈ range x.cols, |x.val i j|

/-- `v.mean()` of the rank 1 array `v 0, ..., v (n-1)`; NaN (with a warning) if it is empty -/
noncomputable def meanOf (n : Nat) (v : Nat → ℝ) : Option ℝ :=
  if n = 0 then none else some ((∑ i ∈ range n, v i) / n)

/-! ### Scalar distances -/

/-- `frobenius` (`distances.py` lines 234-264), as a function of `detection.points` and
`tracked_object.estimate` -/
noncomputable def frobenius (a b : Pts ℝ) : Option (Option ℝ) :=
  (a.mat.sub b.mat).map fun x => some (√(∑ i ∈ range x.rows, ∑ j ∈ range x.cols, x.val i j ^ 2))

/-- `mean_euclidean` (`distances.py` lines 267-291) -/
noncomputable def meanEuclidean (a b : Pts ℝ) : Option (Option ℝ) :=
  (a.mat.sub b.mat).map fun x => meanOf x.rows x.rowNorm

/-- `mean_manhattan` (`distances.py` lines 294-324) -/
noncomputable def meanManhattan (a b : Pts ℝ) : Option (Option ℝ) :=
  (a.mat.sub b.mat).map fun x => meanOf x.rows x.rowNorm1

/-- the elementwise product of three boolean arrays of rank 1, with broadcasting, and
`np.count_nonzero` of it (`distances.py` lines 495-499) -/
def countMatches (n : Nat) (p : Nat → Bool) (s t : List Bool) : Option Nat :=
  (bdim n s.length).bind fun m => (bdim m t.length).map fun k =>
    (List.range k).countP fun i =>
      p (bidx n (bidx m i)) && (s[bidx s.length (bidx m i)]?).getD false && (t[bidx t.length i]?).getD false

/-- `create_keypoints_voting_distance(keypoint_distance_threshold, detection_threshold)`
(`distances.py` lines 464-502), as a function of `detection.points`, `detection.scores`, `estimate` and
`last_detection.scores`. Comparing scores that are `None` raises. -/
noncomputable def keypointsVoting (kthr dthr : ℝ) (points : Pts ℝ) (scores : Option (List ℝ))
    (est : Pts ℝ) (lastScores : Option (List ℝ)) : Option (Option ℝ) :=
  match points.mat.sub est.mat, scores, lastScores with
  | some x, some s, some t =>
    (countMatches x.rows (fun i => decide (x.rowNorm i < kthr)) (s.map fun v => decide (dthr < v))
      (t.map fun v => decide (dthr < v))).map fun k => some (1 / (1 + k))
  | _, _, _ => none

/-- `create_normalized_mean_euclidean_distance(height, width)` (`distances.py` lines 505-538).
`difference[:, 1]` raises for points with less than two coordinates.
Simplification: `height` and `width` are not 0. -/
noncomputable def normalizedMeanEuclidean (height width : Nat) (a b : Pts ℝ) : Option (Option ℝ) :=
  (a.mat.sub b.mat).bind fun x =>
    if x.cols < 2 then none
    else
      let y : Mat ℝ := ⟨x.rows, x.cols, fun i j =>
        if j = 0 then x.val i j / width else if j = 1 then x.val i j / height else x.val i j⟩
      some (meanOf y.rows y.rowNorm)

/-! ### iou -/

/-- one row `[x_min, y_min, x_max, y_max]` -/
structure Box (K : Type) where
  x1 : K
  y1 : K
  x2 : K
  y2 : K
deriving DecidableEq, Repr

/-- `_boxes_area` (`distances.py` lines 327-331) -/
def Box.area [Mul K] [Sub K] (b : Box K) : K := (b.x2 - b.x1) * (b.y2 - b.y1)

/-- `area_intersection` (`distances.py` lines 373-378) -/
def Box.inter [Mul K] [Sub K] [Zero K] [LinearOrder K] (a b : Box K) : K :=
  max (min a.x2 b.x2 - max a.x1 b.x1) 0 * max (min a.y2 b.y2 - max a.y1 b.y1) 0

/-- one entry of `iou` (`distances.py` lines 370-381). `none` (NaN) if the denominator is 0: then
the numerator is 0 as well (C37_malformed). -/
def iouPair [Field K] [LinearOrder K] (a b : Box K) : Option K :=
  let d := a.area + b.area - a.inter b
  if d = 0 then none else some (1 - a.inter b / d)

/-- a row of a stack as a box; `none` if it does not have 4 columns -/
def Box.ofRow : List K → Option (Box K)
  | [a, b, c, d] => some ⟨a, b, c, d⟩
  | _ => none

/-- `iou(candidates, objects)` (`distances.py` lines 348-381) with `_validate_bboxes`
(lines 334-345): raises if the boxes do not have 4 columns (`candidates`: the assertion of lines
338-342, `objects`: the index of line 331 or the broadcasting of lines 373-374). The stacks are rank 2
arrays (`np.stack`), so all rows have the same number of columns. -/
def iou [Field K] [LinearOrder K] (cands objs : List (List K)) : Option (Mat (Option K)) :=
  match cands.mapM Box.ofRow, objs.mapM Box.ofRow with
  | some cs, some os => some ⟨cs.length, os.length, fun i j =>
      match cs[i]?, os[j]? with
      | some c, some o => iouPair c o
      | _, _ => none⟩
  | _, _ => none

/-! ### VectorizedDistance, as written -/

/-- the loop of `VectorizedDistance.get_distances` (`distances.py` lines 157-184) over a list of
labels: for each one the stacks are built, the distance is computed and written at
`np.ix_(cand_mask, obj_mask)` (the `a`-th row of the result goes to the `a`-th candidate selected by the
mask). The masks come from the label arrays `labO`, `labC`, the stacks from `str()` (`strO`, `strC`).
`np.stack` raises for an empty list; that it raises for rows of different lengths is left to `f`.
Simplification: `f` returns a matrix of the shape of the selection. -/
def vectorizedLoop {C O : Type} (labC labO : List String) (strC : C → String) (strO : O → String)
    (ptsC : C → List K) (ptsO : O → List K)
    (f : List (List K) → List (List K) → Option (Mat (Option D)))
    (objects : List O) (cands : List C) :
    List String → Mat (Option D) → Option (Mat (Option D))
  | [], M => some M
  | s :: ss, M =>
    let objIdx := (List.range labO.length).filter fun j => labO[j]? = some s
    let candIdx := (List.range labC.length).filter fun i => labC[i]? = some s
    let stackedObjects := (objects.filter fun o => strO o = s).map ptsO
    let stackedCandidates := (cands.filter fun c => strC c = s).map ptsC
    if stackedObjects.isEmpty || stackedCandidates.isEmpty then none
    else
      match f stackedCandidates stackedObjects with
      | none => none
      | some R =>
        vectorizedLoop labC labO strC strO ptsC ptsO f objects cands ss
          ⟨M.rows, M.cols, fun i j =>
            match candIdx.idxOf? i, objIdx.idxOf? j with
            | some a, some b => R.val a b
            | _, _ => M.val i j⟩

/-- `VectorizedDistance.get_distances` (`distances.py` lines 125-186), line by line.
`arr` is the conversion `np.array(labels).astype(str)` of lines 154-155, `str` is Python's `str()`.
The loop runs over `np.intersect1d(np.unique(object_labels), np.unique(candidate_labels))`: the common
labels, sorted and without repetition.
`vectorizedDistances` of the tracker model is the closed form for `arr = map str`, see
`vectorizedGetDistances_eq`. -/
def vectorizedGetDistances [Top D] {C O : Type} (arr : List L → List String) (str : L → String)
    (labC : C → L) (labO : O → L) (ptsC : C → List K) (ptsO : O → List K)
    (f : List (List K) → List (List K) → Option (Mat (Option D)))
    (objects : List O) (cands : List C) : Option (Mat (Option D)) :=
  let M0 : Mat (Option D) := ⟨cands.length, objects.length, fun _ _ => some ⊤⟩
  if objects.isEmpty || cands.isEmpty then some M0
  else
    let objectLabels := arr (objects.map labO)
    let candidateLabels := arr (cands.map labC)
    let labels := (objectLabels.dedup.filter fun s => s ∈ candidateLabels).insertionSort
      (fun a b => a ≤ b)
    vectorizedLoop candidateLabels objectLabels (fun c => str (labC c)) (fun o => str (labO o)) ptsC ptsO f
      objects cands labels M0

/-! ### Distances by name, and the constructor of the tracker -/

/-- the functions behind the names -/
inductive Named
  | frobenius | meanManhattan | meanEuclidean
  | scipy (metric : String)
  | iou
deriving DecidableEq, Repr

/-- `_SCALAR_DISTANCE_FUNCTIONS` (`distances.py` lines 387-391) -/
def scalarTable : List (String × Named) :=
  [("frobenius", .frobenius), ("mean_manhattan", .meanManhattan), ("mean_euclidean", .meanEuclidean)]

/-- `_VECTORIZED_DISTANCE_FUNCTIONS` (`distances.py` lines 392-395) -/
def vectorizedTable : List (String × Named) := [("iou", .iou), ("iou_opt", .iou)]

/-- `_SCIPY_DISTANCE_FUNCTIONS` (`distances.py` lines 396-419) -/
def scipyNames : List String :=
  ["braycurtis", "canberra", "chebyshev", "cityblock", "correlation", "cosine", "dice", "euclidean",
   "hamming", "jaccard", "jensenshannon", "kulczynski1", "mahalanobis", "matching", "minkowski",
   "rogerstanimoto", "russellrao", "seuclidean", "sokalmichener", "sokalsneath", "sqeuclidean", "yule"]

/-- `get_distance_by_name` (`distances.py` lines 425-461); `none` is the `ValueError` -/
def getDistanceByName (name : String) : Option Named :=
  match scalarTable.lookup name with
  | some d => some d
  | none =>
    if name ∈ scipyNames then some (.scipy name)
    else vectorizedTable.lookup name

/-- a distance between the points and the estimate, as the tracker's distance function -/
def ptsDistance (flt : FilterOps ℝ F) (f : Pts ℝ → Pts ℝ → Option (Option ℝ)) :
    DistFn ℝ L (WithTop ℝ) F X :=
  .scalar fun d v => (f d.points (v.obj.estimate flt)).map (·.map (fun x : ℝ => (x : WithTop ℝ)))

/-- the `Distance` object made from a name (`distances.py` lines 440-454). `cdist` is scipy's
`cdist(·, ·, metric=...)`, which is not modelled; `str` is Python's `str()` on labels. -/
noncomputable def Named.distFn (flt : FilterOps ℝ F) (str : L → String)
    (cdist : String → List (List ℝ) → List (List ℝ) → Option (Mat (Option (WithTop ℝ)))) :
    Named → DistFn ℝ L (WithTop ℝ) F X
  | .frobenius => ptsDistance flt Norfair.frobenius
  | .meanManhattan => ptsDistance flt Norfair.meanManhattan
  | .meanEuclidean => ptsDistance flt Norfair.meanEuclidean
  | .scipy m => .vectorized str (cdist m)
  | .iou => .vectorized str fun cs os => (Norfair.iou cs os).map fun M =>
      M.map fun e => e.map fun x : ℝ => (x : WithTop ℝ)

/-- the argument `distance_function` of `Tracker` -/
inductive DistArg (L F X : Type)
  | name (s : String)
  | callable (f : Det ℝ L X → ObjView ℝ L (WithTop ℝ) F X → Option (Option (WithTop ℝ)))
  | other

/-- `tracker.py` lines 98-115: the `Distance` object for the argument; `none` is a `ValueError` -/
noncomputable def DistArg.resolve (flt : FilterOps ℝ F) (str : L → String)
    (cdist : String → List (List ℝ) → List (List ℝ) → Option (Mat (Option (WithTop ℝ)))) :
    DistArg L F X → Option (DistFn ℝ L (WithTop ℝ) F X)
  | .name s => (getDistanceByName s).map (Named.distFn flt str cdist)
  | .callable f => some (.scalar f)
  | .other => none

/-- `tracker.py` lines 127-134: `initialization_delay`; `none` is a `ValueError`.
`int(hit_counter_max / 2)` is integer division rounding towards zero (exact below 2^53). -/
def resolveDelay (hitCounterMax : Int) : Option Int → Option Int
  | none => some (hitCounterMax.tdiv 2)
  | some d => if d < 0 ∨ d ≥ hitCounterMax then none else some d

/-- the arguments of `Tracker` (`tracker.py` lines 80-95) -/
structure TrackerArgs (L F X : Type) where
  distance : DistArg L F X
  threshold : WithTop ℝ
  hitCounterMax : Int := 15
  initializationDelay : Option Int := none
  pointwiseHitCounterMax : Int := 4
  detectionThreshold : ℝ := 0
  filter : FilterOps ℝ F
  pastDetectionsLength : Int := 4
  reidDistance : Option (ObjView ℝ L (WithTop ℝ) F X → ObjView ℝ L (WithTop ℝ) F X →
    Option (Option (WithTop ℝ))) := none
  reidThreshold : WithTop ℝ := 0
  reidHitCounterMax : Option Int := none

/-- `Tracker.__init__` (`tracker.py` lines 80-142); `none` is a `ValueError`. Simplification: exact
`distance_threshold + 1` (see C03 for the rounding). -/
noncomputable def mkTracker (str : L → String)
    (cdist : String → List (List ℝ) → List (List ℝ) → Option (Mat (Option (WithTop ℝ))))
    (a : TrackerArgs L F X) : Option (Cfg ℝ L (WithTop ℝ) F X) :=
  match a.distance.resolve a.filter str cdist with
  | none => none
  | some dist =>
    if 0 ≤ a.pastDetectionsLength then
      match resolveDelay a.hitCounterMax a.initializationDelay with
      | none => none
      | some delay =>
        some
          { dist := dist
            thr := a.threshold
            fill := a.threshold + 1
            hitCounterMax := a.hitCounterMax
            initDelay := delay
            pwMax := a.pointwiseHitCounterMax
            detThr := a.detectionThreshold
            flt := a.filter
            pastLen := a.pastDetectionsLength.toNat
            reid := a.reidDistance
            reidThr := a.reidThreshold
            reidFill := a.reidThreshold + 1
            reidMax := a.reidHitCounterMax }
    else none

end Norfair
