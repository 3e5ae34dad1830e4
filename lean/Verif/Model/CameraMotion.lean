import Verif.Model.Tracker
import Mathlib.LinearAlgebra.Matrix.NonsingularInverse
import Mathlib.Algebra.Order.Floor.Ring
import Mathlib.Data.Prod.Lex
import Mathlib.Data.List.Dedup
import Mathlib.Data.List.Sort

/-!
Model of `norfair/camera_motion.py`.

The functions of OpenCV are parameters (they return `none` if they raise); numbers are elements of a
field, so rounding errors of floating point numbers are not modelled.
-/

namespace Norfair

variable {K : Type}

/-! ### Transformations -/

/-- `TranslationTransformation` (`camera_motion.py` lines 58-75): entry `k` of the (row-major) array of
points is moved by entry `k % dim` of the movement vector.
Simplification: the movement vector has as many entries as the points have coordinates. -/
def translation [Add K] [Sub K] [Zero K] (v : List K) : CoordTrans K where
  absToRel := fun p => { p with data := p.data.mapIdx fun k x => x + v.getD (k % p.dim) 0 }
  relToAbs := fun p => { p with data := p.data.mapIdx fun k x => x - v.getD (k % p.dim) 0 }

/-- rows of an array with two columns -/
def pairs : List K → List (K × K)
  | x :: y :: l => (x, y) :: pairs l
  | _ => []

/-- an array with two columns, from its rows -/
def unpairs : List (K × K) → List K
  | [] => []
  | (x, y) :: l => x :: y :: unpairs l

/-- What lines 150-157 (and 160-166) of `camera_motion.py` do to one point `(x, y)`: multiply `(x, y, 1)`
by the matrix and divide by the last entry, which is replaced by `0.0000001` if it is 0. -/
def projective [Field K] [DecidableEq K] (M : Matrix (Fin 3) (Fin 3) K) (p : K × K) : K × K :=
  let q := M.mulVec ![p.1, p.2, 1]
  let w := if q 2 = 0 then 1 / 10000000 else q 2
  (q 0 / w, q 1 / w)

/-- `HomographyTransformation` (`camera_motion.py` lines 135-166); `none` if `np.linalg.inv` raises
because the matrix is singular. Simplification: the points are in the plane (`dim = 2`), for other points
the matrix product raises. -/
noncomputable def homography [Field K] [DecidableEq K] (M : Matrix (Fin 3) (Fin 3) K) :
    Option (CoordTrans K) :=
  if M.det = 0 then none
  else some
    { absToRel := fun p => { p with data := unpairs ((pairs p.data).map (projective M)) }
      relToAbs := fun p => { p with data := unpairs ((pairs p.data).map (projective M⁻¹)) } }

/-! ### Finding transformations -/

/-- `np.around`: to the nearest integer, to the even one if there are two -/
def around [Field K] [LinearOrder K] [FloorRing K] (x : K) : ℤ :=
  let f := ⌊x⌋
  if Int.fract x < 1 / 2 then f
  else if 1 / 2 < Int.fract x then f + 1
  else if f % 2 = 0 then f else f + 1

/-- `np.unique(rows, axis=0, return_counts=True)`: the different rows in lexicographic order, with the
number of their occurrences -/
def uniqueCounts [LinearOrder K] (rows : List (K × K)) : List ((K × K) × Nat) :=
  (rows.dedup.insertionSort (fun a b => toLex a ≤ toLex b)).map fun r => (r, rows.count r)

/-- `counts.argmax()`, with the row at this index: the first one with the largest count; `none` if there
are no rows (then `argmax` raises) -/
def firstMax {α : Type} : List (α × Nat) → Option (α × Nat)
  | [] => none
  | (a, n) :: l =>
    match firstMax l with
    | some (b, m) => if n < m then some (b, m) else some (a, n)
    | none => some (a, n)

/-- `TranslationTransformationGetter(bin_size, proportion_points_used_threshold)` -/
structure TransGetter (K : Type) where
  bin : K
  thr : K

/-- `TranslationTransformationGetter.__call__` (`camera_motion.py` lines 104-129), on points given as
lists of pairs of equal length; `data` is the accumulated movement. The result is the new value of
`data`, whether the reference frame must be updated, and the movement of the transformation; `none` if
the call raises (no points). -/
def TransGetter.call [Field K] [LinearOrder K] [FloorRing K] (g : TransGetter K) (data : Option (K × K))
    (curr prev : List (K × K)) : Option (Option (K × K) × Bool × (K × K)) :=
  let flow := List.zipWith (fun c p => (c.1 - p.1, c.2 - p.2)) curr prev
  let flow := flow.map fun f => ((around (f.1 / g.bin) : K) * g.bin, (around (f.2 / g.bin) : K) * g.bin)
  match firstMax (uniqueCounts flow) with
  | none => none
  | some (mode, count) =>
    let upd := decide ((count : K) / (prev.length : K) < g.thr)
    let mode := match data with
      | some d => (mode.1 + d.1, mode.2 + d.2)
      | none => mode
    some (if upd then some mode else data, upd, mode)

/-- `HomographyTransformationGetter.__call__` (`camera_motion.py` lines 216-256). `find prev curr` is
`cv2.findHomography`: `none` if it raises or finds no matrix (then `None` is not accepted by
`np.linalg.inv`, line 147); otherwise the matrix and which points were used. The result is the new value
of `data`, whether the reference frame must be updated, and the transformation; `none` if the call
raises. Points are `none` if optical flow failed. -/
noncomputable def homographyGetter [Field K] [LinearOrder K] (thr : K)
    (find : List (K × K) → List (K × K) → Option (Matrix (Fin 3) (Fin 3) K × List Bool))
    (data : Option (Matrix (Fin 3) (Fin 3) K)) (curr prev : Option (List (K × K))) :
    Option (Option (Matrix (Fin 3) (Fin 3) K) × Bool × Option (CoordTrans K)) :=
  let few : Option (Option (Matrix (Fin 3) (Fin 3) K) × Bool × Option (CoordTrans K)) :=
    match data with
    | some m => (homography m).map fun t => (data, true, some t)
    | none => some (none, true, none)
  match curr, prev with
  | some c, some p =>
    if 4 ≤ p.length ∧ 4 ≤ c.length then
      match find p c with
      | none => none
      | some (m, used) =>
        let upd := decide ((used.count true : K) / (used.length : K) < thr)
        let m := match data with
          | some d => m * d
          | none => m
        (homography m).map fun t => (if upd then some m else data, upd, some t)
    else few
  | _, _ => few

/-! ### The motion estimator -/

/-- `cv2.goodFeaturesToTrack` (with the parameters of the estimator) and `cv2.calcOpticalFlowPyrLK`;
`none` if they raise, or if no corners are found (then the flow of `None` raises) -/
structure Flow (K Img Mask : Type) where
  corners : Img → Option Mask → Option (List (K × K))
  track : Img → Img → List (K × K) → Option (List (K × K) × List Bool)

/-- `_get_sparse_flow` (`camera_motion.py` lines 262-291): the tracked points and their previous
positions, without the points that were lost -/
def Flow.sparse {Img Mask : Type} (fl : Flow K Img Mask) (next prvs : Img)
    (prevPts : Option (List (K × K))) (mask : Option Mask) : Option (List (K × K) × List (K × K)) :=
  match (match prevPts with | some p => some p | none => fl.corners prvs mask) with
  | none => none
  | some p =>
    match fl.track prvs next p with
    | none => none
    | some (c, status) =>
      some (((c.zip status).filter (·.2)).map (·.1), ((p.zip status).filter (·.2)).map (·.1))

/-- state of a `MotionEstimator` whose transformation getter has the state `G` -/
structure MotionEstimator (K Img Mask G : Type) where
  grayPrvs : Option Img
  prevPts : Option (List (K × K))
  prevMask : Option Mask
  getter : G

/-- `MotionEstimator.__init__` (`camera_motion.py` lines 336-366) -/
def MotionEstimator.create {Img Mask G : Type} (g : G) : MotionEstimator K Img Mask G :=
  ⟨none, none, none, g⟩

/-- `MotionEstimator.update` (`camera_motion.py` lines 368-441) for a frame whose gray image is `next`.
`g0` is the state of the copy of the getter made by the constructor; `call` is the getter, `none` if it
raises. Drawing the flow (`draw_flow`) is not modelled: an exception raised by it is caught after
`curr_pts` and `prev_pts` have been set, so it does not change anything below.
Simplification: `cv2.cvtColor` does not raise. -/
def MotionEstimator.update {Img Mask G T : Type} (fl : Flow K Img Mask) (g0 : G)
    (call : G → Option (List (K × K)) → Option (List (K × K)) → Option (G × Bool × Option T))
    (s : MotionEstimator K Img Mask G) (next : Img) (mask : Option Mask) :
    MotionEstimator K Img Mask G × Option T :=
  let prvs := s.grayPrvs.getD next
  let prevMask := match s.grayPrvs with
    | none => mask
    | some _ => s.prevMask
  let pts := fl.sparse next prvs s.prevPts prevMask
  let curr := pts.map (·.1)
  let prev := pts.map (·.2)
  let r := match call s.getter curr prev with
    | some r => r
    | none => (g0, true, none)
  if r.2.1 then (⟨some next, none, mask, r.1⟩, r.2.2)
  else (⟨some prvs, prev, prevMask, r.1⟩, r.2.2)

/-- what `update` returns for the frames of a video, one after the other -/
def MotionEstimator.outputs {Img Mask G T : Type} (fl : Flow K Img Mask) (g0 : G)
    (call : G → Option (List (K × K)) → Option (List (K × K)) → Option (G × Bool × Option T)) :
    MotionEstimator K Img Mask G → List (Img × Option Mask) → List (Option T)
  | _, [] => []
  | s, (img, mask) :: l =>
    (s.update fl g0 call img mask).2 ::
      MotionEstimator.outputs fl g0 call (s.update fl g0 call img mask).1 l

/-- `TranslationTransformationGetter` as the getter of an estimator; optical flow that failed makes
line 108 raise -/
def TransGetter.getter [Field K] [LinearOrder K] [FloorRing K] (g : TransGetter K) (data : Option (K × K))
    (curr prev : Option (List (K × K))) : Option (Option (K × K) × Bool × Option (K × K)) :=
  match curr, prev with
  | some c, some p => (g.call data c p).map fun r => (r.1, r.2.1, some r.2.2)
  | _, _ => none

end Norfair
