import Verif.Model.Tracker
import Mathlib.Algebra.Field.Defs

/-!
Model of the predictive filters of `norfair/filter.py` that norfair implements itself: `NoFilter` and
`OptimizedKalmanFilter`. numpy column vectors of shape `(dim_z, 1)` are lists; the elementwise numpy
operations are `List.zipWith`.
Simplification: exact field arithmetic instead of float64.
-/

namespace Norfair

variable {K : Type}

/-- diagonal of the measurement matrix `H` that `TrackedObject.hit` builds from a mask
(`tracker.py` lines 641-657) -/
def diagOf [Zero K] [One K] (mask : List Bool) : List K := mask.map (fun b => if b then 1 else 0)

/-- elementwise `a * b`, `a + b`, `a - b`, `a / b` of numpy arrays of the same shape -/
def vmul [Mul K] (a b : List K) : List K := List.zipWith (· * ·) a b
@[inherit_doc vmul] def vadd [Add K] (a b : List K) : List K := List.zipWith (· + ·) a b
@[inherit_doc vmul] def vsub [Sub K] (a b : List K) : List K := List.zipWith (· - ·) a b
@[inherit_doc vmul] def vdiv [Div K] (a b : List K) : List K := List.zipWith (· / ·) a b

/-! ### NoFilter -/

/-- `NoFilter` (`filter.py` lines 97-115) -/
structure NoFilter (K : Type) where
  dimZ : Nat
  x : List K
deriving DecidableEq, Repr

/-- `NoFilter.update` (`filter.py` lines 105-115); `H` is the diagonal of the matrix argument. -/
def NoFilter.update [Ring K] (f : NoFilter K) (z : List K) (H : Option (List K)) : NoFilter K :=
  let z' := match H with
    | some d => vadd (vmul d z) (vmul (d.map (fun a => 1 - a)) (f.x.take f.dimZ))
    | none => z
  { f with x := z' ++ f.x.drop f.dimZ }

/-- `NoFilterFactory.create_filter` and the methods of `NoFilter` (`filter.py` lines 97-145) -/
def noFilterOps [Ring K] : FilterOps K (NoFilter K) where
  create p := ⟨p.dim * p.n, p.data ++ List.replicate (p.dim * p.n) 0⟩
  dimZ f := f.dimZ
  predict f := f
  update f z mask := f.update z (some (diagOf mask))
  getX f := f.x
  setX f x := { f with x := x }

/-! ### OptimizedKalmanFilter -/

/-- `OptimizedKalmanFilter` (`filter.py` lines 148-169) -/
structure OKF (K : Type) where
  dimZ : Nat
  x : List K
  posVar : List K
  posVel : List K
  velVar : List K
  q : K
  defaultR : List K
deriving DecidableEq, Repr

/-- `OptimizedKalmanFilter.predict` (`filter.py` lines 171-172) -/
def OKF.predict [Add K] (f : OKF K) : OKF K :=
  { f with x := vadd (f.x.take f.dimZ) (f.x.drop f.dimZ) ++ f.x.drop f.dimZ }

/-- `OptimizedKalmanFilter.update` (`filter.py` lines 174-227); `R` and `H` are the diagonals of the
matrix arguments. -/
def OKF.update [Field K] (f : OKF K) (z : List K) (R H : Option (List K)) : OKF K :=
  let diagonal := match H with
    | some d => d
    | none => List.replicate f.dimZ 1
  let oneMinusDiagonal := match H with
    | some d => d.map (fun a => 1 - a)
    | none => List.replicate f.dimZ 0
  let kalmanR := match R with
    | some r => r
    | none => f.defaultR
  let pos := f.x.take f.dimZ
  let vel := f.x.drop f.dimZ
  let error := vmul (vsub z pos) diagonal
  let vp := vadd f.posVel f.velVar
  let added := vadd ((vadd (vadd f.posVar f.posVel) vp).map (fun a => a + f.q)) kalmanR
  let rOver := vdiv kalmanR added
  let vpOver := vdiv vp added
  let addedOrR := vadd (vmul added oneMinusDiagonal) (vmul kalmanR diagonal)
  { f with
    x := vadd pos (vmul diagonal (vmul (rOver.map (fun a => 1 - a)) error)) ++
      vadd vel (vmul diagonal (vmul vpOver error))
    posVar := vmul (rOver.map (fun a => 1 - a)) addedOrR
    posVel := vmul vpOver addedOrR
    velVar := vadd f.velVar
      ((vmul diagonal (vmul (vpOver.map (fun a => a * a)) added)).map (fun a => f.q - a)) }

/-- Arguments of `OptimizedKalmanFilterFactory` (`filter.py` lines 250-264) -/
structure OKFParams (K : Type) where
  R : K
  Q : K
  posVariance : K
  posVelCovariance : K
  velVariance : K

/-- `OptimizedKalmanFilterFactory.create_filter` (`filter.py` lines 266-283) with
`OptimizedKalmanFilter.__init__` (lines 149-169) -/
def OKF.create [Field K] (pr : OKFParams K) (p : Pts K) : OKF K :=
  let dimZ := p.dim * p.n
  { dimZ := dimZ
    x := p.data ++ List.replicate dimZ 0
    posVar := List.replicate dimZ pr.posVariance
    posVel := List.replicate dimZ pr.posVelCovariance
    velVar := List.replicate dimZ pr.velVariance
    q := pr.Q
    defaultR := List.replicate dimZ pr.R }

/-- `OptimizedKalmanFilterFactory` as seen by the tracker -/
def okfOps [Field K] (pr : OKFParams K) : FilterOps K (OKF K) where
  create := OKF.create pr
  dimZ f := f.dimZ
  predict := OKF.predict
  update f z mask := f.update z none (some (diagOf mask))
  getX f := f.x
  setX f x := { f with x := x }

end Norfair
