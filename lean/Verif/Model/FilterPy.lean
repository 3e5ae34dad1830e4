import Verif.Model.Filter
import Verif.Spec.Kalman

/-!
Model of `FilterPyKalmanFilterFactory` (`norfair/filter.py` lines 18-94) and of the part of
`filterpy.kalman.KalmanFilter` that norfair uses. filterpy is a dependency and not part of the
repository: its `__init__`, `predict` and `update` are written down here as in filterpy 1.4.5
(`x`, `P`, `Q`, `F`, `H`, `R` initialized with zeros and identities; no control input, fading memory
factor 1; covariance updated in the Joseph form).
Simplification: exact field arithmetic instead of float64, and the inverse of a singular matrix is 0
(`Matrix.inv`) instead of raising `LinAlgError`; the properties show that no singular matrix comes up.
The state of shape `(2 * dim_z, 1)` is a function on `dim_z` positions and `dim_z` velocities.
-/

namespace Norfair

open Matrix Norfair.Spec

variable {K : Type}

/-- `filterpy.kalman.KalmanFilter(dim_x=2 * d, dim_z=d)` -/
@[ext] structure FPKalman (K : Type) (d : Nat) where
  x : SIdx d → K
  P : Matrix (SIdx d) (SIdx d) K
  Q : Matrix (SIdx d) (SIdx d) K
  F : Matrix (SIdx d) (SIdx d) K
  H : Matrix (Fin d) (SIdx d) K
  R : Matrix (Fin d) (Fin d) K

/-- `filterpy.kalman.KalmanFilter.__init__` -/
def FPKalman.init (K : Type) [Field K] (d : Nat) : FPKalman K d where
  x := 0
  P := 1
  Q := 1
  F := 1
  H := 0
  R := 1

/-- `filterpy.kalman.KalmanFilter.predict()` -/
def FPKalman.predict [Field K] {d : Nat} (f : FPKalman K d) : FPKalman K d :=
  { f with x := f.F *ᵥ f.x, P := f.F * f.P * f.Fᵀ + f.Q }

/-- `filterpy.kalman.KalmanFilter.update(z, R, H)` -/
noncomputable def FPKalman.update [Field K] {d : Nat} (f : FPKalman K d) (z : Fin d → K)
    (R : Option (Matrix (Fin d) (Fin d) K)) (H : Option (Matrix (Fin d) (SIdx d) K)) :
    FPKalman K d :=
  let R' := R.getD f.R
  let H' := H.getD f.H
  let y := z - H' *ᵥ f.x
  let PHT := f.P * H'ᵀ
  let S := H' * PHT + R'
  let G := PHT * S⁻¹
  let IGH := 1 - G * H'
  { f with x := f.x + G *ᵥ y, P := IGH * f.P * IGHᵀ + G * R' * Gᵀ }

/-- `filter.A[dim_z:, dim_z:] *= a` on a matrix indexed by positions and velocities -/
def mulVelVel [Mul K] {d : Nat} (A : Matrix (SIdx d) (SIdx d) K) (a : K) :
    Matrix (SIdx d) (SIdx d) K
  | Sum.inr i, Sum.inr j => A (Sum.inr i) (Sum.inr j) * a
  | i, j => A i j

/-- Arguments of `FilterPyKalmanFilterFactory` (`filter.py` lines 41-44) -/
structure FPParams (K : Type) where
  R : K
  Q : K
  P : K

/-- the flattened points as the list of positions of a state: `np.expand_dims(p.flatten(), 0).T` -/
def Pts.vec [Zero K] (p : Pts K) (d : Nat) : Fin d → K := fun i => p.data.getD i 0

/-- `FilterPyKalmanFilterFactory.create_filter` (`filter.py` lines 46-94) for points that make
`d = dim_points * num_points` coordinates -/
def FPKalman.create [Field K] (pr : FPParams K) (p : Pts K) : FPKalman K (p.dim * p.n) :=
  let f := FPKalman.init K (p.dim * p.n)
  { F := fun i j => match i, j with
      | Sum.inl i, Sum.inr j => 1 * (1 : Matrix (Fin (p.dim * p.n)) (Fin (p.dim * p.n)) K) i j
      | i, j => (1 : Matrix (SIdx (p.dim * p.n)) (SIdx (p.dim * p.n)) K) i j
    H := fun i j => if j = Sum.inl i then 1 else 0
    R := pr.R • f.R
    Q := mulVelVel f.Q pr.Q
    x := Sum.elim (p.vec _) (fun _ => 0)
    P := mulVelVel f.P pr.P }

/-- the state array as a list, positions first -/
def FPKalman.list {d : Nat} (x : SIdx d → K) : List K :=
  List.ofFn (fun i => x (Sum.inl i)) ++ List.ofFn (fun i => x (Sum.inr i))

/-- the list as a state array -/
def FPKalman.unlist [Zero K] (d : Nat) (l : List K) : SIdx d → K :=
  Sum.elim (fun i => l.getD i 0) (fun i => l.getD (d + i) 0)

/-- the measurement matrix `H = np.hstack([np.diag(mask), zeros])` of `TrackedObject.hit`
(`tracker.py` lines 632-657) -/
def hitH (K : Type) [Field K] (d : Nat) (mask : List Bool) : Matrix (Fin d) (SIdx d) K :=
  fromCols (diagonal fun i => if mask.getD i false then 1 else 0) 0

/-- `FilterPyKalmanFilterFactory` as seen by the tracker -/
noncomputable def filterPyOps [Field K] (pr : FPParams K) : FilterOps K (Σ d, FPKalman K d) where
  create p := ⟨p.dim * p.n, FPKalman.create pr p⟩
  dimZ f := f.1
  predict f := ⟨f.1, f.2.predict⟩
  update f z mask := ⟨f.1, f.2.update (fun i => z.getD i 0) none (some (hitH K f.1 mask))⟩
  getX f := FPKalman.list f.2.x
  setX f x := ⟨f.1, { f.2 with x := FPKalman.unlist f.1 x }⟩

end Norfair
