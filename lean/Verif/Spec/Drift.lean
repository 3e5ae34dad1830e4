import Mathlib.Algebra.Order.Field.Basic

/-! Constants of the bounds on the error of a Kalman filter that follows a target of constant velocity. -/

namespace Norfair.Spec

variable {K : Type} [Field K] [LinearOrder K]

/-- the noises a filter assumes for each coordinate: process noise `q₁` of positions and `q₂` of velocities,
measurement noise `r`, and the initial covariance matrix `!![a, b; b, c]` of position and velocity -/
structure Noise (K : Type) where
  q₁ : K
  q₂ : K
  r : K
  a : K
  b : K
  c : K

/-- all noises are positive, the initial covariance matrix is positive definite -/
structure Noise.Valid (n : Noise K) : Prop where
  q₁ : 0 < n.q₁
  q₂ : 0 < n.q₂
  r : 0 < n.r
  a : 0 < n.a
  c : 0 < n.c
  det : n.b ^ 2 < n.a * n.c

/-- bound on the variance of the position -/
def Noise.posVar (n : Noise K) : K := max n.a n.r

/-- bound on the variance of the velocity -/
def Noise.velVar (n : Noise K) : K := max n.c (n.posVar + n.r + n.q₁ + n.q₂)

/-- bound on the sum of the variances after a move -/
def Noise.trace (n : Noise K) : K := 2 * n.posVar + 3 * n.velVar

/-- the smaller process noise -/
def Noise.q (n : Noise K) : K := min n.q₁ n.q₂

/-- the factor by which an error shrinks per frame -/
def Noise.rate (n : Noise K) : K := n.trace / (n.trace + n.q)

/-- the square of the error `(x, y)` of position and velocity, measured with the initial covariance -/
def Noise.start (n : Noise K) (x y : K) : K :=
  (n.c * x ^ 2 - 2 * n.b * x * y + n.a * y ^ 2) / (n.a * n.c - n.b ^ 2)

/-- bound on the square of the error after `k` frames: the initial error `(x, y)` has faded, what remains is
due to measurements that are off by at most `W` -/
def Noise.bound (n : Noise K) (W x y : K) (k : Nat) : K :=
  n.rate ^ k * n.start x y + W ^ 2 / n.r * ((n.trace + n.q) / n.q)

/-! For a target whose velocity changes, some of the shrinking is given up; `η` is how much. -/

/-- the factor by which an error shrinks per frame if the velocity of the target changes -/
def Noise.slow (n : Noise K) (η : K) : K := n.rate * (1 + η)

/-- what a frame adds to the square of the error: measurements are off by at most `W`, and the velocity of the target
changes by at most `A` -/
def Noise.unrest (n : Noise K) (η W A : K) : K := (1 + η) * (W ^ 2 / n.r) + (1 + 1 / η) * (A ^ 2 / n.q₂)

/-- bound on the square of the error after `k` frames: the initial error `(x, y)` has faded, what remains is
due to measurements that are off by at most `W` and to changes of the velocity by at most `A` per frame -/
def Noise.boundA (n : Noise K) (η W A x y : K) (k : Nat) : K :=
  n.slow η ^ k * n.start x y + n.unrest η W A / (1 - n.slow η)

/-- what may be given up: errors still shrink, and something has to be given up if the velocity changes at all -/
structure Noise.Margin (n : Noise K) (η A : K) : Prop where
  nonneg : 0 ≤ η
  slow : n.slow η < 1
  change : A = 0 ∨ 0 < η

end Norfair.Spec
