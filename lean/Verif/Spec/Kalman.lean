import Mathlib.LinearAlgebra.Matrix.NonsingularInverse
import Mathlib.Data.Matrix.ColumnRowPartitioned

/-!
The Kalman filter of the textbooks, for states made of `d` positions and `d` velocities, and its
two-state version for a single coordinate.
-/

namespace Norfair.Spec

open Matrix

variable {K : Type}

/-- index of a state: `d` positions, then `d` velocities -/
abbrev SIdx (d : Nat) := Fin d ⊕ Fin d

/-- mean and covariance -/
@[ext] structure Gauss (K : Type) (d : Nat) where
  x : SIdx d → K
  P : Matrix (SIdx d) (SIdx d) K

/-- prediction with transition `F` and process noise `Q` -/
def Gauss.predict [Field K] {d : Nat} (F Q : Matrix (SIdx d) (SIdx d) K) (g : Gauss K d) :
    Gauss K d :=
  ⟨F *ᵥ g.x, F * g.P * Fᵀ + Q⟩

/-- correction by a measurement `z` made through `H` with noise `R` -/
noncomputable def Gauss.update [Field K] {d : Nat} (H : Matrix (Fin d) (SIdx d) K) (R : Matrix (Fin d) (Fin d) K)
    (z : Fin d → K) (g : Gauss K d) : Gauss K d :=
  let S := H * g.P * Hᵀ + R
  let G := g.P * Hᵀ * S⁻¹
  ⟨g.x + G *ᵥ (z - H *ᵥ g.x), (1 - G * H) * g.P⟩

/-- transition of the constant velocity model, one time step -/
def cvF (K : Type) [Field K] (d : Nat) : Matrix (SIdx d) (SIdx d) K := fromBlocks 1 1 0 1

/-- the positions are observed; the rows of coordinates that are not observed are zero -/
def obsH (K : Type) [Field K] {d : Nat} (m : Fin d → Bool) : Matrix (Fin d) (SIdx d) K :=
  fun i j => if m i = true ∧ j = Sum.inl i then 1 else 0

/-- a state of a single coordinate: position, velocity, and the entries of their covariance matrix
`!![a, b; b, c]` -/
@[ext] structure KF2 (K : Type) where
  p : K
  v : K
  a : K
  b : K
  c : K
deriving DecidableEq, Repr

/-- prediction of a single coordinate: process noise `q₁` on the position and `q₂` on the velocity -/
def KF2.predict [Field K] (q₁ q₂ : K) (s : KF2 K) : KF2 K :=
  ⟨s.p + s.v, s.v, s.a + 2 * s.b + s.c + q₁, s.b + s.c, s.c + q₂⟩

/-- correction of a single coordinate by a measured position with noise `r`; nothing happens when the
coordinate is not observed -/
def KF2.update [Field K] (r z : K) (observed : Bool) (s : KF2 K) : KF2 K :=
  if observed then
    let e := z - s.p
    let n := s.a + r
    ⟨s.p + s.a / n * e, s.v + s.b / n * e, s.a - s.a ^ 2 / n, s.b - s.a * s.b / n,
      s.c - s.b ^ 2 / n⟩
  else s

/-- the covariance of a single coordinate is positive semi-definite -/
def KF2.Psd [Field K] [LinearOrder K] (s : KF2 K) : Prop := 0 ≤ s.a ∧ 0 ≤ s.c ∧ s.b ^ 2 ≤ s.a * s.c

/-- the coordinates of `g` are independent and behave as the single coordinates `s` -/
structure Gauss.Splits [Field K] {d : Nat} (g : Gauss K d) (s : Fin d → KF2 K) : Prop where
  pos : ∀ i, g.x (Sum.inl i) = (s i).p
  vel : ∀ i, g.x (Sum.inr i) = (s i).v
  posPos : ∀ i j, g.P (Sum.inl i) (Sum.inl j) = if i = j then (s i).a else 0
  posVel : ∀ i j, g.P (Sum.inl i) (Sum.inr j) = if i = j then (s i).b else 0
  velPos : ∀ i j, g.P (Sum.inr i) (Sum.inl j) = if i = j then (s i).b else 0
  velVel : ∀ i j, g.P (Sum.inr i) (Sum.inr j) = if i = j then (s i).c else 0

/-- what is handed to the method `update` of a filter: the measured positions, the diagonal of the noise
matrix if one is given, and the observed coordinates if they are given -/
structure Meas (K : Type) where
  z : List K
  R : Option (List K)
  mask : Option (List Bool)

/-- the lists have one entry per coordinate and the noises are positive -/
structure Meas.Fits [Zero K] [LT K] (o : Meas K) (d : Nat) : Prop where
  z : o.z.length = d
  R : ∀ r, o.R = some r → r.length = d ∧ ∀ a ∈ r, 0 < a
  mask : ∀ m, o.mask = some m → m.length = d

/-- coordinate `i` of a measurement, its noise (`r` if none is given) and whether it is observed -/
def Meas.value [Zero K] (o : Meas K) (i : Nat) : K := o.z.getD i 0
@[inherit_doc Meas.value] def Meas.noise [Zero K] (o : Meas K) (r : K) (i : Nat) : K :=
  match o.R with
  | some l => l.getD i 0
  | none => r
@[inherit_doc Meas.value] def Meas.observed (o : Meas K) (i : Nat) : Bool :=
  match o.mask with
  | some m => m.getD i false
  | none => true

/-- one prediction and one correction of the textbook constant velocity filter with the same process
noise `q` on every position and velocity, measurement noise `r` unless another one is given -/
noncomputable def Gauss.cvRound [Field K] {d : Nat} (q r : K) (g : Gauss K d) (o : Meas K) :
    Gauss K d :=
  (g.predict (cvF K d) (q • 1)).update (obsH K fun i => o.observed i)
    (diagonal fun i => o.noise r i) (fun i => o.value i)

/-- state of a filter before anything is measured: points at rest, the same covariance for every
coordinate -/
def Gauss.start [Field K] {d : Nat} (points : List K) (posVar posVel velVar : K) : Gauss K d :=
  ⟨Sum.elim (fun i => points.getD i 0) (fun _ => 0),
    fromBlocks (posVar • 1) (posVel • 1) (posVel • 1) (velVar • 1)⟩

/-- a call of a method of a filter -/
inductive FCall (K : Type) where
  | predict
  | update (o : Meas K)

/-- all calls of a history are about `d` coordinates -/
def FCall.Fits [Zero K] [LT K] (d : Nat) : FCall K → Prop
  | .predict => True
  | .update o => o.Fits d

end Norfair.Spec
