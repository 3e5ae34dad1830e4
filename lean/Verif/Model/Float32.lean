import Mathlib.Data.Rat.Floor
import Mathlib.Data.Int.Log
import Mathlib.Algebra.Order.Ring.Rat

/-!
The part of floating point that decides whether the matching loop terminates: the distance matrix is
`dtype=np.float32` (`norfair/distances.py` lines 87-91 and 146-150), so
`distance_matrix[det_idx, :] = distance_threshold + 1` (`norfair/tracker.py` lines 379-380) first
rounds the sum to a Python float (53 bits) and then to float32 (24 bits).

Simplifications: the exponent range is unbounded (no overflow to `inf`, no subnormal numbers).
-/

namespace Norfair

/-- Round to the nearest integer, ties to even. -/
def roundHalfEven (x : ℚ) : ℤ :=
  if x - ⌊x⌋ < 1 / 2 then ⌊x⌋
  else if 1 / 2 < x - ⌊x⌋ then ⌊x⌋ + 1
  else if Even ⌊x⌋ then ⌊x⌋ else ⌊x⌋ + 1

/-- Unit in the last place of a float with `p` significant bits at the magnitude of `q`. -/
def ulp (p : ℕ) (q : ℚ) : ℚ := (2 : ℚ) ^ (Int.log 2 |q| + 1 - (p : ℤ))

/-- IEEE-754 round to nearest, ties to even, with `p` significant bits. -/
def roundBits (p : ℕ) (q : ℚ) : ℚ :=
  if q = 0 then 0 else roundHalfEven (q / ulp p q) * ulp p q

/-- rounding to a Python float -/
def toFloat64 (q : ℚ) : ℚ := roundBits 53 q

/-- rounding to a numpy float32 -/
def toFloat32 (q : ℚ) : ℚ := roundBits 24 q

/-- The value stored in the matrix for `distance_threshold + 1` (`norfair/tracker.py` lines 379-380). -/
def fillFloat32 (thr : ℚ) : ℚ := toFloat32 (toFloat64 (thr + 1))

end Norfair
