import Mathlib.Analysis.SpecialFunctions.Trigonometric.Arctan
import Mathlib.Algebra.Order.Floor.Defs
import Mathlib.Data.Real.Archimedean

/-!
Model of `_get_grid` (`norfair/drawing/absolute_grid.py` lines 12-46) over the real numbers: rounding of
floats and of the trigonometric functions is not modelled. `lru_cache` is not modelled either: the function
has no state and nobody writes into its result (lines 89-98), so the cached array is the computed one.
-/

namespace Norfair

/-- `np.mgrid[start:stop:step]` along one axis: `start + i * step` for `i < ceil((stop - start) / step)` -/
noncomputable def mgridAxis (start stop step : ℝ) : List ℝ :=
  (List.range ⌈(stop - start) / step⌉₊).map fun i : Nat => start + (i : ℝ) * step

/-- the angles of `_get_grid` (`absolute_grid.py` lines 22-25) -/
noncomputable def gridAngles (size : Nat) : List ℝ :=
  let step := Real.pi / (size : ℝ)
  let start := -Real.pi / 2 + step / 2
  let stop := Real.pi / 2
  mgridAxis start stop step

/-- one point before scaling (`absolute_grid.py` lines 27-42) -/
noncomputable def gridPoint (polar : Bool) (theta fi : ℝ) : ℝ × ℝ :=
  if polar then (Real.tan theta * Real.cos fi, Real.tan theta * Real.sin fi)
  else (Real.tan fi, Real.tan theta / Real.cos fi)

/-- `_get_grid` (`absolute_grid.py` lines 12-46); `none` is the `ZeroDivisionError` of line 22.
`theta` is constant along the rows of `mgrid`, which are flattened one after the other (line 44).
Simplification: `size` is not negative. -/
noncomputable def getGrid (size w h : Nat) (polar : Bool) : Option (List (ℝ × ℝ)) :=
  if size = 0 then none
  else some ((gridAngles size).flatMap fun theta => (gridAngles size).map fun fi =>
    let p := gridPoint polar theta fi
    (p.1 * ((max h w : Nat) : ℝ) + ((w / 2 : Nat) : ℝ), p.2 * ((max h w : Nat) : ℝ) + ((h / 2 : Nat) : ℝ)))

end Norfair
