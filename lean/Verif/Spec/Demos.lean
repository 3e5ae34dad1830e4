import Verif.Model.Demos
import Verif.Spec.Distances

/-! C110: the artificial videos of the ReID demo. -/

namespace Norfair.Spec

open Norfair

variable {K C P : Type}

/-- some point is inside both rectangles -/
def Overlapping [LT K] (a b : Box K) : Prop := ∃ p, Inside a p ∧ Inside b p

/-- actor `k` can be seen completely: it overlaps with no actor before it in the list (these are in front of it) -/
def InFront [LT K] (actors : List ((Box K × C) × P)) (k : Nat) : Prop :=
  ∃ a, actors[k]? = some a ∧ ∀ j < k, ∀ c, actors[j]? = some c → ¬ Overlapping a.1.1 c.1.1

/-- the box covers the pixel in row `y` and column `x`, which takes the place from `x` to `x + 1` and from `y` to
`y + 1`: in each direction, the pixel ends after the first corner and not after the second one -/
def CoversPixel [Ring K] [LinearOrder K] (b : Box K) (y x : Nat) : Prop :=
  (b.x1 < (x : K) + 1 ∧ (x : K) + 1 ≤ b.x2) ∧ b.y1 < (y : K) + 1 ∧ (y : K) + 1 ≤ b.y2

/-- nothing of the box is outside the picture at the left or at the top -/
def InQuadrant [Ring K] [LinearOrder K] (b : Box K) : Prop := 0 ≤ b.x1 ∧ 0 ≤ b.y1 ∧ 0 ≤ b.x2 ∧ 0 ≤ b.y2

end Norfair.Spec
