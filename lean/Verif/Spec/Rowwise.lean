import Verif.Model.Distances

/-! Vectorized distances that compare the rows of two stacks one by one. -/

namespace Norfair.Spec

variable {K L D F X : Type}

/-- The vectorized distance `f` is given by the distance `g` of two rows: it raises if `g` raises for some pair of
rows, and otherwise has the values of `g` (`none` is NaN). Stacks are never empty. -/
def Rowwise (f : List (List K) → List (List K) → Option (Mat (Option D)))
    (g : List K → List K → Option (Option D)) : Prop :=
  ∀ cs os, cs ≠ [] → os ≠ [] →
    (f cs os = none ↔ ∃ a ∈ cs, ∃ b ∈ os, g a b = none) ∧
    ∀ M, f cs os = some M → ∀ i a, cs[i]? = some a → ∀ j b, os[j]? = some b → g a b = some (M.val i j)

/-- the scalar distance that applies `g` to the points of the detection and the estimate of the object -/
def rowDist (fo : FilterOps K F) (g : List K → List K → Option (Option D)) : DistFn K L D F X :=
  .scalar fun d v => g d.points.data (v.obj.estimate fo).data

end Norfair.Spec
