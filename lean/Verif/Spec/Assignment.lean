import Mathlib.Order.Defs.LinearOrder
import Mathlib.Data.Finset.Basic

/-!
Any way of giving detections to objects, good or bad, to compare the greedy one with.
-/

namespace Norfair.Spec

variable {D : Type} [LinearOrder D]

/-- A one-to-one assignment of some of the `rows` detections to some of the `cols` objects, all distances below `t`. -/
structure Assignment (rows cols : Nat) (d : Nat → Nat → D) (t : D) (S : Finset (Nat × Nat)) : Prop where
  inRange : ∀ q ∈ S, q.1 < rows ∧ q.2 < cols
  below : ∀ q ∈ S, d q.1 q.2 < t
  sameRow : ∀ q ∈ S, ∀ q' ∈ S, q.1 = q'.1 → q = q'
  sameCol : ∀ q ∈ S, ∀ q' ∈ S, q.2 = q'.2 → q = q'

end Norfair.Spec
