import Mathlib.Order.Defs.LinearOrder
import Mathlib.Data.List.Pairwise

/-!
Specification of a greedy matching between `rows` detections and `cols` objects, independent of how
the matching is computed.
-/

namespace Norfair.Spec

variable {D : Type} [LinearOrder D]

/-- `p` is handled before or together with `q`: smaller distance first, ties are broken in
row-major order. -/
def Precedes (cols : Nat) (d : Nat → Nat → D) (p q : Nat × Nat) : Prop :=
  d p.1 p.2 < d q.1 q.2 ∨
    (d p.1 p.2 = d q.1 q.2 ∧ p.1 * cols + p.2 ≤ q.1 * cols + q.2)

/-- `l` is the list of pairs of a greedy matching for the distances `d` and threshold `thr`. -/
structure GreedyMatching (rows cols : Nat) (d : Nat → Nat → D) (thr : D)
    (l : List (Nat × Nat)) : Prop where
  /-- all indices are valid -/
  inRange : ∀ p ∈ l, p.1 < rows ∧ p.2 < cols
  /-- only pairs strictly below the threshold are matched -/
  below : ∀ p ∈ l, d p.1 p.2 < thr
  /-- a detection is matched at most once -/
  rowsNodup : (l.map Prod.fst).Nodup
  /-- an object is matched at most once -/
  colsNodup : (l.map Prod.snd).Nodup
  /-- best pairs first -/
  sorted : l.Pairwise (Precedes cols d)
  /-- every pair below the threshold is blocked by a matched pair that uses the same detection or
  the same object and is at least as good -/
  stable : ∀ i < rows, ∀ j < cols, d i j < thr →
    ∃ p ∈ l, (p.1 = i ∨ p.2 = j) ∧ Precedes cols d p (i, j)

end Norfair.Spec
