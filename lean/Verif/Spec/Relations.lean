import Verif.Spec.Shaped
import Mathlib.Algebra.BigOperators.Group.List.Basic

/-! Linear relations between the coordinates of points: widths, heights, ratios of sides, shapes. -/

namespace Norfair.Spec

variable {K L X : Type}

/-- the coordinates with these coefficients, added up -/
def linComb [Add K] [Mul K] [Zero K] (a l : List K) : K := (List.zipWith (· * ·) a l).sum

/-- the coordinates satisfy all relations `(a, c)` of a set: the combination with coefficients `a` is `c` -/
def Satisfies [Add K] [Mul K] [Zero K] (R : List K × K → Prop) (p : Pts K) : Prop :=
  ∀ q, R q → linComb q.1 p.data = q.2

/-- The new detections `dets` have points of an agreed shape; in each of them all points are over the detection
threshold (or there are no scores) or none is; their absolute coordinates satisfy the relations of their label. Both directions of the
transformation keep the shape and the relations. -/
structure CallRelated [LinearOrder K] [Add K] [Mul K] [Zero K] (shape : L → Nat × Nat)
    (R : L → List K × K → Prop) (thr : K) (dets : List Ref) (ct : Option (CoordTrans K)) (h : Ref → Det K L X) :
    Prop where
  abs : ∀ r ∈ dets, HasShape (shape (h r).label) (h r).absPoints ∧ Satisfies (R (h r).label) (h r).absPoints
  scores : ∀ r ∈ dets, ∀ s, (h r).scores = some s → s.length = (shape (h r).label).1 ∧
    ((∀ a ∈ s, thr < a) ∨ ∀ a ∈ s, ¬ thr < a)
  keepsShape : ∀ c, ct = some c → KeepsBoth shape c
  keeps : ∀ c, ct = some c → ∀ l p, HasShape (shape l) p → Satisfies (R l) p →
    Satisfies (R l) (c.relToAbs p) ∧ Satisfies (R l) (c.absToRel p)

/-- `p` is a copy of the points `T`, moved to somewhere else: point `i` is at `T i + v` -/
def IsCopy [Add K] (T p : Pts K) : Prop :=
  HasShape (T.n, T.dim) p ∧ ∃ v : Nat → K, ∀ i < T.n, ∀ j < T.dim,
    p.data[i * T.dim + j]? = (T.data[i * T.dim + j]?).map (· + v j)

/-- The new detections `dets` are copies of the points `T` of their label in absolute coordinates (rigid bodies that
do not turn, boxes of a fixed size, ...), and in each of them all points are over the detection threshold (or there
are no scores) or none is. Both directions of the transformation take copies to copies (as translations do), and keep the number
and dimension of points. -/
structure CallCopies [LinearOrder K] [Add K] (T : L → Pts K) (thr : K) (dets : List Ref)
    (ct : Option (CoordTrans K)) (h : Ref → Det K L X) : Prop where
  abs : ∀ r ∈ dets, IsCopy (T (h r).label) (h r).absPoints
  scores : ∀ r ∈ dets, ∀ s, (h r).scores = some s → s.length = (T (h r).label).n ∧
    ((∀ a ∈ s, thr < a) ∨ ∀ a ∈ s, ¬ thr < a)
  keepsShape : ∀ c, ct = some c → KeepsBoth (fun l => ((T l).n, (T l).dim)) c
  keeps : ∀ c, ct = some c → ∀ l p, IsCopy (T l) p → IsCopy (T l) (c.relToAbs p) ∧ IsCopy (T l) (c.absToRel p)

/-- the box from the origin to `(s.1, s.2)` -/
def sizedBox [Zero K] (s : K × K) : Pts K := ⟨2, 2, [0, 0, s.1, s.2]⟩

end Norfair.Spec
