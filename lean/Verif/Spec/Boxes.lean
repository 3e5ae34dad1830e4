import Verif.Spec.Shaped

/-! Calls whose detections are bounding boxes. -/

namespace Norfair.Spec

variable {K L X : Type}

/-- two points with two coordinates: the corners of a box that is neither empty nor inverted -/
def ProperBox [LT K] (p : Pts K) : Prop := ∃ a b c d, p = ⟨2, 2, [a, b, c, d]⟩ ∧ a < c ∧ b < d

/-- The new detections `dets` are proper boxes, in the frame and in absolute coordinates; either both corners are over
the detection threshold or none is (as in the files of the MOTChallenge, where a box has one score; or there are no
scores). Both directions of the transformation take two points to two
points, and proper boxes to proper boxes. -/
structure CallBoxes [LT K] (thr : K) (dets : List Ref) (ct : Option (CoordTrans K)) (h : Ref → Det K L X) :
    Prop where
  points : ∀ r ∈ dets, ProperBox (h r).points
  abs : ∀ r ∈ dets, ProperBox (h r).absPoints
  seen : ∀ r ∈ dets, ∀ s, (h r).scores = some s → ∃ a b, s = [a, b] ∧ (thr < a ↔ thr < b)
  keeps : ∀ c, ct = some c → KeepsBoth (fun _ : L => (2, 2)) c
  boxes : ∀ c, ct = some c → ∀ p, ProperBox p → ProperBox (c.relToAbs p) ∧ ProperBox (c.absToRel p)

end Norfair.Spec
