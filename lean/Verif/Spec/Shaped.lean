import Verif.Spec.Targets

/-! Calls whose detections and transformations have the agreed shapes, and distances that are defined for them. -/

namespace Norfair.Spec

variable {K L D F X : Type}

/-- both directions of a transformation take arrays of the agreed shapes to such arrays -/
def KeepsBoth (shape : L → Nat × Nat) (c : CoordTrans K) : Prop :=
  ∀ a p, HasShape (shape a) p → HasShape (shape a) (c.relToAbs p) ∧ HasShape (shape a) (c.absToRel p)

/-- the new detections `dets` have points of the shape agreed on for their label, one score per point, and the
transformation keeps these shapes -/
structure CallShaped (shape : L → Nat × Nat) (dets : List Ref) (ct : Option (CoordTrans K))
    (h : Ref → Det K L X) : Prop where
  ok : CallOk shape dets ct h
  keeps : ∀ c, ct = some c → KeepsBoth shape c
  points : ∀ r ∈ dets, HasShape (shape (h r).label) (h r).points

/-- A distance that neither raises nor gives NaN on arrays of the agreed shapes. A vectorized distance gets stacks
of flattened arrays that belong to labels with equal `str()`. -/
def ShapedDist (fo : FilterOps K F) (shape : L → Nat × Nat) : DistFn K L D F X → Prop
  | .scalar f => ∀ d v, d.label = v.obj.label → HasShape (shape d.label) d.points →
      HasShape (shape d.label) (v.obj.estimate fo) → ∃ x, f d v = some (some x)
  | .vectorized str f => ∀ s cs os, cs ≠ [] → os ≠ [] →
      (∀ c ∈ cs, ∃ a, str a = s ∧ c.length = (shape a).2 * (shape a).1) →
      (∀ b ∈ os, ∃ a, str a = s ∧ b.length = (shape a).2 * (shape a).1) →
      ∃ M, f cs os = some M ∧ ∀ i < cs.length, ∀ j < os.length, ∃ x, M.val i j = some x

/-- one score for each point of the agreed shape -/
def HasScores (shape : L → Nat × Nat) (d : Det K L X) : Prop := ∃ s, d.scores = some s ∧ s.length = (shape d.label).1

/-- a distance that neither raises nor gives NaN on arrays of the agreed shapes, if the detection and the last one of the
object have scores -/
def ScoredDist (fo : FilterOps K F) (shape : L → Nat × Nat)
    (f : Det K L X → ObjView K L D F X → Option (Option D)) : Prop :=
  ∀ d v, d.label = v.obj.label → v.last.label = v.obj.label → HasShape (shape d.label) d.points →
    HasShape (shape d.label) (v.obj.estimate fo) → HasScores shape d → HasScores shape v.last → ∃ x, f d v = some (some x)

/-- a ReID distance that neither raises nor gives NaN for two objects of one label with estimates of the agreed shape -/
def ShapedReid (fo : FilterOps K F) (shape : L → Nat × Nat)
    (g : ObjView K L D F X → ObjView K L D F X → Option (Option D)) : Prop :=
  ∀ c o, c.obj.label = o.obj.label → HasShape (shape c.obj.label) (c.obj.estimate fo) →
    HasShape (shape c.obj.label) (o.obj.estimate fo) → ∃ x, g c o = some (some x)

end Norfair.Spec
