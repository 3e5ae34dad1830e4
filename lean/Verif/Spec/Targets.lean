import Verif.Spec.Points
import Verif.Spec.Frames
import Mathlib.Algebra.Order.Field.Basic
import Mathlib.Algebra.Order.Group.Abs

/-! Moving targets, the detections of them, and distances that tell them apart. -/

namespace Norfair.Spec

variable {K L D F X : Type} [Field K] [LinearOrder K]

/-- a target with a label; coordinate `c` (of the flattened array of its points) is at `path k c` in frame `k` -/
structure Target (K L : Type) where
  label : L
  path : Nat → Nat → K

/-- where coordinate `c` is in frame `k` -/
def Target.at (T : Target K L) (k c : Nat) : K := T.path k c

/-- the distance that coordinate `c` moves after frame `k` -/
def Target.vel (T : Target K L) (k c : Nat) : K := T.at (k + 1) c - T.at k c

/-- no velocity changes by more than `A` from a frame to the next -/
def Target.Steady (T : Target K L) (A : K) : Prop := ∀ k c, |T.vel (k + 1) c - T.vel k c| ≤ A

/-- a target with constant velocity: coordinate `c` is at `start c` in the first frame and moves by `vel c` per
frame -/
def Target.line (label : L) (start vel : Nat → K) : Target K L := ⟨label, fun k c => start c + k * vel c⟩

/-- the points of an array of the shape agreed on -/
def HasShape (s : Nat × Nat) (p : Pts K) : Prop := p.n = s.1 ∧ p.dim = s.2 ∧ p.data.length = s.2 * s.1

/-- the points of a new detection in absolute coordinates, if the call has the transformation `ct` -/
def placed (ct : Option (CoordTrans K)) (d : Det K L X) : Pts K :=
  match ct with
  | none => d.points
  | some c => c.relToAbs d.points

/-- `d` is a new detection of the target `T` in frame `k`: with its label, all points over the detection
threshold, and every coordinate (in absolute coordinates) off by at most `W` -/
structure Shows (thr : K) (shape : L → Nat × Nat) (W : K) (ct : Option (CoordTrans K)) (T : Target K L) (k : Nat)
    (d : Det K L X) : Prop where
  label : d.label = T.label
  points : HasShape (shape T.label) d.points
  new : d.absPoints = d.points
  scores : ∀ s, d.scores = some s → s.length = d.points.n
  seen : ∀ i < (shape T.label).1, Seen thr d i
  close : ∀ c y, (placed ct d).data[c]? = some y → |y - T.at k c| ≤ W

/-- the transformation moves all points by the same amount along each axis, and the two directions are inverse:
differences of points are the same in relative and in absolute coordinates -/
structure Rigid (shape : L → Nat × Nat) (c : CoordTrans K) : Prop where
  toAbs : ∀ a p, HasShape (shape a) p → HasShape (shape a) (c.relToAbs p)
  toRel : ∀ a p, HasShape (shape a) p → HasShape (shape a) (c.absToRel p)
  diff : ∀ a p q, HasShape (shape a) p → HasShape (shape a) q → ∀ (i : Nat) (x x' y y' : K),
    p.data[i]? = some x → (c.relToAbs p).data[i]? = some x' → q.data[i]? = some y' →
    (c.absToRel q).data[i]? = some y → x - y = x' - y'

/-- the camera either never moves and no transformations are passed, or every call gets one -/
def CameraOk (shape : L → Nat × Nat) (moving : Prop) : Option (CoordTrans K) → Prop
  | none => ¬ moving
  | some c => moving ∧ Rigid shape c

/-- In frame `k` the call gets exactly one new detection of each target, in any order; `who` says which
detection is of which target. -/
structure ShowsAll {ι : Type} (thr : K) (shape : L → Nat × Nat) (W : K) (moving : Prop) (tgt : ι → Target K L)
    (who : Ref → ι) (k : Nat) (f : Frame K L D F X) : Prop where
  camera : CameraOk shape moving f.ct
  period : 1 ≤ f.period
  nodup : (given f).Nodup
  fresh : ∀ o ∈ f.before.objs, o.lastDet ∉ given f
  every : ∀ i, ∃ r ∈ given f, who r = i
  once : ∀ r ∈ given f, ∀ r' ∈ given f, who r = who r' → r = r'
  shown : ∀ r ∈ given f, Shows thr shape W f.ct (tgt (who r)) k (f.before.heap r)

/-- a distance of points of equal label and shape that is below `thr` if all coordinates differ by at most
`near`, and not if one differs by at least `far` -/
structure Gauge [LinearOrder D] (fo : FilterOps K F) (shape : L → Nat × Nat)
    (f : Det K L X → ObjView K L D F X → Option (Option D)) (thr : D) (near far : K) : Prop where
  near : ∀ d v x, d.label = v.obj.label → HasShape (shape d.label) d.points →
    HasShape (shape d.label) (v.obj.estimate fo) → f d v = some (some x) →
    (∀ (c : Nat) (a b : K), d.points.data[c]? = some a → (v.obj.estimate fo).data[c]? = some b → |a - b| ≤ near) →
    x < thr
  far : ∀ d v x, d.label = v.obj.label → HasShape (shape d.label) d.points →
    HasShape (shape d.label) (v.obj.estimate fo) → f d v = some (some x) →
    ∀ (c : Nat) (a b : K), d.points.data[c]? = some a → (v.obj.estimate fo).data[c]? = some b → far ≤ |a - b| →
    thr ≤ x

end Norfair.Spec
