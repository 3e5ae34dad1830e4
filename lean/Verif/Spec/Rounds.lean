import Verif.Model.Tracker
import Verif.Spec.Matching

/-! What it means that detections and objects are matched greedily, seen from outside. -/

namespace Norfair.Spec

variable {K L D F X : Type}

/-- `x` is the distance of a detection and an object for the distance function `f`: infinite if the
labels differ -/
def ScalarDist [Top D] (f : Det K L X → ObjView K L D F X → Option (Option D)) (d : Det K L X)
    (v : ObjView K L D F X) (x : D) : Prop :=
  (d.label = v.obj.label ∧ f d v = some (some x)) ∨ (d.label ≠ v.obj.label ∧ x = ⊤)

/-- the elements of `l` at the positions that are not in `idx`, in order -/
def leftOver {α : Type} (l : List α) (idx : List Nat) : List α :=
  (List.range l.length).filterMap (fun i => if i ∈ idx then none else l[i]?)

/-- an object that can be matched to a detection: alive and (if objects are kept for ReID) not yet to
be dropped -/
def CanMatch (reidMax : Option Int) (o : Obj K L D F) : Prop :=
  0 ≤ o.hitCounter ∧ (reidMax = none ∨ ∀ r, o.reidHitCounter = some r → 0 ≤ r)

instance (reidMax : Option Int) (o : Obj K L D F) : Decidable (CanMatch reidMax o) := by
  unfold CanMatch
  cases o.reidHitCounter with
  | none => exact decidable_of_iff (0 ≤ o.hitCounter) (by simp)
  | some r => exact decidable_of_iff (0 ≤ o.hitCounter ∧ (reidMax = none ∨ 0 ≤ r)) (by simp)

/-- One round of matching the detections `dets` with the objects `objs` (in the state in which they are
compared), for detections stored in `h`; `pairs` are the matched positions, `rest` the detections
left over, `after` the tracked objects when the call returns. -/
structure Round [LinearOrder D] [Top D] (f : Det K L X → ObjView K L D F X → Option (Option D)) (thr : D)
    (h : Ref → Det K L X) (objs : List (Obj K L D F)) (dets : List Ref) (d : Nat → Nat → D)
    (pairs : List (Nat × Nat)) (rest : List Ref) (after : List (Obj K L D F)) : Prop where
  dist : ∀ i j r o, dets[i]? = some r → objs[j]? = some o →
    ScalarDist f (h r) ⟨o, h o.lastDet, o.past.map h⟩ (d i j)
  greedy : GreedyMatching dets.length objs.length d thr pairs
  rest : rest = leftOver dets (pairs.map Prod.fst)
  outcome : ∀ p ∈ pairs, ∃ r o, dets[p.1]? = some r ∧ objs[p.2]? = some o ∧
    ∀ o' ∈ after, o'.initId = o.initId → o'.lastDet = r ∧ o'.lastDistance = some (d p.1 p.2)

end Norfair.Spec
