import Verif.Spec.Labels
import Mathlib.Data.List.Forall2

/-! Trackers that get the same detections in different orders. -/

namespace Norfair.Spec

variable {K L D F X : Type}

/-- detections that differ in their age only -/
def AgeBut (d d' : Det K L X) : Prop := d' = { d with age := d'.age }

/-- a distance function that does not look at numbers and `current_min_distance` of objects nor at ages of detections -/
def Timeless (f : Det K L X → ObjView K L D F X → Option (Option D)) : Prop :=
  ∀ d d' v v', AgeBut d d' → SameBut v.obj v'.obj → AgeBut v.last v'.last → List.Forall₂ AgeBut v.past v'.past →
    f d' v' = f d v

/-- no two pairs (detection, object) have the same distance below the threshold; `objs` are the objects after
`tracker_step` and `heap` the detections after `update_coordinate_transformation`, that is, when the distances are
computed -/
def NoTies [LinearOrder D] (f : Det K L X → ObjView K L D F X → Option (Option D)) (thr : D) (heap : Ref → Det K L X)
    (objs : List (Obj K L D F)) (dets : List Ref) : Prop :=
  ∀ r ∈ dets, ∀ r' ∈ dets, ∀ o ∈ objs, ∀ o' ∈ objs, ∀ d, o.isInit = o'.isInit →
    (heap r).label = o.label → (heap r').label = o'.label → f (heap r) (o.view heap) = some (some d) →
    f (heap r') (o'.view heap) = some (some d) → d < thr → r = r' ∧ o.initId = o'.initId

/-- the detections when the distances are computed -/
def seen (heap : Ref → Det K L X) (dets : List Ref) : Option (CoordTrans K) → Ref → Det K L X
  | some c => dets.foldl (transformDet c) heap
  | none => heap

/-- `p` differs from `o` in nothing but its `initializing_id` and `current_min_distance` -/
def SameObj (o p : Obj K L D F) : Prop := p = { o with initId := p.initId, curMin := p.curMin }

/-- `Shuffled cfg f a b`: two new trackers with the same settings came to `a` and `b`. At every call the second was given
the detections of the first in some other order; the first one's calls succeeded, the detections were different and
there were no ties, and the period was at most `initialization_delay`. In between the same happened to the detections
in both processes. -/
inductive Shuffled [LinearOrder K] [Zero K] [LinearOrder D] [OrderTop D] [Zero D] [DecidableEq L] (cfg : Cfg K L D F X)
    (f : Det K L X → ObjView K L D F X → Option (Option D)) : World K L D F X → World K L D F X → Prop
  | start {a b : World K L D F X} : a.Initial → b.Initial → b.heap = a.heap → b.gcount = a.gcount → Shuffled cfg f a b
  | call {a b a' : World K L D F X} {act : List (Obj K L D F)} (dets dets' : List Ref) (period : Int)
      (ct : Option (CoordTrans K)) : Shuffled cfg f a b → update cfg a (some dets) period ct = (a', .ok act) →
      dets'.Perm dets → dets.Nodup → period ≤ cfg.initDelay →
      NoTies f cfg.thr (seen a.heap dets ct) (advance cfg ct a).objs dets →
      Shuffled cfg f a' (update cfg b (some dets') period ct).1
  | env {a b : World K L D F X} (h : Ref → Det K L X) (n : Nat) : Shuffled cfg f a b →
      Shuffled cfg f { a with heap := h, gcount := n } { b with heap := h, gcount := n }

end Norfair.Spec
