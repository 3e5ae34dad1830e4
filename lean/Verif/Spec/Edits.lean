import Verif.Model.Tracker
import Mathlib.Data.List.Forall2

/-! Programs that write to detections which they gave to the tracker earlier (say, because all detections of a program
share one array of points that is used again and again). -/

namespace Norfair.Spec

variable {K L D F X Y : Type}

/-- Two memories agree on the detections in `N`, on all ages, and on what `obs` shows of a detection. -/
def AgreeOn (N : Ref → Prop) (obs : Det K L X → Y) (h h' : Ref → Det K L X) : Prop :=
  ∀ r, (h' r).age = (h r).age ∧ obs (h' r) = obs (h r) ∧ (N r → h' r = h r)

/-- two views of an object that differ only in parts of its detections that `obs` does not show -/
structure SameView (obs : Det K L X → Y) (v u : ObjView K L D F X) : Prop where
  obj : u.obj = v.obj
  last : obs u.last = obs v.last ∧ u.last.age = v.last.age
  past : List.Forall₂ (fun d e => obs e = obs d ∧ e.age = d.age) v.past u.past

/-- The distances of a tracker look at the detections of an object (`last_detection`, `past_detections`) only through
`obs`. Of the detection to be matched they may look at everything. -/
structure LooksAt (obs : Det K L X → Y) (cfg : Cfg K L D F X) : Prop where
  dist : ∀ f, cfg.dist = .scalar f → ∀ d v u, SameView obs v u → f d u = f d v
  reid : ∀ f, cfg.reid = some f → ∀ v u v' u', SameView obs v u → SameView obs v' u' → f u u' = f v v'

/-- `obs` does not show the age, which the tracker writes -/
def Ageless (obs : Det K L X → Y) : Prop := ∀ d a, obs { d with age := a } = obs d

end Norfair.Spec
