import Verif.Model.History
import Mathlib.Order.BoundedOrder.Basic

/-! Objects of two trackers that are the same up to their numbers. -/

namespace Norfair.Spec

variable {K L D F X : Type}

/-- `p` differs from `o` in nothing but its numbers (`initializing_id`, `id`, `global_id`) and
`current_min_distance` -/
def SameBut (o p : Obj K L D F) : Prop :=
  p = { o with initId := p.initId, id := p.id, globalId := p.globalId, curMin := p.curMin }

/-- the same for what a distance function sees of an object -/
structure ViewBut (v u : ObjView K L D F X) : Prop where
  obj : SameBut v.obj u.obj
  last : u.last = v.last
  past : u.past = v.past

/-- a distance function that does not look at numbers and `current_min_distance` of objects -/
def Blind (f : Det K L X → ObjView K L D F X → Option (Option D)) : Prop :=
  ∀ d v u, ViewBut v u → f d u = f d v

/-- a ReID distance that does not look at numbers and `current_min_distance` of objects -/
def BlindReid (f : ObjView K L D F X → ObjView K L D F X → Option (Option D)) : Prop :=
  ∀ v v' u u', ViewBut v u → ViewBut v' u' → f u u' = f v v'

/-- the distances of the tracker do not look at numbers and `current_min_distance` of objects, and do not
mix labels in `S` with others (this concerns `VectorizedDistance`, which compares the texts of labels) -/
def BlindTo (cfg : Cfg K L D F X) (S : L → Bool) : Prop :=
  (match cfg.dist with
    | .scalar f => Blind f
    | .vectorized str _ => ∃ T : String → Bool, ∀ l, S l = T (str l)) ∧
  ∀ f, cfg.reid = some f → BlindReid f

/-- `Parted cfg S a b`: two new trackers with the same settings came to `a` and `b`. At every call the second was
given the detections of the first whose labels are in `S`, the first one's calls succeeded; in between the
detections with labels in `S` were changed in the same way in both processes, those with other labels in any way,
but no label of a detection changed. -/
inductive Parted [LinearOrder K] [Zero K] [LinearOrder D] [OrderTop D] [Zero D] [DecidableEq L] (cfg : Cfg K L D F X)
    (S : L → Bool) : World K L D F X → World K L D F X → Prop
  | start {a b : World K L D F X} : a.Initial → b.Initial →
      (∀ r, (b.heap r).label = (a.heap r).label ∧ (S (a.heap r).label = true → b.heap r = a.heap r)) → Parted cfg S a b
  | call {a b a' : World K L D F X} {act : List (Obj K L D F)} (dets : Option (List Ref)) (period : Int)
      (ct : Option (CoordTrans K)) : Parted cfg S a b → update cfg a dets period ct = (a', .ok act) →
      Parted cfg S a' (update cfg b (dets.map (·.filter fun r => S (a.heap r).label)) period ct).1
  | env {a b : World K L D F X} (h g : Ref → Det K L X) (n m : Nat) : Parted cfg S a b →
      (∀ r, (h r).label = (a.heap r).label ∧ (g r).label = (a.heap r).label ∧
        (S (a.heap r).label = true → g r = h r)) →
      Parted cfg S { a with heap := h, gcount := n } { b with heap := g, gcount := m }

end Norfair.Spec
