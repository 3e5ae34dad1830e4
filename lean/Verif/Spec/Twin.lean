import Verif.Spec.Parametric
import Verif.Spec.Points
import Verif.Spec.Rounds
import Verif.Model.History
import Mathlib.Algebra.Order.Group.Abs
import Mathlib.Order.WithBot

/-! Two trackers with the same arguments apart from the arithmetic: other filters, other distance functions, even other
numbers, for example exact and rounded ones. -/

namespace Norfair.Spec

variable {K K' L D D' F F' X X' : Type}

/-- arrays of points of the same shape -/
structure SameShapes (p : Pts K) (q : Pts K') : Prop where
  n : q.n = p.n
  dim : q.dim = p.dim
  len : p.data.length = p.dim * p.n
  len' : q.data.length = q.dim * q.n

/-- detections with the same label, age and shape of points, and the same points over the detection thresholds; the
coordinates may differ -/
structure TwinDet [LT K] [LT K'] (thr : K) (thr' : K') (d : Det K L X) (e : Det K' L X') : Prop where
  label : e.label = d.label
  age : e.age = d.age
  points : SameShapes d.points e.points
  absPoints : SameShapes d.absPoints e.absPoints
  seen : Option.Rel (List.Forall₂ fun s t => thr < s ↔ thr' < t) d.scores e.scores

/-- objects that differ in estimates and distances only -/
structure TwinObj (o : Obj K L D F) (p : Obj K' L D' F') : Prop where
  initId : p.initId = o.initId
  id : p.id = o.id
  globalId : p.globalId = o.globalId
  hitCounter : p.hitCounter = o.hitCounter
  reidHitCounter : p.reidHitCounter = o.reidHitCounter
  age : p.age = o.age
  isInit : p.isInit = o.isInit
  label : p.label = o.label
  lastDet : p.lastDet = o.lastDet
  past : p.past = o.past
  pointHits : p.pointHits = o.pointHits
  once : p.once = o.once

/-- the function gives as many points of the same dimension -/
def Shapely (g : Pts K → Pts K) : Prop :=
  ∀ p, p.data.length = p.dim * p.n → (g p).n = p.n ∧ (g p).dim = p.dim ∧ (g p).data.length = p.data.length

/-- two transformations that give as many points of the same dimensions, or none on either side -/
def ShapelyTrans : Option (CoordTrans K) → Option (CoordTrans K') → Prop :=
  Option.Rel fun c e => (Shapely c.relToAbs ∧ Shapely c.absToRel) ∧ Shapely e.relToAbs ∧ Shapely e.absToRel

/-- all that is needed about the other filter: its arrays have the right lengths -/
structure FilterDims [Zero K] (fo : FilterOps K F) (Ok : F → Prop) : Prop where
  len : ∀ f, Ok f → (fo.getX f).length = 2 * fo.dimZ f
  create : ∀ p : Pts K, p.data.length = p.dim * p.n → Ok (fo.create p) ∧ fo.dimZ (fo.create p) = p.dim * p.n
  predict : ∀ f, Ok f → Ok (fo.predict f) ∧ fo.dimZ (fo.predict f) = fo.dimZ f
  update : ∀ f z mask, Ok f → z.length = fo.dimZ f → mask.length = fo.dimZ f →
    Ok (fo.update f z mask) ∧ fo.dimZ (fo.update f z mask) = fo.dimZ f
  setX : ∀ f x, Ok f → x.length = 2 * fo.dimZ f → Ok (fo.setX f x) ∧ fo.dimZ (fo.setX f x) = fo.dimZ f

/-- the same arguments apart from arithmetic, no ReID distance; the value written over matched rows and columns is not
below the threshold (it is the threshold plus one) -/
structure SameArgs [LT D] [LT D'] (cfg : Cfg K L D F X) (cfg' : Cfg K' L D' F' X') : Prop where
  hitCounterMax : cfg'.hitCounterMax = cfg.hitCounterMax
  initDelay : cfg'.initDelay = cfg.initDelay
  pwMax : cfg'.pwMax = cfg.pwMax
  pastLen : cfg'.pastLen = cfg.pastLen
  reidMax : cfg'.reidMax = cfg.reidMax
  reid : cfg.reid = none
  reid' : cfg'.reid = none
  fill : ¬ cfg.fill < cfg.thr
  fill' : ¬ cfg'.fill < cfg'.thr

/-- the detections as they are at the comparison: transformed, perhaps with other ages -/
def Aged (h h' : Ref → Det K L X) : Prop := ∀ r, ∃ a, h' r = { h r with age := a }

/-- In a call in these states, a detection and an object that may be compared have distances related by `Q`: NaN on both
sides, or exceptions on both sides, or related values. -/
def Compare [LinearOrder K] [Zero K] [LinearOrder K'] [Zero K'] (cfg : Cfg K L D F X) (cfg' : Cfg K' L D' F' X')
    (f : Det K L X → ObjView K L D F X → Option (Option D))
    (g : Det K' L X' → ObjView K' L D' F' X' → Option (Option D')) (Q : D → D' → Prop)
    (w : World K L D F X) (v : World K' L D' F' X') (heap : Ref → Det K L X) (heap' : Ref → Det K' L X')
    (dets : List Ref) (ct : Option (CoordTrans K)) (ct' : Option (CoordTrans K')) : Prop :=
  ∀ r ∈ dets, ∀ o ∈ w.objs, ∀ p ∈ v.objs, p.initId = o.initId → CanMatch cfg.reidMax o →
    (w.heap r).label = o.label → ∀ h h', Aged heap h → Aged heap' h' → (∀ s, (h' s).age = (h s).age) →
    Option.Rel (Option.Rel Q) (f (h r) (((o.trackerStep cfg).updateCT ct).view h))
      (g (h' r) (((p.trackerStep cfg').updateCT ct').view h'))

/-- Distances `a` and rounded distances `x`: rounding errors are at most `ε`, no distance is so close to the threshold `t`
that this matters, and two distances below it are the same on both sides or differ by more than twice the error. -/
structure Near {A : Type} [Lattice A] [AddCommGroup A] (ε t : A) (Q : A → A → Prop) : Prop where
  error : ∀ a x, Q a x → |a - x| ≤ ε
  margin : ∀ a x, Q a x → a + ε < t ∨ t + ε ≤ a
  apart : ∀ a b x y, Q a x → Q b y → a < t → b < t → (a = b ∧ x = y) ∨ ε + ε < |a - b|

/-- related finite distances -/
def FinitePair {A B : Type} (Q : A → B → Prop) (a : WithTop A) (x : WithTop B) : Prop :=
  ∃ (b : A) (y : B), a = (b : WithTop A) ∧ x = (y : WithTop B) ∧ Q b y

end Norfair.Spec
