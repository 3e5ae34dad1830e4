import Verif.Model.Tracker
import Mathlib.Data.List.Forall2
import Mathlib.Data.Option.Basic

/-! Two trackers that are given corresponding data: other units or another origin of the coordinates, other
names of the labels, another scale of the distances. The relations here say what "corresponding" means. -/

namespace Norfair.Spec

variable {K K' L L' D D' F F' X X' : Type}

/-- corresponding arrays of points of the same shape -/
structure PtsRel (shape : Nat → Nat → Prop) (vec : List K → List K' → Prop) (p : Pts K) (q : Pts K') : Prop where
  shape : shape p.n p.dim
  n : q.n = p.n
  dim : q.dim = p.dim
  len : p.data.length = p.dim * p.n
  vec : vec p.data q.data

/-- corresponding functions on points, or none on either side -/
def FunsRel (shape : Nat → Nat → Prop) (vec : List K → List K' → Prop) :
    Option (Pts K → Pts K) → Option (Pts K' → Pts K') → Prop :=
  Option.Rel fun g h => ∀ p q, PtsRel shape vec p q → PtsRel shape vec (g p) (h q)

/-- corresponding distances are below the thresholds on one side if and only if on the other, and then have the same
order -/
structure Below [LT D] [LT D'] (dist : D → D' → Prop) (t : D) (t' : D') : Prop where
  thr : ∀ a x, dist a x → (a < t ↔ x < t')
  lt : ∀ a b x y, dist a x → dist b y → a < t → b < t → (a < b ↔ x < y)

/-- The shapes of points considered, and what corresponds to what: flattened arrays of (absolute) coordinates,
scores, labels, distances, the distances that objects remember, states of filters, data of the user; the points of a
detection, given together with its absolute points on both sides; the functions that objects use to convert their
estimates to relative coordinates -/
structure Corr (K K' L L' D D' F F' X X' : Type) where
  shape : Nat → Nat → Prop
  vec : List K → List K' → Prop
  score : K → K' → Prop
  label : L → L' → Prop
  dist : D → D' → Prop
  kept : Option D → Option D' → Prop
  filter : F → F' → Prop
  extra : X → X' → Prop
  pts : Ref → Pts K → Pts K → Pts K' → Pts K' → Prop
  back : Option (Pts K → Pts K) → Option (Pts K' → Pts K') → Prop

namespace Corr

variable (R : Corr K K' L L' D D' F F' X X')

/-- corresponding arrays of points of the same shape -/
abbrev Points (p : Pts K) (q : Pts K') : Prop := PtsRel R.shape R.vec p q

/-- corresponding detections -/
structure Dets (r : Ref) (d : Det K L X) (e : Det K' L' X') : Prop where
  points : R.pts r d.points d.absPoints e.points e.absPoints
  scores : Option.Rel (List.Forall₂ R.score) d.scores e.scores
  label : R.label d.label e.label
  extra : R.extra d.extra e.extra
  absPoints : R.Points d.absPoints e.absPoints
  age : e.age = d.age

/-- corresponding functions on points -/
def Funs (g : Pts K → Pts K) (h : Pts K' → Pts K') : Prop :=
  ∀ p q, R.Points p q → R.Points (g p) (h q)

/-- corresponding tracked objects: the same identities and counters -/
structure Objs (o : Obj K L D F) (p : Obj K' L' D' F') : Prop where
  shape : R.shape o.numPoints o.dimPoints
  initId : p.initId = o.initId
  id : p.id = o.id
  globalId : p.globalId = o.globalId
  numPoints : p.numPoints = o.numPoints
  dimPoints : p.dimPoints = o.dimPoints
  hitCounter : p.hitCounter = o.hitCounter
  reidHitCounter : p.reidHitCounter = o.reidHitCounter
  lastDistance : R.kept o.lastDistance p.lastDistance
  curMin : R.kept o.curMin p.curMin
  lastDet : p.lastDet = o.lastDet
  age : p.age = o.age
  isInit : p.isInit = o.isInit
  pwMax : p.pwMax = o.pwMax
  initialPeriod : p.initialPeriod = o.initialPeriod
  once : p.once = o.once
  pointHits : p.pointHits = o.pointHits
  past : p.past = o.past
  filter : R.filter o.filter p.filter
  label : R.label o.label p.label
  absToRel : R.back o.absToRel p.absToRel

/-- corresponding views of objects whose filter has one sensor per coordinate -/
structure Views (fo : FilterOps K F) (v : ObjView K L D F X) (u : ObjView K' L' D' F' X') : Prop where
  obj : R.Objs v.obj u.obj
  sensors : fo.dimZ v.obj.filter = v.obj.dimZ
  last : R.Dets v.obj.lastDet v.last u.last
  past : List.Forall₂ (fun d e => ∃ r, R.Dets r d e) v.past u.past

/-- corresponding results of distance functions: exceptions, NaN, distances -/
def Dist : Option (Option D) → Option (Option D') → Prop := Option.Rel (Option.Rel R.dist)

/-- corresponding filters -/
structure Filters [Zero K] [Zero K'] (fo : FilterOps K F) (go : FilterOps K' F') : Prop where
  create : ∀ p q, R.Points p q → R.filter (fo.create p) (go.create q)
  dimZ : ∀ f g, R.filter f g → go.dimZ g = fo.dimZ f
  predict : ∀ f g, R.filter f g → R.filter (fo.predict f) (go.predict g) ∧
    fo.dimZ (fo.predict f) = fo.dimZ f
  update : ∀ f g z z' mask, R.filter f g → R.vec z z' → z.length = fo.dimZ f → mask.length = fo.dimZ f →
    R.filter (fo.update f z mask) (go.update g z' mask) ∧ fo.dimZ (fo.update f z mask) = fo.dimZ f
  positions : ∀ f g, R.filter f g →
    R.vec ((fo.getX f).take (fo.dimZ f)) ((go.getX g).take (fo.dimZ f)) ∧
    ((fo.getX f).take (fo.dimZ f)).length = fo.dimZ f
  /-- some positions are overwritten with measurements, some velocities with zeros -/
  setX : ∀ f g z z' m1 m2, R.filter f g → R.vec z z' → z.length = fo.dimZ f → m1.length = fo.dimZ f →
    m2.length = fo.dimZ f →
    R.filter
      (fo.setX f (maskAssign m1 ((fo.getX f).take (fo.dimZ f)) z ++
        maskAssign m2 ((fo.getX f).drop (fo.dimZ f)) (List.replicate (fo.dimZ f) 0)))
      (go.setX g (maskAssign m1 ((go.getX g).take (fo.dimZ f)) z' ++
        maskAssign m2 ((go.getX g).drop (fo.dimZ f)) (List.replicate (fo.dimZ f) 0))) ∧
    fo.dimZ (fo.setX f (maskAssign m1 ((fo.getX f).take (fo.dimZ f)) z ++
        maskAssign m2 ((fo.getX f).drop (fo.dimZ f)) (List.replicate (fo.dimZ f) 0))) = fo.dimZ f

/-- corresponding distance functions -/
inductive DistFns (fo : FilterOps K F) : DistFn K L D F X → DistFn K' L' D' F' X' → Prop
  | scalar (f g) : (∀ r d e v u, R.Dets r d e → R.Views fo v u → R.Dist (f d v) (g e u)) →
      DistFns fo (.scalar f) (.scalar g)
  | vectorized (str str' f g) :
      (∀ a b x y, R.label a x → R.label b y → (str a = str b ↔ str' x = str' y)) →
      (∀ A A' B B', List.Forall₂ R.vec A A' → List.Forall₂ R.vec B B' →
        Option.Rel (fun M N => ∀ i j, i < A.length → j < B.length →
          Option.Rel R.dist (M.val i j) (N.val i j)) (f A B) (g A' B')) →
      DistFns fo (.vectorized str f) (.vectorized str' g)

/-- corresponding configurations of trackers, apart from the distance functions -/
structure Core [LinearOrder K] [Zero K] [LinearOrder K'] [Zero K'] [LinearOrder D] [Top D] [Zero D]
    [LinearOrder D'] [Top D'] [Zero D'] (cfg : Cfg K L D F X) (cfg' : Cfg K' L' D' F' X') : Prop where
  /-- labels: equal on one side if and only if on the other -/
  labels : ∀ a b x y, R.label a x → R.label b y → (a = b ↔ x = y)
  /-- distances: the same order below the thresholds, and infinity -/
  below : Below R.dist cfg.thr cfg'.thr
  reidBelow : cfg.reid = none ∨ Below R.dist cfg.reidThr cfg'.reidThr
  top : R.dist ⊤ ⊤
  /-- what objects remember corresponds if the distances do -/
  keptNone : R.kept none none
  keptSome : ∀ a x, R.dist a x → R.kept (some a) (some x)
  /-- scores: over the threshold on one side if and only if on the other -/
  scores : ∀ s t, R.score s t → (cfg.detThr < s ↔ cfg'.detThr < t)
  /-- corresponding arrays have the same length -/
  length : ∀ l m, R.vec l m → m.length = l.length
  /-- the values written over matched rows and columns are not below the thresholds, or correspond -/
  fill : R.dist cfg.fill cfg'.fill ∨ (¬ cfg.fill < cfg.thr ∧ ¬ cfg'.fill < cfg'.thr)
  reidFill : cfg.reid = none ∨ R.dist cfg.reidFill cfg'.reidFill ∨
    (¬ cfg.reidFill < cfg.reidThr ∧ ¬ cfg'.reidFill < cfg'.reidThr)
  filters : R.Filters cfg.flt cfg'.flt
  reid : Option.Rel (fun f g => ∀ c d v u, R.Views cfg.flt c d → R.Views cfg.flt v u →
    R.Dist (f c v) (g d u)) cfg.reid cfg'.reid
  hitCounterMax : cfg'.hitCounterMax = cfg.hitCounterMax
  initDelay : cfg'.initDelay = cfg.initDelay
  pwMax : cfg'.pwMax = cfg.pwMax
  pastLen : cfg'.pastLen = cfg.pastLen
  reidMax : cfg'.reidMax = cfg.reidMax

/-- corresponding configurations of trackers -/
structure Cfgs [LinearOrder K] [Zero K] [LinearOrder K'] [Zero K'] [LinearOrder D] [Top D] [Zero D]
    [LinearOrder D'] [Top D'] [Zero D'] (cfg : Cfg K L D F X) (cfg' : Cfg K' L' D' F' X') : Prop where
  /-- labels: equal on one side if and only if on the other -/
  labels : ∀ a b x y, R.label a x → R.label b y → (a = b ↔ x = y)
  /-- distances: the same order, infinity and zero -/
  lt : ∀ a b x y, R.dist a x → R.dist b y → (a < b ↔ x < y)
  top : R.dist ⊤ ⊤
  zero : ∀ a x, R.dist a x → (a = 0 ↔ x = 0)
  /-- scores: over the threshold on one side if and only if on the other -/
  scores : ∀ s t, R.score s t → (cfg.detThr < s ↔ cfg'.detThr < t)
  /-- corresponding arrays have the same length -/
  length : ∀ l m, R.vec l m → m.length = l.length
  thr : R.dist cfg.thr cfg'.thr
  /-- the values written over matched rows and columns are not below the thresholds, or correspond -/
  fill : R.dist cfg.fill cfg'.fill ∨ (¬ cfg.fill < cfg.thr ∧ ¬ cfg'.fill < cfg'.thr)
  reidThr : R.dist cfg.reidThr cfg'.reidThr
  reidFill : R.dist cfg.reidFill cfg'.reidFill ∨ (¬ cfg.reidFill < cfg.reidThr ∧ ¬ cfg'.reidFill < cfg'.reidThr)
  filters : R.Filters cfg.flt cfg'.flt
  dist : R.DistFns cfg.flt cfg.dist cfg'.dist
  reid : Option.Rel (fun f g => ∀ c d v u, R.Views cfg.flt c d → R.Views cfg.flt v u →
    R.Dist (f c v) (g d u)) cfg.reid cfg'.reid
  hitCounterMax : cfg'.hitCounterMax = cfg.hitCounterMax
  initDelay : cfg'.initDelay = cfg.initDelay
  pwMax : cfg'.pwMax = cfg.pwMax
  pastLen : cfg'.pastLen = cfg.pastLen
  reidMax : cfg'.reidMax = cfg.reidMax
  kept : R.kept = Option.Rel R.dist := by rfl

/-- corresponding coordinate transformations -/
def Trans (c : CoordTrans K) (e : CoordTrans K') : Prop :=
  R.Funs c.relToAbs e.relToAbs ∧ R.Funs c.absToRel e.absToRel

/-- the points of detections correspond, and so do the functions of objects -/
structure Plain : Prop where
  pts : R.pts = fun _ p _ q _ => R.Points p q
  back : R.back = FunsRel R.shape R.vec

/-- corresponding detections everywhere -/
def Heaps (h : Ref → Det K L X) (h' : Ref → Det K' L' X') : Prop := ∀ r, R.Dets r (h r) (h' r)

/-- corresponding states of two trackers -/
structure Worlds (w : World K L D F X) (w' : World K' L' D' F' X') : Prop where
  heap : R.Heaps w.heap w'.heap
  gcount : w'.gcount = w.gcount
  count : w'.count = w.count
  initCount : w'.initCount = w.initCount
  objs : List.Forall₂ R.Objs w.objs w'.objs

/-- corresponding results of `update`: the same error, or lists of corresponding objects -/
inductive Outs : Except Err (List (Obj K L D F)) → Except Err (List (Obj K' L' D' F')) → Prop
  | error (e) : Outs (.error e) (.error e)
  | ok {a b} : List.Forall₂ R.Objs a b → Outs (.ok a) (.ok b)

end Corr

end Norfair.Spec
