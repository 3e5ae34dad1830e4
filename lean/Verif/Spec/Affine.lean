import Verif.Spec.Parametric
import Verif.Spec.Points
import Verif.Model.History
import Mathlib.Algebra.Ring.Defs

/-! Other units and another origin for every coordinate; histories of two trackers side by side. -/

namespace Norfair.Spec

/-- coordinate `k` of a flattened array is multiplied by `a k` and moved by `b k` -/
def aff {K : Type} [Mul K] [Add K] (a b : Nat → K) : List K → List K
  | [] => []
  | x :: l => (a 0 * x + b 0) :: aff (fun k => a (k + 1)) (fun k => b (k + 1)) l

/-- the same for points -/
def affPts {K : Type} [Mul K] [Add K] (a b : Nat → K) (p : Pts K) : Pts K := ⟨p.n, p.dim, aff a b p.data⟩

/-- a state array of `d` positions and `d` velocities: velocities are only multiplied -/
def affState {K : Type} [Mul K] [Add K] [Zero K] (a b : Nat → K) (d : Nat) (x : List K) : List K :=
  aff a b (x.take d) ++ aff a (fun _ => 0) (x.drop d)

/-- What makes a filter work alike in other units: the state in other units is what comes out of prediction
and correction in other units. -/
structure AffineLaws {K F : Type} [CommRing K] (fo : FilterOps K F) (Ok : F → Prop) (a b : Nat → K) : Prop where
  create : ∀ p q : Pts K, q.n = p.n → q.dim = p.dim → p.data.length = p.dim * p.n →
    q.data = aff a b p.data →
    fo.create q = fo.setX (fo.create p) (affState a b (p.dim * p.n) (fo.getX (fo.create p)))
  predict : ∀ f, Ok f → fo.predict (fo.setX f (affState a b (fo.dimZ f) (fo.getX f))) =
    fo.setX (fo.predict f) (affState a b (fo.dimZ f) (fo.getX (fo.predict f)))
  update : ∀ f z mask, Ok f → z.length = fo.dimZ f → mask.length = fo.dimZ f →
    fo.update (fo.setX f (affState a b (fo.dimZ f) (fo.getX f))) (aff a b z) mask =
      fo.setX (fo.update f z mask) (affState a b (fo.dimZ f) (fo.getX (fo.update f z mask)))
  setX : ∀ f x y, Ok f → x.length = 2 * fo.dimZ f → fo.setX (fo.setX f x) y = fo.setX f y

/-- the same filter in other units -/
def AffFilter {K F : Type} [CommRing K] (fo : FilterOps K F) (Ok : F → Prop) (a b : Nat → K) (f g : F) : Prop :=
  Ok f ∧ g = fo.setX f (affState a b (fo.dimZ f) (fo.getX f))

variable {K K' L L' D D' F F' X X' : Type}
variable [LinearOrder K] [Zero K] [LinearOrder D] [OrderTop D] [Zero D] [DecidableEq L]
  [LinearOrder K'] [Zero K'] [LinearOrder D'] [OrderTop D'] [Zero D'] [DecidableEq L']

/-- Two trackers with corresponding arguments, from their construction on: they are given corresponding
detections and transformations, of agreed shapes, in as many calls with the same periods; what happens in
between to detections corresponds as well. -/
inductive Parallel (R : Corr K K' L L' D D' F F' X X') (cfg : Cfg K L D F X) (cfg' : Cfg K' L' D' F' X')
    (shape : L → Nat × Nat) : World K L D F X → World K' L' D' F' X' → Prop
  | start {w w'} : w.Initial → w'.Initial → R.Heaps w.heap w'.heap → w'.gcount = w.gcount →
      Parallel R cfg cfg' shape w w'
  | call {w w'} (dets : Option (List Ref)) (period : Int) {ct ct'} : Parallel R cfg cfg' shape w w' →
      CallOk shape (dets.getD []) ct w.heap → Option.Rel R.Trans ct ct' →
      Parallel R cfg cfg' shape (update cfg w dets period ct).1 (update cfg' w' dets period ct').1
  | env {w w'} {heap heap'} (gcount : Nat) : Parallel R cfg cfg' shape w w' → EnvOk w heap gcount →
      R.Heaps heap heap' →
      Parallel R cfg cfg' shape { w with heap := heap, gcount := gcount }
        { w' with heap := heap', gcount := gcount }

/-- detections, scores and transformations in other units: the points are moved by `aff a b`, distances are
related by `dist`, everything else is equal -/
def affCorr {K L D F X : Type} [CommRing K] (fo : FilterOps K F) (Ok : F → Prop) (a b : Nat → K)
    (shape : Nat → Nat → Prop) (dist : D → D → Prop) : Corr K K L L D D F F X X where
  shape := shape
  vec := fun l m => m = aff a b l
  score := Eq
  label := Eq
  dist := dist
  kept := Option.Rel dist
  filter := AffFilter fo Ok a b
  extra := Eq
  pts := fun _ p _ q _ => PtsRel shape (fun l m => m = aff a b l) p q
  back := FunsRel shape fun l m => m = aff a b l

/-- the same tracked object in other units: identities, counters and label are equal, estimates are moved,
velocities are multiplied, distances are rescaled -/
structure Moved {K L D F : Type} [CommRing K] (fo : FilterOps K F) (a b : Nat → K) (scale : D → D)
    (o p : Obj K L D F) : Prop where
  initId : p.initId = o.initId
  id : p.id = o.id
  globalId : p.globalId = o.globalId
  hitCounter : p.hitCounter = o.hitCounter
  age : p.age = o.age
  label : p.label = o.label
  livePoints : p.livePoints = o.livePoints
  lastDet : p.lastDet = o.lastDet
  past : p.past = o.past
  lastDistance : p.lastDistance = o.lastDistance.map scale
  estimate : p.estimate fo = affPts a b (o.estimate fo)
  positions : p.positions fo = affPts a b (o.positions fo)
  velocity : p.velocity fo = affPts a (fun _ => 0) (o.velocity fo)

/-- the same tracked object with other labels or another scale of distances -/
structure Relabelled {K L L' D D' F : Type} (fo : FilterOps K F) (label : L → L' → Prop) (scale : D → D')
    (o : Obj K L D F) (p : Obj K L' D' F) : Prop where
  initId : p.initId = o.initId
  id : p.id = o.id
  globalId : p.globalId = o.globalId
  hitCounter : p.hitCounter = o.hitCounter
  age : p.age = o.age
  label : label o.label p.label
  pointHits : p.pointHits = o.pointHits
  lastDet : p.lastDet = o.lastDet
  past : p.past = o.past
  lastDistance : p.lastDistance = o.lastDistance.map scale
  filter : p.filter = o.filter
  estimate : p.estimate fo = o.estimate fo

/-- detections that agree except for the label, and distances related by `dist` -/
def relCorr {K L L' D D' F X : Type} (Ok : F → Prop) (label : L → L' → Prop) (dist : D → D' → Prop) :
    Corr K K L L' D D' F F X X where
  shape := fun _ _ => True
  vec := Eq
  score := Eq
  label := label
  dist := dist
  kept := Option.Rel dist
  filter := fun f g => Ok f ∧ g = f
  extra := Eq
  pts := fun _ p _ q _ => PtsRel (fun _ _ => True) Eq p q
  back := FunsRel (fun _ _ => True) Eq

/-- a tracker with the same arguments except for distance functions and thresholds -/
def withDist {K L L' D D' F X : Type} (cfg : Cfg K L D F X) (dist : DistFn K L' D' F X) (thr fill : D')
    (reid : Option (ObjView K L' D' F X → ObjView K L' D' F X → Option (Option D'))) (reidThr reidFill : D') :
    Cfg K L' D' F X where
  dist := dist
  thr := thr
  fill := fill
  hitCounterMax := cfg.hitCounterMax
  initDelay := cfg.initDelay
  pwMax := cfg.pwMax
  detThr := cfg.detThr
  flt := cfg.flt
  pastLen := cfg.pastLen
  reid := reid
  reidThr := reidThr
  reidFill := reidFill
  reidMax := cfg.reidMax

/-- a distance of the points of the detection and the estimate of the object -/
def ofPoints {K L D F X : Type} (fo : FilterOps K F) (f : Pts K → Pts K → Option (Option D)) :
    DistFn K L D F X := .scalar fun d v => f d.points (v.obj.estimate fo)

/-- two results of `update`: the same error, or objects related one by one, in the same order -/
inductive Alike {A B : Type} (S : A → B → Prop) : Except Err (List A) → Except Err (List B) → Prop
  | error (e) : Alike S (.error e) (.error e)
  | ok {l m} : List.Forall₂ S l m → Alike S (.ok l) (.ok m)

end Norfair.Spec
