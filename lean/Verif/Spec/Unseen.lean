import Verif.Spec.Points
import Mathlib.Data.List.Forall2

/-! Detections with some points below the detection threshold (keypoints that the detector did not find, which programs
fill with anything, often zeros): what it means that such points do not matter. -/

namespace Norfair.Spec

variable {K L D F X : Type}

/-- arrays of points of the same shape that agree in the points `i` with `P i` -/
structure AgreePts (P : Nat → Prop) (p q : Pts K) : Prop where
  n : q.n = p.n
  dim : q.dim = p.dim
  len : q.data.length = p.data.length
  at' : ∀ i, P i → ∀ j < p.dim, q.data[i * p.dim + j]? = p.data[i * p.dim + j]?

/-- Detections that differ at most in the coordinates of points that are not over the detection threshold. -/
structure SeenAlike [LT K] (thr : K) (d e : Det K L X) : Prop where
  scores : e.scores = d.scores
  label : e.label = d.label
  extra : e.extra = d.extra
  age : e.age = d.age
  points : AgreePts (Seen thr d) d.points e.points
  absPoints : AgreePts (Seen thr d) d.absPoints e.absPoints

/-- a detection of points with `dim` coordinates, with one score per point (if it has scores) -/
structure Proper (dim : Nat) (d : Det K L X) : Prop where
  scores : ∀ s, d.scores = some s → s.length = d.points.n
  n : d.absPoints.n = d.points.n
  pdim : d.points.dim = dim
  adim : d.absPoints.dim = dim
  plen : d.points.data.length = dim * d.points.n
  len : d.absPoints.data.length = dim * d.points.n

/-- two views of an object that differ at most in points of its detections that are not over the threshold -/
structure AlikeView [LT K] (thr : K) (v u : ObjView K L D F X) : Prop where
  obj : u.obj = v.obj
  last : SeenAlike thr v.last u.last
  past : List.Forall₂ (SeenAlike thr) v.past u.past

/-- the distances of a tracker do not look at points that are not over the detection threshold -/
structure BlindDists (dim : Nat) (cfg : Cfg K L D F X) [LT K] : Prop where
  dist : ∃ f, cfg.dist = .scalar f ∧ ∀ d e v u, Proper dim d → SeenAlike cfg.detThr d e → AlikeView cfg.detThr v u →
    f e u = f d v
  reid : ∀ f, cfg.reid = some f → ∀ v u v' u', AlikeView cfg.detThr v u → AlikeView cfg.detThr v' u' →
    f u u' = f v v'

/-- a filter does not look at measurements that are masked -/
def BlindFilter [Zero K] (fo : FilterOps K F) (Ok : F → Prop) : Prop :=
  ∀ f z z' mask, Ok f → z.length = fo.dimZ f → z'.length = fo.dimZ f → mask.length = fo.dimZ f →
    (∀ k : Nat, mask[k]? = some true → z[k]? = z'[k]?) → fo.update f z mask = fo.update f z' mask

/-- a transformation that does to each point with `dim` coordinates what it does to it in any other array -/
def Pointwise (dim : Nat) (g : Pts K → Pts K) : Prop :=
  (∀ p, p.dim = dim → p.data.length = dim * p.n →
    (g p).n = p.n ∧ (g p).dim = p.dim ∧ (g p).data.length = p.data.length) ∧
  ∀ (p q : Pts K) (i : Nat), p.dim = dim → p.data.length = dim * p.n → q.n = p.n → q.dim = p.dim →
    q.data.length = p.data.length → (∀ j < p.dim, q.data[i * p.dim + j]? = p.data[i * p.dim + j]?) →
    ∀ j < p.dim, (g q).data[i * p.dim + j]? = (g p).data[i * p.dim + j]?

/-- every point of every object was over the threshold at least once -/
def AllSeen (objs : List (Obj K L D F)) : Prop := ∀ o ∈ objs, ∀ b ∈ o.once, b = true

end Norfair.Spec
