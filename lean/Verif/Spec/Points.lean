import Verif.Model.Tracker

/-! What the properties about single points and about filters talk about. -/

namespace Norfair.Spec

variable {K L F X : Type}

/-- point `i` of a detection is over the detection threshold; without scores every point is -/
def Seen [LT K] (thr : K) (d : Det K L X) (i : Nat) : Prop :=
  ∀ s, d.scores = some s → ∃ x, s[i]? = some x ∧ thr < x

/-- a well-formed detection: its points have the shape agreed on for its label, and there is one score
per point -/
def DetOk (shape : L → Nat × Nat) (d : Det K L X) : Prop :=
  d.absPoints.n = (shape d.label).1 ∧ d.absPoints.dim = (shape d.label).2 ∧
  d.absPoints.data.length = d.absPoints.dim * d.absPoints.n ∧
  ∀ s, d.scores = some s → s.length = d.absPoints.n

/-- from points of an agreed shape, the transformation gives as many points, of the same dimension -/
def KeepsShape (shape : L → Nat × Nat) (c : CoordTrans K) : Prop :=
  ∀ a p, p.n = (shape a).1 → p.dim = (shape a).2 → p.data.length = p.dim * p.n →
    (c.relToAbs p).n = p.n ∧ (c.relToAbs p).dim = p.dim ∧ (c.relToAbs p).data.length = p.data.length

/-- the detections of a call are well-formed, and so is the transformation -/
def CallOk (shape : L → Nat × Nat) (dets : List Ref) (ct : Option (CoordTrans K))
    (h : Ref → Det K L X) : Prop :=
  (∀ c, ct = some c → KeepsShape shape c) ∧ ∀ r ∈ dets, DetOk shape (h r)

/-- What the tracker relies on about a filter whose states satisfy `Ok`. The state array is
`2 * dimZ` long, positions first; creation starts at the given points with zero velocity; prediction
does not change velocities; an update does not change what is not observed. -/
structure FilterLaws [Zero K] (fo : FilterOps K F) (Ok : F → Prop) : Prop where
  len : ∀ f, Ok f → (fo.getX f).length = 2 * fo.dimZ f
  create : ∀ p : Pts K, p.data.length = p.dim * p.n → Ok (fo.create p) ∧
    fo.dimZ (fo.create p) = p.dim * p.n ∧
    fo.getX (fo.create p) = p.data ++ List.replicate (p.dim * p.n) 0
  predict : ∀ f, Ok f → Ok (fo.predict f) ∧ fo.dimZ (fo.predict f) = fo.dimZ f ∧
    (fo.getX (fo.predict f)).drop (fo.dimZ f) = (fo.getX f).drop (fo.dimZ f)
  update : ∀ f z mask, Ok f → z.length = fo.dimZ f → mask.length = fo.dimZ f →
    Ok (fo.update f z mask) ∧ fo.dimZ (fo.update f z mask) = fo.dimZ f
  unobserved : ∀ f z mask, Ok f → z.length = fo.dimZ f → mask.length = fo.dimZ f →
    ∀ k : Nat, mask[k]? = some false →
      (fo.getX (fo.update f z mask))[k]? = (fo.getX f)[k]? ∧
      (fo.getX (fo.update f z mask))[fo.dimZ f + k]? = (fo.getX f)[fo.dimZ f + k]?
  setX : ∀ f x, Ok f → x.length = 2 * fo.dimZ f → Ok (fo.setX f x) ∧
    fo.dimZ (fo.setX f x) = fo.dimZ f ∧ fo.getX (fo.setX f x) = x

end Norfair.Spec
