import Verif.Spec.Shaped
import Verif.Spec.Frames
import Verif.Model.CameraMotion

/-! A still scene filmed by a camera that may move. -/

namespace Norfair.Spec

variable {K L D F X T : Type}

/-- targets that do not move: where they are (in absolute coordinates) and their labels -/
structure Scene (K L T : Type) where
  place : T → Pts K
  label : T → L

/-- where the camera sees absolute points; no transformations are passed if it does not move -/
def seenAt (ct : Option (CoordTrans K)) (p : Pts K) : Pts K :=
  match ct with
  | none => p
  | some c => c.absToRel p

/-- the camera never moves and no transformations are passed, or every call gets one. It keeps the agreed shapes
and its two directions are inverse on the places of the targets -/
def Camera (S : Scene K L T) (shape : L → Nat × Nat) (moving : Prop) : Option (CoordTrans K) → Prop
  | none => ¬ moving
  | some c => moving ∧ KeepsBoth shape c ∧ ∀ t, c.relToAbs (c.absToRel (S.place t)) = S.place t

/-- One picture of the scene: new detections of some of the targets (`truth r` is the target of `r`), not two of
the same one, at the places where the camera sees them, with any scores. Seen by the camera, targets of equal label
are at a distance below the threshold only from themselves. -/
structure Films [LT D] (S : Scene K L T) (shape : L → Nat × Nat) (moving : Prop)
    (f : Pts K → Pts K → Option (Option D)) (thr : D) (truth : Ref → T) (fr : Frame K L D F X) : Prop where
  camera : Camera S shape moving fr.ct
  dets : fr.ct = none ∨ fr.dets ≠ none
  nodup : (given fr).Nodup
  once : ∀ r ∈ given fr, ∀ r' ∈ given fr, truth r = truth r' → r = r'
  fresh : ∀ o ∈ fr.before.objs, o.lastDet ∉ given fr
  points : ∀ r ∈ given fr, (fr.before.heap r).points = seenAt fr.ct (S.place (truth r))
  new : ∀ r ∈ given fr, (fr.before.heap r).absPoints = (fr.before.heap r).points
  label : ∀ r ∈ given fr, (fr.before.heap r).label = S.label (truth r)
  scores : ∀ r ∈ given fr, ∀ s, (fr.before.heap r).scores = some s → s.length = (shape (S.label (truth r))).1
  apart : ∀ r ∈ given fr, ∀ t, S.label (truth r) = S.label t → ∀ x,
    f (seenAt fr.ct (S.place (truth r))) (seenAt fr.ct (S.place t)) = some (some x) → (x < thr ↔ truth r = t)

/-- an array of points of the plane -/
def planePts (q : List (K × K)) : Pts K := ⟨q.length, 2, q.flatMap fun z => [z.1, z.2]⟩

/-- a distance of points that does not change when both arrays are moved by one vector -/
def Unmoved [Add K] [Sub K] [Zero K] (f : Pts K → Pts K → Option (Option D)) (shape : L → Nat × Nat) : Prop :=
  ∀ a v p q, HasShape (shape a) p → HasShape (shape a) q →
    f ((translation v).absToRel p) ((translation v).absToRel q) = f p q

/-- Call `k` gets the translation `v` that the `MotionEstimator` found in frame `k` of the video (which is `img`), and
detections of targets with points at `q t` in the first frame; everything in the picture has moved by the
displacement of the camera. -/
structure Exposed [Field K] [LinearOrder K] [IsStrictOrderedRing K] [FloorRing K] {Img Mask : Type}
    (fl : Flow K Img Mask) (g : TransGetter K) (d : Img → K × K)
    (f0 : Img × Option Mask) (hs : List (Img × Option Mask)) (q : T → List (K × K)) (label : T → L) (truth : Ref → T)
    (k : Nat) (img : Img × Option Mask) (v : K × K) (fr : Frame K L D F X) : Prop where
  image : (f0 :: hs)[k]? = some img
  estimated : ((MotionEstimator.create (K := K) none).outputs fl none g.getter (f0 :: hs))[k]? = some (some v)
  told : fr.ct = some (translation [v.1, v.2])
  dets : fr.dets ≠ none
  nodup : (given fr).Nodup
  once : ∀ r ∈ given fr, ∀ r' ∈ given fr, truth r = truth r' → r = r'
  fresh : ∀ o ∈ fr.before.objs, o.lastDet ∉ given fr
  points : ∀ r ∈ given fr, (fr.before.heap r).points = planePts ((q (truth r)).map (· + (d img.1 - d f0.1)))
  new : ∀ r ∈ given fr, (fr.before.heap r).absPoints = (fr.before.heap r).points
  label : ∀ r ∈ given fr, (fr.before.heap r).label = label (truth r)
  scores : ∀ r ∈ given fr, ∀ s, (fr.before.heap r).scores = some s → s.length = (q (truth r)).length

@[inherit_doc Exposed]
def Shot [Field K] [LinearOrder K] [IsStrictOrderedRing K] [FloorRing K] {Img Mask : Type}
    (fl : Flow K Img Mask) (g : TransGetter K) (d : Img → K × K)
    (f0 : Img × Option Mask) (hs : List (Img × Option Mask)) (q : T → List (K × K)) (label : T → L) (truth : Ref → T)
    (k : Nat) (fr : Frame K L D F X) : Prop := ∃ img v, Exposed fl g d f0 hs q label truth k img v fr

end Norfair.Spec
