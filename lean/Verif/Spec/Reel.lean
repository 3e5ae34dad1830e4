import Verif.Spec.Film

/-! A still scene filmed by a moving camera whose movement is not found in some frames. -/

namespace Norfair.Spec

variable {K L D F X T : Type}

/-- A picture for which no transformation is passed although the camera moves; `c` was the transformation of the call
before. Before, absolute coordinates were those of `S`, from now on they are those of the picture itself: `S'`.
There are new detections of some of the targets, not two of the same one, with all points over the detection
threshold; every target that is still tracked is among them. The place of a target in this picture is at a distance
below the threshold from the places of targets of equal label in the picture before only for the target itself. -/
structure Jolts [LT D] [LT K] (S S' : Scene K L T) (shape : L → Nat × Nat) (c : CoordTrans K)
    (f : Pts K → Pts K → Option (Option D)) (thr : D) (detThr : K) (truth : Ref → T) (fr : Frame K L D F X) :
    Prop where
  ct : fr.ct = none
  labels : S'.label = S.label
  nodup : (given fr).Nodup
  once : ∀ r ∈ given fr, ∀ r' ∈ given fr, truth r = truth r' → r = r'
  fresh : ∀ o ∈ fr.before.objs, o.lastDet ∉ given fr
  points : ∀ r ∈ given fr, (fr.before.heap r).points = S'.place (truth r)
  new : ∀ r ∈ given fr, (fr.before.heap r).absPoints = (fr.before.heap r).points
  label : ∀ r ∈ given fr, (fr.before.heap r).label = S.label (truth r)
  scores : ∀ r ∈ given fr, ∀ s, (fr.before.heap r).scores = some s → s.length = (shape (S.label (truth r))).1
  seen : ∀ r ∈ given fr, ∀ i < (shape (S.label (truth r))).1, Seen detThr (fr.before.heap r) i
  all : ∀ o ∈ fr.before.objs, 0 ≤ o.hitCounter → ∃ r ∈ given fr, truth r = truth o.lastDet
  apart : ∀ r ∈ given fr, ∀ t, S.label (truth r) = S.label t → ∀ x,
    f (S'.place (truth r)) (c.absToRel (S.place t)) = some (some x) → (x < thr ↔ truth r = t)

/-- The calls `fs`: absolute coordinates after call `k` are those of `scene k`. They change only in calls without
transformation, before each of which there is a call with one. -/
def Reel [LT D] [LT K] (scene : Nat → Scene K L T) (shape : L → Nat × Nat) (f : Pts K → Pts K → Option (Option D))
    (thr : D) (detThr : K) (truth : Ref → T) (fs : List (Frame K L D F X)) : Prop :=
  ∀ k fr, fs[k]? = some fr →
    (Films (scene k) shape True f thr truth fr ∧ (0 < k → scene k = scene (k - 1))) ∨
    ∃ j fr' c, k = j + 1 ∧ fs[j]? = some fr' ∧ fr'.ct = some c ∧
      Jolts (scene j) (scene k) shape c f thr detThr truth fr

/-- the frame to which coordinates are relative after frame `k`: the last one for which the estimator returned `None`,
or else the first one -/
def refFrame {V : Type} (outs : List (Option V)) : Nat → Nat
  | 0 => 0
  | k + 1 => match outs[k + 1]? with
    | some none => k + 1
    | _ => refFrame outs k

/-- Call `k` gets what the `MotionEstimator` returned for frame `k` of the video (which is `img`), a translation or
`None`, and detections of targets with points at `q t` in the first frame; everything in the picture has moved by the
displacement of the camera. -/
structure Taken [Field K] [LinearOrder K] [IsStrictOrderedRing K] [FloorRing K] {Img Mask : Type}
    (fl : Flow K Img Mask) (g : TransGetter K) (d : Img → K × K)
    (f0 : Img × Option Mask) (hs : List (Img × Option Mask)) (q : T → List (K × K)) (label : T → L) (truth : Ref → T)
    (k : Nat) (img : Img × Option Mask) (out : Option (K × K)) (fr : Frame K L D F X) : Prop where
  image : (f0 :: hs)[k]? = some img
  estimated : ((MotionEstimator.create (K := K) none).outputs fl none g.getter (f0 :: hs))[k]? = some out
  told : fr.ct = out.map fun v => translation [v.1, v.2]
  dets : fr.dets ≠ none
  nodup : (given fr).Nodup
  once : ∀ r ∈ given fr, ∀ r' ∈ given fr, truth r = truth r' → r = r'
  fresh : ∀ o ∈ fr.before.objs, o.lastDet ∉ given fr
  points : ∀ r ∈ given fr, (fr.before.heap r).points = planePts ((q (truth r)).map (· + (d img.1 - d f0.1)))
  new : ∀ r ∈ given fr, (fr.before.heap r).absPoints = (fr.before.heap r).points
  label : ∀ r ∈ given fr, (fr.before.heap r).label = label (truth r)
  scores : ∀ r ∈ given fr, ∀ s, (fr.before.heap r).scores = some s → s.length = (q (truth r)).length

/-- What is asked of a call that gets `None`: it is not the first one, the call before got a translation, every target
that is still tracked is detected, with all points over the detection threshold, and between the two frames the camera
has moved so little that detections are at a distance below the threshold only from the last place of their own target
in the picture. -/
structure Blinks [Field K] [LinearOrder K] [IsStrictOrderedRing K] [FloorRing K] [LT D] {Img Mask : Type}
    (f : Pts K → Pts K → Option (Option D)) (thr : D) (detThr : K) (fl : Flow K Img Mask) (g : TransGetter K)
    (d : Img → K × K) (f0 : Img × Option Mask) (hs : List (Img × Option Mask)) (q : T → List (K × K)) (label : T → L)
    (truth : Ref → T) (k : Nat) (img : Img × Option Mask) (fr : Frame K L D F X) : Prop where
  small : ∃ j img' v, k = j + 1 ∧ (f0 :: hs)[j]? = some img' ∧
    ((MotionEstimator.create (K := K) none).outputs fl none g.getter (f0 :: hs))[j]? = some (some v) ∧
    ∀ r ∈ given fr, ∀ t, label (truth r) = label t → ∀ x,
      f (planePts ((q (truth r)).map (· + (d img.1 - d img'.1)))) (planePts (q t)) = some (some x) →
        (x < thr ↔ truth r = t)
  seen : ∀ r ∈ given fr, ∀ i < (q (truth r)).length, Seen detThr (fr.before.heap r) i
  all : ∀ o ∈ fr.before.objs, 0 ≤ o.hitCounter → ∃ r ∈ given fr, truth r = truth o.lastDet

end Norfair.Spec
