import Verif.Model.KeyLoop
import Verif.Spec.YoloDemo

/-! C131: the loop of the demo with keypoints and boxes. -/

namespace Norfair.Spec

open Norfair

variable {K D F H : Type}

/-- the detection of a pose: a place and a score for each keypoint, and label -1 -/
def poseDet (p : List (K × K × K)) : Det K ℤ Unit :=
  let pts : Pts K := ⟨p.length, 2, p.flatMap fun x => [x.1, x.2.1]⟩
  ⟨pts, some (p.map (·.2.2)), -1, (), pts, none⟩

section
variable [Field K] [LinearOrder K] [FloorRing K]

/-- the detections of a frame: the poses, unless all numbers are 0, and the boxes with their classes -/
def frameDets (f : PoseFrame K) : List (Det K ℤ Unit) :=
  (if ∃ p ∈ f.poses.getD [], ∃ x ∈ p, x ≠ (0, 0, 0) then (f.poses.getD []).map poseDet else []) ++ f.boxes.map cornerDet

/-- the points of an object that are live -/
def seenPoints {L : Type} (flt : FilterOps K F) (n : Nat) (o : Obj K L D F) : List (K × K) :=
  ((List.range n).filter fun i => decide (0 < o.pointHits.getD i 0)).map fun i =>
    ((o.estimate flt).data.getD (2 * i) 0, (o.estimate flt).data.getD (2 * i + 1) 0)

/-- a green disc for each live point of each pose, and its id at their center -/
def posesOn (dr : EvalDraw K ℤ H) (flt : FilterOps K F) (n : Nat) (f : PoseFrame K) (objs : List (Obj K ℤ D F)) : Canvas K :=
  let r : ℤ := (f.h / 200 : Nat)
  let green : Color := [0, 128, 0]
  (objs.filter fun o => decide (o.label = -1) && o.pointHits.any fun c => decide (0 < c)).foldl (fun (c : Canvas K) o =>
    let s := seenPoints flt n o
    (s.foldl (fun (c : Canvas K) p => c.circle [truncInt p.1, truncInt p.2] r (-1) green) c).text (idText dr o)
      (some [truncInt ((s.map (·.1)).sum / s.length - (r : K)), truncInt ((s.map (·.2)).sum / s.length - (r : K))]) green
      (some ((max (f.h / 10000) 1 : Nat) : K)) (some (f.h / 500 : Nat))) .base

/-- the color of the label of an object -/
def labelColor (dr : EvalDraw K ℤ H) (o : Obj K ℤ D F) : Color :=
  (dr.env.palette.choose ((dr.lab o.label).map dr.env.hash)).getD []

/-- a rectangle in the color of its class for each box of a class above 0 -/
def boxesOn (dr : EvalDraw K ℤ H) (flt : FilterOps K F) (f : PoseFrame K) (objs : List (Obj K ℤ D F)) : Canvas K :=
  let t : ℤ := truncInt (((max (max f.h f.w) 3 : Nat) : K) / 500)
  (objs.filter fun o => decide (0 < o.label)).foldl (fun (c : Canvas K) o =>
    let z := fun i => truncInt ((o.estimate flt).data.getD i 0)
    c.rectangle [z 0, z 1] [z 2, z 3] t (labelColor dr o)) .base

/-- the frame with the poses and then the boxes -/
def withBoth (dr : EvalDraw K ℤ H) (flt : FilterOps K F) (n : Nat) (f : PoseFrame K) (objs : List (Obj K ℤ D F)) : Pic :=
  (boxesOn dr flt f objs).render dr.ras [f.h, f.w, 3]
    ((posesOn dr flt n f objs).render dr.ras [f.h, f.w, 3] f.pic)

end

/-- poses have `n` points in the plane, boxes two -/
def kindShape (n : Nat) (label : ℤ) : Nat × Nat := if label = -1 then (n, 2) else (2, 2)

/-- what the networks give: poses of `n` keypoints, and boxes with a class -/
def NetOk [Zero K] [LE K] (n : Nat) (f : PoseFrame K) : Prop :=
  (∀ p ∈ f.poses.getD [], p.length = n) ∧ ∀ b ∈ f.boxes, 0 ≤ b.cls

end Norfair.Spec
