import Verif.Model.DemoLoop
import Verif.Spec.KeyLoop

/-! C132, C133: the loops of further demos, in terms of the tracker alone. -/

namespace Norfair.Spec

open Norfair

variable {K L D F X H : Type}

/-- the objects returned by each of the calls of `update` with these detections and this period, and the last state; `none` if
one raises -/
def trackCalls [Zero K] [LinearOrder K] [LinearOrder D] [Top D] [Zero D] [DecidableEq L] (cfg : Cfg K L D F X) :
    World K L D F X → List (Option (List Ref) × Int) → Option (World K L D F X × List (List (Obj K L D F)))
  | w, [] => some (w, [])
  | w, c :: cs =>
    match update cfg w c.1 c.2 none with
    | (_, .error _) => none
    | (w', .ok act) => (trackCalls cfg w' cs).map fun r => (r.1, act :: r.2)

/-- the new detections of some calls -/
def newDets (calls : List (Option (List (Det K L X)) × Int)) : List (List (Det K L X)) := calls.map fun c => c.1.getD []

/-- the objects that a new tracker returns for calls with these new detections and periods, and its last state -/
def demoTrack [Zero K] [LinearOrder K] [LinearOrder D] [Top D] [Zero D] [DecidableEq L] (cfg : Cfg K L D F X) (label : L)
    (extra : X) (g : Nat) (calls : List (Option (List (Det K L X)) × Int)) :
    Option (World K L D F X × List (List (Obj K L D F))) :=
  trackCalls cfg ⟨detHeap label extra (newDets calls).flatten, g, 0, 0, []⟩
    ((calls.zip (refsFrom 0 (newDets calls))).map fun c => (c.1.1.map fun _ => c.2, c.1.2))

section
variable [Field K] [LinearOrder K] [FloorRing K]

/-- a disc for each point of each detection, in the color of objects without id, and its label at their center -/
def detsOn (dr : EvalDraw K L H) (shape : List Nat) (ds : List (Det K L X)) : Canvas K :=
  let r : ℤ := around (max (((shape.foldl max 0 : Nat) : K) * (2 / 1000)) 1)
  let color : Color := (dr.env.palette.choose none).getD []
  ds.foldl (fun (c : Canvas K) d =>
    let s := (List.range d.points.n).map fun i => (d.points.data.getD (2 * i) 0, d.points.data.getD (2 * i + 1) 0)
    (s.foldl (fun (c : Canvas K) p => c.circle [truncInt p.1, truncInt p.2] r (-1) color) c).text
      ((dr.lab d.label).elim [] dr.env.str)
      (some [truncInt ((s.map (·.1)).sum / s.length - (r : K)), truncInt ((s.map (·.2)).sum / s.length - (r : K))]) color
      none none) .base

/-- a disc for each live point of each object, in the color of its id, and its id at their center, with letters of this
thickness -/
def objsOn (dr : EvalDraw K L H) (flt : FilterOps K F) (n : Nat) (shape : List Nat) (thickness : ℤ)
    (objs : List (Obj K L D F)) : Canvas K :=
  let r : ℤ := (shape.headD 0 / 200 : Nat)
  (objs.filter fun o => o.pointHits.any fun c => decide (0 < c)).foldl (fun (c : Canvas K) o =>
    let s := seenPoints flt n o
    (s.foldl (fun (c : Canvas K) p => c.circle [truncInt p.1, truncInt p.2] r (-1) (idColor dr o)) c).text (idText dr o)
      (some [truncInt ((s.map (·.1)).sum / s.length - (r : K)), truncInt ((s.map (·.2)).sum / s.length - (r : K))])
      (idColor dr o) (some ((max (shape.headD 0 / 10000) 1 : Nat) : K)) (some thickness)) .base

/-- a frame with the objects, and the usual thickness of the ids -/
def withObjs (dr : EvalDraw K L H) (flt : FilterOps K F) (n : Nat) (shape : List Nat) (objs : List (Obj K L D F)) (pic : Pic) :
    Pic :=
  (objsOn dr flt n shape (shape.headD 0 / 500 : Nat) objs).render dr.ras shape pic

/-- a frame with the detections -/
def withDets (dr : EvalDraw K L H) (shape : List Nat) (ds : List (Det K L X)) (pic : Pic) : Pic :=
  (detsOn dr shape ds).render dr.ras shape pic

/-! ### OpenPose -/

/-- the detections of the poses in a frame: a place and a score for each keypoint; none if all numbers are 0 -/
def bodyDets (ps : List (List (K × K × K))) : List (Det K Unit Unit) :=
  if ∃ p ∈ ps, ∃ x ∈ p, x ≠ (0, 0, 0) then ps.map fun p =>
    let pts : Pts K := ⟨p.length, 2, p.flatMap fun x => [x.1, x.2.1]⟩
    ⟨pts, some (p.map (·.2.2)), (), (), pts, none⟩
  else []

/-- the call for a frame with this number -/
def openCall (skip : Nat) (f : PoseFrame K × Nat) : Option (List (Det K Unit Unit)) × Int :=
  (if skip ∣ f.2 then f.1.poses.map bodyDets else none, skip)

/-- what is written for a frame with this number: nothing if it was looked at and OpenPose saw nothing; otherwise the detections,
if it was looked at, and the objects -/
def openShot (dr : EvalDraw K Unit H) (flt : FilterOps K F) (n skip : Nat) (f : PoseFrame K × Nat)
    (objs : List (Obj K Unit D F)) : Option Pic :=
  if skip ∣ f.2 then
    f.1.poses.map fun ps => withObjs dr flt n [f.1.h, f.1.w, 3] objs (withDets dr [f.1.h, f.1.w, 3] (bodyDets ps) f.1.pic)
  else some (withObjs dr flt n [f.1.h, f.1.w, 3] objs f.1.pic)

/-! ### Profiling -/

/-- the detection of a pose: for each keypoint the place of its peak with score 1, or 0 if it was not found -/
def peakDet (width height : Nat) (peaks : Nat → Nat → K × K) (obj : List ℤ) : Det K Unit Unit :=
  let pts : Pts K := ⟨obj.length, 2, obj.zipIdx.flatMap fun x =>
    if 0 ≤ x.1 then [(peaks x.2 x.1.toNat).2 * (width : K), (peaks x.2 x.1.toNat).1 * (height : K)] else [0, 0]⟩
  ⟨pts, some (obj.map fun k => if 0 ≤ k then 1 else 0), (), (), pts, none⟩

/-- the call for a frame with this number -/
def profCall (width height skip : Nat) (f : PeakFrame K × Nat) : Option (List (Det K Unit Unit)) × Int :=
  if skip ∣ f.2 then (some (f.1.objs.map (peakDet width height f.1.peaks)), skip) else (none, 1)

end

end Norfair.Spec
