import Verif.Model.Tracker

/-!
Model of the loops of demos that run the detector in some of the frames only: `demos/sahi/src/demo.py`,
`demos/reid/src/demo.py`, `demos/profiling/src/demo.py` and `demos/openpose/src/demo.py`.

The detections of frame `i` are in the memory before the loop begins (`detect i` are their references); nothing reads
them before the call that gets them. The skip period is not 0 (the loops raise `ZeroDivisionError` in their first frame).
-/

namespace Norfair

variable {K L D F X : Type}

/-- what is drawn on one frame before it is written: number of the frame, detections, returned objects -/
structure Drawn (K L D F : Type) where
  frame : Nat
  dets : List Ref
  objs : List (Obj K L D F)

/-- what a loop leaves: the frames it has written, the state, and the exception if it did not get to the end -/
structure LoopOut (K L D F X : Type) where
  written : List (Drawn K L D F)
  world : World K L D F X
  err : Option Err

section
variable [LinearOrder K] [Zero K] [LinearOrder D] [OrderTop D] [Zero D] [DecidableEq L]

/-- the call of `tracker.update` in frame `i`: `period=skip_period` if the detector runs in this frame, no arguments
otherwise (`sahi/src/demo.py` lines 58-76, `reid/src/demo.py` lines 69-82, `profiling/src/demo.py` lines 43-65) -/
def skipCall (cfg : Cfg K L D F X) (skip : Nat) (detect : Nat → List Ref) (i : Nat) (w : World K L D F X) :
    World K L D F X × Except Err (List (Obj K L D F)) :=
  if i % skip = 0 then update cfg w (some (detect i)) skip none else update cfg w none 1 none

/-- the frames `i`, ..., `i + n - 1` of the loop (`sahi/src/demo.py` lines 57-80, `reid/src/demo.py` lines 68-97,
`profiling/src/demo.py` lines 40-69 with `create_video`, which draws no detections). `dets` is the variable `detections`,
which keeps its value in the frames without detector. -/
def skipLoop (cfg : Cfg K L D F X) (skip : Nat) (detect : Nat → List Ref) :
    (n i : Nat) → List Ref → World K L D F X → LoopOut K L D F X
  | 0, _, _, w => ⟨[], w, none⟩
  | n + 1, i, dets, w =>
    let dets := if i % skip = 0 then detect i else dets
    match skipCall cfg skip detect i w with
    | (w, .error e) => ⟨[], w, some e⟩
    | (w, .ok act) =>
      let out := skipLoop cfg skip detect n (i + 1) dets w
      { out with written := ⟨i, dets, act⟩ :: out.written }

/-- the loop of `openpose/src/demo.py` (lines 101-128). `detect i` is `none` if `datum.poseKeypoints` is `None`: then the
tracker makes its step and `continue` goes on with the next frame. Detections are drawn in the frames with detector. -/
def openposeLoop (cfg : Cfg K L D F X) (skip : Nat) (detect : Nat → Option (List Ref)) :
    (n i : Nat) → World K L D F X → LoopOut K L D F X
  | 0, _, w => ⟨[], w, none⟩
  | n + 1, i, w =>
    let found := if i % skip = 0 then detect i else none
    match update cfg w found skip none with
    | (w, .error e) => ⟨[], w, some e⟩
    | (w, .ok act) =>
      let out := openposeLoop cfg skip detect n (i + 1) w
      if i % skip = 0 ∧ found = none then out
      else { out with written := ⟨i, found.getD [], act⟩ :: out.written }

end

end Norfair
