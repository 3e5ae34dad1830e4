import Verif.Model.Filter
import Verif.Model.History
import Mathlib.Algebra.Order.Monoid.WithTop
import Mathlib.Algebra.Order.Ring.WithTop
import Mathlib.Algebra.Order.Ring.Int
import Mathlib.Algebra.Ring.Int.Defs

/-!
A small concrete tracker used in the examples beside the theorems: one-dimensional points with integer
coordinates, integer labels, `NoFilter`, distance = absolute difference.
-/

namespace Norfair.Toy

open Norfair

abbrev TDet := Det Int Nat Unit
abbrev TObj := Obj Int Nat (WithTop Nat) (NoFilter Int)
abbrev TCfg := Cfg Int Nat (WithTop Nat) (NoFilter Int) Unit
abbrev TWorld := World Int Nat (WithTop Nat) (NoFilter Int) Unit

/-- a detection of one point at `x` -/
def det (x : Int) (label : Nat := 0) : TDet :=
  ⟨⟨1, 1, [x]⟩, none, label, (), ⟨1, 1, [x]⟩, none⟩

/-- absolute difference of the first coordinates -/
def dist (d : TDet) (o : ObjView Int Nat (WithTop Nat) (NoFilter Int) Unit) :
    Option (Option (WithTop Nat)) :=
  match d.points.data, (o.obj.estimate noFilterOps).data with
  | a :: _, b :: _ => some (some ((a - b).natAbs : Nat))
  | _, _ => none

/-- ReID distance: absolute difference of the estimates -/
def reidDist (c o : ObjView Int Nat (WithTop Nat) (NoFilter Int) Unit) :
    Option (Option (WithTop Nat)) :=
  match (c.obj.estimate noFilterOps).data, (o.obj.estimate noFilterOps).data with
  | a :: _, b :: _ => some (some ((a - b).natAbs : Nat))
  | _, _ => none

/-- `Tracker(dist, 10, hit_counter_max=4, initialization_delay=1, past_detections_length=2)` -/
def cfg : TCfg where
  dist := .scalar dist
  thr := 10
  fill := 11
  hitCounterMax := 4
  initDelay := 1
  pwMax := 4
  detThr := 0
  flt := noFilterOps
  pastLen := 2
  reid := none
  reidThr := 0
  reidFill := 1
  reidMax := none

/-- the same tracker with a ReID distance (threshold 100) and `reid_hit_counter_max=5` -/
def rcfg : TCfg := { cfg with reid := some reidDist, reidThr := 100, reidFill := 101, reidMax := some 5 }

/-- detections `0, 1, 2, ...` sit at `0, 1, 2, ...`, detections `1000 + k` at `1000 + k` with label 1 -/
def heap : Ref → TDet := fun r => det r (if r < 1000 then 0 else 1)

/-- a new tracker -/
def w0 : TWorld := ⟨heap, 0, 0, 0, []⟩

/-- several updates with the given detections, period 1 -/
def run (c : TCfg) (w : TWorld) : List (List Ref) → TWorld
  | [] => w
  | l :: ls => run c (update c w (some l) 1 none).1 ls

theorem run_reaches (c : TCfg) (w : TWorld) (ls : List (List Ref)) :
    ∀ w1, Reaches' c w1 w → Reaches' c w1 (run c w ls) := by
  induction ls generalizing w with
  | nil => exact fun _ h => h
  | cons l ls ih => exact fun w1 h => ih _ w1 (Reaches.call _ _ _ h trivial)

theorem run_reaches_of (c : TCfg) {E P} (hP : ∀ l w, P (some l) 1 none w) (ls : List (List Ref)) :
    ∀ w w1, Reaches c E P w1 w → Reaches c E P w1 (run c w ls) := by
  induction ls with
  | nil => exact fun _ _ h => h
  | cons l ls ih => exact fun w w1 h => ih _ w1 (Reaches.call _ _ _ h (hP l w))

theorem w0_initial : w0.Initial := ⟨rfl, rfl, rfl⟩

theorem run_reachable (c : TCfg) (ls : List (List Ref)) : Reachable c (run c w0 ls) :=
  ⟨w0, w0_initial, run_reaches c w0 ls w0 (.refl _)⟩

example : (run cfg w0 [[0, 50], [1, 51], [2]]).objs.map (fun o => (o.initId, o.id, o.hitCounter)) =
    [(1, some 1, 3), (2, some 2, 1)] := by decide +kernel

/-- the error of an `update`, if it raised -/
def errOf (r : TWorld × Except Err (List TObj)) : Option Err :=
  match r.2 with
  | .ok _ => none
  | .error e => some e

/-- what an `update` returned, as (initializing_id, id, hit_counter); `none` if it raised -/
def returned (r : TWorld × Except Err (List TObj)) : Option (List (Nat × Option Nat × Int)) :=
  match r.2 with
  | .ok l => some (l.map fun o => (o.initId, o.id, o.hitCounter))
  | .error _ => none

theorem errOf_some {r : TWorld × Except Err (List TObj)} {e : Err} : errOf r = some e ↔ r.2 = .error e := by
  unfold errOf
  split <;> simp_all

theorem exists_ok {r : TWorld × Except Err (List TObj)} (h : (returned r).isSome = true) :
    ∃ act, r = (r.1, .ok act) := by
  unfold returned at h
  split at h
  · rename_i l hl
    exact ⟨l, Prod.ext rfl hl⟩
  · cases h

/-- a whole run as a trace, with the list of calls -/
def frames (c : TCfg) (w : TWorld) : List (List Ref) → List (Frame Int Nat (WithTop Nat) (NoFilter Int) Unit)
  | [] => []
  | l :: ls =>
    ⟨some l, 1, none, w, (update c w (some l) 1 none).1, (update c w (some l) 1 none).2⟩ ::
      frames c (update c w (some l) 1 none).1 ls

theorem frames_trace (c : TCfg) (ls : List (List Ref)) : ∀ (w1 : TWorld) fs (w : TWorld),
    Trace c w1 fs w → Trace c w1 (fs ++ frames c w ls) (run c w ls) := by
  induction ls with
  | nil => intro w1 fs w h; simpa [frames, run] using h
  | cons l ls ih =>
    intro w1 fs w h
    have := ih w1 _ _ (Trace.call (some l) 1 none h)
    simpa [frames, run, List.append_assoc] using this

theorem run_trace (c : TCfg) (w : TWorld) (ls : List (List Ref)) :
    Trace c w (frames c w ls) (run c w ls) := by
  simpa using frames_trace c ls w [] w (.nil w)

end Norfair.Toy
