import Verif.Model.Tracker
import Mathlib.Order.BoundedOrder.Basic

/-!
Histories of one tracker in a process where everything else may happen in between: other trackers are
updated (they raise `_TrackedObjectFactory.global_count`, set ages of detections) and the program creates
and edits `Detection` objects.
-/

namespace Norfair

variable {K L D F X : Type}

/-- What the rest of the process may do between two calls: `global_count` (`tracker.py` lines 389,
429) only grows, and nobody sets the `age` of a detection back to `None` (`Detection.age` is only set
to ints, lines 522, 710, 714). All other fields of detections may change in any way. -/
def EnvOk (w : World K L D F X) (heap : Ref → Det K L X) (gcount : Nat) : Prop :=
  w.gcount ≤ gcount ∧ ∀ r, (w.heap r).age ≠ none → (heap r).age ≠ none

/-- A tracker right after `Tracker.__init__` (`tracker.py` lines 97, 142, 391-393). -/
def World.Initial (w : World K L D F X) : Prop := w.objs = [] ∧ w.count = 0 ∧ w.initCount = 0

section
variable [LinearOrder K] [Zero K] [LinearOrder D] [OrderTop D] [Zero D] [DecidableEq L]

/-- `Reaches cfg E P w w'`: from `w` the process gets to `w'` by `update` calls of the tracker
(successful or raising) whose arguments satisfy `P`, interleaved with other activity on detections that
satisfies `E`. -/
inductive Reaches (cfg : Cfg K L D F X) (E : (Ref → Det K L X) → (Ref → Det K L X) → Prop)
    (P : Option (List Ref) → Int → Option (CoordTrans K) → World K L D F X → Prop) :
    World K L D F X → World K L D F X → Prop
  | refl (w) : Reaches cfg E P w w
  | call {w w'} (dets : Option (List Ref)) (period : Int) (ct : Option (CoordTrans K)) :
      Reaches cfg E P w w' → P dets period ct w' →
      Reaches cfg E P w (update cfg w' dets period ct).1
  | env {w w'} (heap : Ref → Det K L X) (gcount : Nat) :
      Reaches cfg E P w w' → EnvOk w' heap gcount → E w'.heap heap →
      Reaches cfg E P w { w' with heap := heap, gcount := gcount }

/-- any history, no restriction on calls and environment -/
abbrev Reaches' (cfg : Cfg K L D F X) : World K L D F X → World K L D F X → Prop :=
  Reaches cfg (fun _ _ => True) (fun _ _ _ _ => True)

/-- `w` is a state of a tracker after some history -/
def Reachable (cfg : Cfg K L D F X) (w : World K L D F X) : Prop :=
  ∃ w0 : World K L D F X, w0.Initial ∧ Reaches' cfg w0 w

/-- One `update` call: its arguments, the state before and after it, and what it returned or raised. -/
structure Frame (K L D F X : Type) where
  dets : Option (List Ref)
  period : Int
  ct : Option (CoordTrans K)
  before : World K L D F X
  after : World K L D F X
  out : Except Err (List (Obj K L D F))

/-- `Trace cfg w fs w'`: like `Reaches'`, with the list of all calls made. -/
inductive Trace (cfg : Cfg K L D F X) :
    World K L D F X → List (Frame K L D F X) → World K L D F X → Prop
  | nil (w) : Trace cfg w [] w
  | call {w fs w'} (dets : Option (List Ref)) (period : Int) (ct : Option (CoordTrans K)) :
      Trace cfg w fs w' →
      Trace cfg w (fs ++ [⟨dets, period, ct, w', (update cfg w' dets period ct).1,
        (update cfg w' dets period ct).2⟩]) (update cfg w' dets period ct).1
  | env {w fs w'} (heap : Ref → Det K L X) (gcount : Nat) :
      Trace cfg w fs w' → EnvOk w' heap gcount →
      Trace cfg w fs { w' with heap := heap, gcount := gcount }

end

end Norfair
