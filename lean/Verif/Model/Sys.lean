import Verif.Model.History

/-!
Several trackers in one process. They share the detections (which may be given to several trackers) and
`_TrackedObjectFactory.global_count` (`tracker.py` lines 388-389, a class attribute); everything else
belongs to one tracker.
-/

namespace Norfair

/-- what belongs to one tracker: `tracked_objects`, and `count`, `initializing_count` of its factory
(`tracker.py` lines 97, 142, 391-393) -/
structure Own (K L D F : Type) where
  count : Nat
  initCount : Nat
  objs : List (Obj K L D F)

/-- a process with trackers `i : ι`, each with its own kind of distances and filters -/
structure Sys (K L X : Type) {ι : Type} (D F : ι → Type) where
  heap : Ref → Det K L X
  gcount : Nat
  own : (i : ι) → Own K L (D i) (F i)

variable {K L X ι : Type} {D F : ι → Type}

/-- what tracker `i` sees -/
def Sys.world (s : Sys K L X D F) (i : ι) : World K L (D i) (F i) X :=
  ⟨s.heap, s.gcount, (s.own i).count, (s.own i).initCount, (s.own i).objs⟩

/-- write back what tracker `i` has changed -/
def Sys.put [DecidableEq ι] (s : Sys K L X D F) (i : ι) (w : World K L (D i) (F i) X) :
    Sys K L X D F where
  heap := w.heap
  gcount := w.gcount
  own := Function.update s.own i ⟨w.count, w.initCount, w.objs⟩

/-- all trackers are new; nothing is assumed about `global_count` -/
def Sys.Initial (s : Sys K L X D F) : Prop := ∀ i, (s.world i).Initial

section
variable [DecidableEq ι] [LinearOrder K] [Zero K] [DecidableEq L]
  [∀ i, LinearOrder (D i)] [∀ i, OrderTop (D i)] [∀ i, Zero (D i)]

/-- Any interleaving of `update` calls on the trackers and of edits of detections by the program. -/
inductive SysReaches (cfg : (i : ι) → Cfg K L (D i) (F i) X) : Sys K L X D F → Sys K L X D F → Prop
  | refl (s) : SysReaches cfg s s
  | call {s s'} (i : ι) (dets : Option (List Ref)) (period : Int) (ct : Option (CoordTrans K)) :
      SysReaches cfg s s' → SysReaches cfg s (s'.put i (update (cfg i) (s'.world i) dets period ct).1)
  | edit {s s'} (heap : Ref → Det K L X) :
      SysReaches cfg s s' → (∀ r, (s'.heap r).age ≠ none → (heap r).age ≠ none) →
      SysReaches cfg s { s' with heap := heap }

end

end Norfair
