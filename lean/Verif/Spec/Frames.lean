import Verif.Model.History

/-!
What a caller can see of one object in one `update` call, without knowing how matching works: whether
its `last_detection` is one of the detections of this call. `k` is the `initializing_id` of the object.
-/

namespace Norfair.Spec

variable {K L D F X : Type}

/-- the call returned normally -/
def Succeeds (f : Frame K L D F X) : Prop := ∃ act, f.out = .ok act

/-- the detections of the call -/
def given (f : Frame K L D F X) : List Ref := f.dets.getD []

/-- object `k` got no detection of this call (or is not there any more) -/
def Missed (k : Nat) (f : Frame K L D F X) : Prop :=
  ∀ o ∈ f.after.objs, o.initId = k → o.lastDet ∉ given f

/-- object `k` got a detection of this call (or is not there any more); the detections of the call are
new for it -/
def Matched (k : Nat) (f : Frame K L D F X) : Prop :=
  (∀ o ∈ f.before.objs, o.initId = k → o.lastDet ∉ given f) ∧
  ∀ o ∈ f.after.objs, o.initId = k → o.lastDet ∈ given f

/-- object `k` is tracked when the call returns -/
def Kept (k : Nat) (f : Frame K L D F X) : Prop := ∃ o ∈ f.after.objs, o.initId = k

/-- object `k` is among the objects that the call returned -/
def Returned (k : Nat) (f : Frame K L D F X) : Prop :=
  ∃ act, f.out = .ok act ∧ ∃ o ∈ act, o.initId = k

/-- the call did nothing at all: a transformation was passed without detections (`TypeError`) -/
def Rejected (f : Frame K L D F X) : Prop := f.ct ≠ none ∧ f.dets = none

instance (f : Frame K L D F X) : Decidable (Rejected f) := by
  unfold Rejected
  cases f.ct <;> cases f.dets <;> simp <;> infer_instance

end Norfair.Spec
