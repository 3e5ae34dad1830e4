import Verif.Model.EvalOut
import Verif.Spec.MotLoop
import Mathlib.Data.List.Infix

/-! C141: what should be on the disk after something was written. -/

namespace Norfair.Spec

open Norfair

variable {K : Type}

/-- there is no file on the way to the directory `p`, nor at `p` itself -/
def Clear (d : Disk) (p : List Str) : Prop := ∀ q, q <+: p → ∀ text, d q ≠ some (.file text)

/-- the file of the predictions of the sequence in this folder -/
def predFileOf (out : List Str) (path : Str) : List Str :=
  out ++ ["predictions".toList] ++ [pathTail path ++ ".txt".toList]

/-- From `d` to `d'` nothing changes at `q`, except that it may be a new directory on the way to `p`. -/
def KeptBut (d d' : Disk) (p q : List Str) : Prop := d' q = d q ∨ (d q = none ∧ d' q = some .dir ∧ q <+: p)

end Norfair.Spec
