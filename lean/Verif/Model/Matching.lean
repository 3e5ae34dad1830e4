import Mathlib.Order.Defs.LinearOrder
import Mathlib.Data.Nat.Basic

/-!
Model of the greedy matching, `norfair/tracker.py` lines 352-385 (`Tracker.match_dets_and_objs`).
-/

namespace Norfair

/-- A rank 2 numpy array of shape `(rows, cols)`; rows are candidates (detections), columns are
tracked objects.  Values of `val` outside of the shape are never read. -/
structure Mat (α : Type) where
  rows : Nat
  cols : Nat
  val : Nat → Nat → α

namespace Mat

variable {α β D : Type}

/-- Entry at a flattened (row-major, C order) index: `tracker.py` lines 374-376 convert back with
`// shape[1]` and `% shape[1]`. -/
def flat (M : Mat α) (k : Nat) : α := M.val (k / M.cols) (k % M.cols)

/-- `distance_matrix.size` (`tracker.py` line 368). -/
def size (M : Mat α) : Nat := M.rows * M.cols

/-- elementwise map -/
def map (f : α → β) (M : Mat α) : Mat β := ⟨M.rows, M.cols, fun i j => f (M.val i j)⟩

/-- `distance_matrix[i, :] = v; distance_matrix[:, j] = v` (`tracker.py` lines 379-380). -/
def blank (M : Mat α) (i j : Nat) (v : α) : Mat α :=
  ⟨M.rows, M.cols, fun a b => if a = i ∨ b = j then v else M.val a b⟩

end Mat

/-- numpy `argmin` of the sequence `f 0, ..., f (n-1)`: index of the first minimal element
(`tracker.py` line 374).  For `n = 0` numpy raises; the code only calls it when `size > 0`
(line 368). -/
def argmin {D : Type} [LinearOrder D] (f : Nat → D) : Nat → Nat
  | 0 => 0
  | n + 1 => if n = 0 then 0 else if f n < f (argmin f n) then n else argmin f n

section
variable {D : Type} [LinearOrder D]

/-- The `while` loop of `match_dets_and_objs` (`tracker.py` lines 371-383).
`distance_matrix.min()` is the entry at `argmin`.  `fill` is the value that numpy stores for
`distance_threshold + 1`.  Python's loop is unbounded; here `fuel` bounds the number of loop tests and
`none` means that the fuel ran out (see `matchLoop_mono` and C03 for the relation).
The two index lists `det_idxs`, `obj_idxs` of the code are returned as one list of pairs. -/
def matchLoop (thr fill : D) : Nat → Mat D → Option (List (Nat × Nat))
  | 0, _ => none
  | fuel + 1, M =>
    let k := argmin M.flat M.size
    if M.flat k < thr then
      let i := k / M.cols
      let j := k % M.cols
      (matchLoop thr fill fuel (M.blank i j fill)).map (fun l => (i, j) :: l)
    else some []

/-- `Tracker.match_dets_and_objs` (`tracker.py` lines 352-385) with a bound on the loop.
The copy of line 367 is implicit (values are immutable here). -/
def matchDetsAndObjsFuel (fuel : Nat) (thr fill : D) (M : Mat D) : Option (List (Nat × Nat)) :=
  if 0 < M.size then matchLoop thr fill fuel M else some []

/-- `Tracker.match_dets_and_objs`: the loop with enough fuel (C03 proves that it is enough whenever the
Python loop terminates). `none` means non-termination. -/
def matchDetsAndObjs (thr fill : D) (M : Mat D) : Option (List (Nat × Nat)) :=
  matchDetsAndObjsFuel (min M.rows M.cols + 1) thr fill M

/-- The Python function (whose loop has no bound) returns the index pairs `l`. -/
def MatchReturns (thr fill : D) (M : Mat D) (l : List (Nat × Nat)) : Prop :=
  ∃ fuel, matchDetsAndObjsFuel fuel thr fill M = some l

/-- The Python function never returns. -/
def MatchDiverges (thr fill : D) (M : Mat D) : Prop :=
  ∀ fuel, matchDetsAndObjsFuel fuel thr fill M = none

end

end Norfair
