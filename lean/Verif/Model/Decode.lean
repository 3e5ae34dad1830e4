import Verif.Model.Nms
import Mathlib.Analysis.SpecialFunctions.Sigmoid

/-!
Model of `split_for_trace_model` and `_make_grid` of `demos/yolopv2/src/utils.py`: how the output of the network becomes a
list of predictions (one image of the batch). Numbers are real.
-/

namespace Norfair

/-- one of the three outputs of the network: `pred[i][0]` of shape `(255, ny, nx)` and `anchor_grid[i]`, the width and height
of the three anchors -/
structure YoloHead where
  ny : Nat
  nx : Nat
  raw : Nat → Nat → Nat → ℝ
  anchor : Nat → ℝ × ℝ

/-- `_make_grid(nx, ny)[0, 0, y, x]` (`utils.py` lines 254-256): `meshgrid` of the rows and the columns has the row in its
first array, and `stack((xv, yv))` puts the column first -/
def makeGrid (y x : Nat) : Nat × Nat := (x, y)

/-- entry `k` for anchor `a` and the cell in row `y` and column `x` after `view(bs, 3, 85, ny, nx)`,
`permute(0, 1, 3, 4, 2)` and `sigmoid` (`utils.py` lines 244-245) -/
noncomputable def YoloHead.entry (h : YoloHead) (a y x k : Nat) : ℝ := Real.sigmoid (h.raw (a * 85 + k) y x)

/-- the row of `y` for one anchor and cell (`utils.py` lines 246-248), with the stride `st[i]` -/
noncomputable def YoloHead.cell (h : YoloHead) (st : Nat) (a y x : Nat) : YoloPred ℝ :=
  ⟨(h.entry a y x 0 * 2 - 1 / 2 + ((makeGrid y x).1 : ℝ)) * st, (h.entry a y x 1 * 2 - 1 / 2 + ((makeGrid y x).2 : ℝ)) * st,
    (h.entry a y x 2 * 2) ^ 2 * (h.anchor a).1, (h.entry a y x 3 * 2) ^ 2 * (h.anchor a).2, h.entry a y x 4,
    (List.range 80).map fun k => h.entry a y x (5 + k)⟩

/-- `y.view(bs, -1, 85)` (`utils.py` line 249): the rows in the order anchor, row, column -/
noncomputable def YoloHead.rows (h : YoloHead) (st : Nat) : List (YoloPred ℝ) :=
  (List.range 3).flatMap fun a => (List.range h.ny).flatMap fun y => (List.range h.nx).map fun x => h.cell st a y x

/-- `split_for_trace_model` (`utils.py` lines 239-251) -/
noncomputable def splitForTraceModel (heads : Fin 3 → YoloHead) : List (YoloPred ℝ) :=
  (heads 0).rows 8 ++ (heads 1).rows 16 ++ (heads 2).rows 32

end Norfair
