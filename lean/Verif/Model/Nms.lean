import Mathlib.Algebra.Order.Field.Basic
import Mathlib.Data.List.Sort

/-!
Model of `non_max_suppression` of `demos/yolopv2/src/utils.py` (one image of the batch; all images are treated alike).

Simplifications: numbers are exact; `labels` is empty (as in the demo) and `merge` is `False` (it is a constant); the time
limit is not reached; ties between classes go to the first one and sorting is stable (as `torch` does on a CPU);
predictions have at least one class.
-/

namespace Norfair

variable {K : Type}

/-- a row of `prediction[xi]`: center, size, confidence that there is an object, confidence of each class -/
structure YoloPred (K : Type) where
  cx : K
  cy : K
  w : K
  h : K
  obj : K
  cls : List K

/-- a row of the matrix of detections `[x1, y1, x2, y2, conf, cls]` (`utils.py` lines 176-182) -/
structure YoloRow (K : Type) where
  x1 : K
  y1 : K
  x2 : K
  y2 : K
  conf : K
  cls : Nat
deriving DecidableEq

/-- `max(1)` of a row: the greatest entry with its (first) index -/
def bestClass [LinearOrder K] : List K → Option (Nat × K)
  | [] => none
  | v :: vs =>
    match bestClass vs with
    | none => some (0, v)
    | some (j, m) => if m ≤ v then some (0, v) else some (j + 1, m)

section
variable [Field K] [LinearOrder K]

/-- `xywh2xyxy` (`utils.py` lines 267-274) for one row, with confidence and class -/
def YoloPred.row (p : YoloPred K) (j : Nat) (conf : K) : YoloRow K :=
  ⟨p.cx - p.w / 2, p.cy - p.h / 2, p.cx + p.w / 2, p.cy + p.h / 2, conf, j⟩

/-- `conf = obj_conf * cls_conf` (`utils.py` line 171) -/
def YoloPred.confs (p : YoloPred K) : List K := p.cls.map (· * p.obj)

/-- the rows before suppression (`utils.py` lines 141, 155 and 170-186): boxes over the confidence threshold, with all classes
over the threshold if `multi_label` and with the best class otherwise, and of the given classes -/
def candidateRows (thr : K) (multi : Bool) (nc : Nat) (classes : Option (List Nat)) (preds : List (YoloPred K)) :
    List (YoloRow K) :=
  let xs := preds.filter fun p => decide (thr < p.obj)
  let rows :=
    if multi && decide (1 < nc) then
      xs.flatMap fun p => p.confs.zipIdx.filterMap fun x => if thr < x.1 then some (p.row x.2 x.1) else none
    else
      xs.filterMap fun p => (bestClass p.confs).bind fun x => if thr < x.2 then some (p.row x.1 x.2) else none
  match classes with
  | none => rows
  | some l => rows.filter fun r => l.contains r.cls

/-- boxes moved by the class (`utils.py` lines 196-197) -/
def YoloRow.moved (r : YoloRow K) (c : K) : YoloRow K := { r with x1 := r.x1 + c, y1 := r.y1 + c, x2 := r.x2 + c, y2 := r.y2 + c }

/-- intersection over union as in `torchvision.ops.nms` and in `box_iou` (`utils.py` lines 277-297); for two boxes without
area `torch` has `nan`, which is over no threshold, here it is 0 -/
def YoloRow.iou (a b : YoloRow K) : K :=
  let inter := max 0 (min a.x2 b.x2 - max a.x1 b.x1) * max 0 (min a.y2 b.y2 - max a.y1 b.y1)
  inter / ((a.x2 - a.x1) * (a.y2 - a.y1) + (b.x2 - b.x1) * (b.y2 - b.y1) - inter)

/-- `torchvision.ops.nms` after sorting: a box is kept if none of those kept before (`kept`) overlaps it -/
def suppress {α : Type} (over : α → α → Bool) : List α → List α → List α
  | _, [] => []
  | kept, b :: l => if kept.any fun a => over a b then suppress over kept l else b :: suppress over (kept ++ [b]) l

/-- descending order of the confidence -/
def byConf (rows : List (YoloRow K)) : List (YoloRow K) := rows.insertionSort fun a b => b.conf ≤ a.conf

/-- `non_max_suppression` for one image (`utils.py` lines 125-216) -/
def nonMaxSuppression (confThr iouThr : K) (classes : Option (List Nat)) (agnostic multi : Bool) (nc : Nat)
    (preds : List (YoloPred K)) : List (YoloRow K) :=
  let rows := candidateRows confThr multi nc classes preds
  let rows := if 30000 < rows.length then (byConf rows).take 30000 else rows
  let offset (r : YoloRow K) : K := if agnostic then 0 else r.cls * 4096
  (suppress (fun a b => decide (iouThr < (a.moved (offset a)).iou (b.moved (offset b)))) [] (byConf rows)).take 300

end

end Norfair
