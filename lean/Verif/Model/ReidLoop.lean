import Verif.Model.MotVideo
import Verif.Model.Demos
import Verif.Model.Distances

/-!
Model of the loop of the ReID demo (`demos/reid/src/demo.py`): the histograms of the detections, the calls of the tracker, what
is drawn, and the border.
-/

namespace Norfair

variable {K L D F E H : Type}

/-- a frame (`np.ndarray` of type `uint8` with three channels): its size and its pixels, by row and column -/
abbrev Photo := Image (Nat → Nat)

/-- the pixels of a frame, by `(x, y)` -/
def Image.pic (img : Photo) : Pic := fun p => img.px p.2.toNat p.1.toNat

/-- lines 67-71: `get_cutout`, and the histogram `hist` of the cutout if it is not empty; the embedding of a detection is kept
in `extra`. `none` if `get_cutout` raises. -/
def embedOne [Field K] [LinearOrder K] [FloorRing K] (hist : Photo → E) (img : Photo) (heap : Ref → Det K L (Option E))
    (r : Ref) : Option (Ref → Det K L (Option E)) :=
  (getCutout (heap r).points.rows img).map fun cut =>
    Function.update heap r { heap r with extra := if 0 < cut.h ∧ 0 < cut.w then some (hist cut) else none }

/-- the loop over the detections (lines 66-71); the cutouts are made from a copy of the frame (line 65), which is not drawn on -/
def embedAll [Field K] [LinearOrder K] [FloorRing K] (hist : Photo → E) (img : Photo) :
    (Ref → Det K L (Option E)) → List Ref → Option (Ref → Det K L (Option E))
  | heap, [] => some heap
  | heap, r :: rs => (embedOne hist img heap r).bind fun heap => embedAll hist img heap rs

/-- lines 76-77: `draw_points` with the detections, and `draw_tracked_objects` with the objects, both on the frame itself;
`none` if it raises -/
def reidDraw [Field K] [LinearOrder K] [FloorRing K] (dr : EvalDraw K L H) (flt : FilterOps K F) (img : Photo)
    (heap : Ref → Det K L (Option E)) (dets : List Ref) (objs : List (Obj K L D F)) : Option Photo :=
  (drawPoints dr.env [img.h, img.w, 3] {} (some (dets.map fun r => Drawable.ofDet dr.lab (heap r)))).bind fun c =>
    (drawTrackedObjects dr.env [img.h, img.w, 3] (some (objs.map (Drawable.ofObj flt dr.idOf dr.lab)))).map fun c' =>
      ⟨img.h, img.w, fun y x => (c'.getD .base).render dr.ras [img.h, img.w, 3]
        ((c.getD .base).render dr.ras [img.h, img.w, 3] img.pic) (x, y)⟩

/-- the index of a row of an array with `n` rows that numpy uses for row `i` of the slice it is assigned to: an array with one
row is repeated -/
def broadcast (n i : Nat) : Nat := if n = 1 then 0 else i

/-- Lines 78-89: an array for the frame and `b` pixels on each side, all of them 254, and the frame is assigned to the slice
`[b:-b, b:-b]`. `none` if it raises: the shape is negative, or the frame has not the shape of the slice and cannot be repeated. -/
def withBorder (b : ℤ) (img : Photo) : Option Photo :=
  let h := (img.h : ℤ) + 2 * b
  let w := (img.w : ℤ) + 2 * b
  if h < 0 ∨ w < 0 then none
  else
    let y0 := sliceLimit h.toNat b
    let y1 := sliceLimit h.toNat (-b)
    let x0 := sliceLimit w.toNat b
    let x1 := sliceLimit w.toNat (-b)
    if (img.h = y1 - y0 ∨ img.h = 1) ∧ (img.w = x1 - x0 ∨ img.w = 1) then
      some ⟨h.toNat, w.toNat, fun y x =>
        if (y0 ≤ y ∧ y < y1) ∧ x0 ≤ x ∧ x < x1 then img.px (broadcast img.h (y - y0)) (broadcast img.w (x - x0))
        else fun _ => 254⟩
    else none

/-- The tracker and the detections of one frame (lines 63-75): in every `skip`-th frame its detections get embeddings and go to
the tracker, in the others the tracker gets none and `detections` are still those of an earlier frame. `none` if it raises.
Simplification: `skip` is positive (with 0 the first frame raises `ZeroDivisionError`). -/
def reidStep [Field K] [LinearOrder K] [FloorRing K] [LinearOrder D] [Top D] [Zero D] [DecidableEq L]
    (cfg : Cfg K L D F (Option E)) (hist : Photo → E) (skip i : Nat) (old : List Ref) (w : World K L D F (Option E))
    (img : Photo) (pred : List Ref) : Option (List Ref × World K L D F (Option E) × List (Obj K L D F)) :=
  if i % skip = 0 then
    (embedAll hist img w.heap pred).bind fun heap =>
      match update cfg { w with heap := heap } (some pred) skip none with
      | (_, .error _) => none
      | (w, .ok act) => some (pred, w, act)
  else
    match update cfg w none 1 none with
    | (_, .error _) => none
    | (w, .ok act) => some (old, w, act)

/-- The loop over the frames, with the detections `video_predictions[i]` (lines 61-90); the result are the pictures given to
`video.write`. Simplification: the detections of `generate_video` exist before the loop, one list for each frame. -/
def reidLoop [Field K] [LinearOrder K] [FloorRing K] [LinearOrder D] [Top D] [Zero D] [DecidableEq L]
    (cfg : Cfg K L D F (Option E)) (hist : Photo → E) (dr : EvalDraw K L H) (border : ℤ) (skip : Nat) :
    Nat → List Ref → World K L D F (Option E) → List (Photo × List Ref) → Option (World K L D F (Option E) × List Photo)
  | _, _, w, [] => some (w, [])
  | i, old, w, (img, pred) :: fs =>
    match reidStep cfg hist skip i old w img pred with
    | none => none
    | some (dets, w, act) =>
      match (reidDraw dr cfg.flt img w.heap dets act).bind (withBorder border) with
      | none => none
      | some pic => (reidLoop cfg hist dr border skip (i + 1) dets w fs).map fun r => (r.1, pic :: r.2)

/-- `embedding_distance(matched_not_init_trackers, unmatched_trackers)` (lines 15-35) as a ReID distance of the tracker; `emb`
is how its numbers are distances -/
def embeddingReid [Field K] [LinearOrder K] (corr : E → E → K) (emb : K → D) (c o : ObjView K L D F (Option E)) :
    Option (Option D) :=
  some (some (emb (embeddingDistance corr (c.past.map (·.extra)) o.last.extra (o.past.map (·.extra)))))

/-- the tracker of the demo (lines 41-58), with `disable_reid` -/
noncomputable def reidArgs (flt : FilterOps ℝ F) (corr : E → E → ℝ) (disable : Bool) : TrackerArgs L F (Option E) where
  distance := .name "euclidean"
  threshold := ((50 : ℝ) : WithTop ℝ)
  hitCounterMax := 10
  initializationDelay := some 1
  filter := flt
  pastDetectionsLength := 5
  reidDistance := if disable then none else some (embeddingReid corr fun x => (x : WithTop ℝ))
  reidThreshold := if disable then 0 else ((1 / 2 : ℝ) : WithTop ℝ)
  reidHitCounterMax := if disable then none else some 500

end Norfair
