import Verif.Model.ReidLoop
import Verif.Model.History
import Verif.Spec.Frames

/-! C130: the loop of the ReID demo. -/

namespace Norfair.Spec

open Norfair

variable {K L D F E H : Type}

/-- a picture with a border of `b` pixels of the value 254 on each side -/
structure Bordered (b : Nat) (img out : Photo) : Prop where
  height : out.h = img.h + 2 * b
  width : out.w = img.w + 2 * b
  inside : ∀ y x, y < img.h → x < img.w → out.px (y + b) (x + b) = img.px y x
  outside : ∀ y x, ¬ (b ≤ y ∧ y < img.h + b ∧ b ≤ x ∧ x < img.w + b) → ∀ ch, out.px y x ch = 254

variable [Field K] [LinearOrder K] [FloorRing K]

/-- the embedding of a detection comes from the pixels of this frame at its points; there is none if these are outside -/
def SeenIn (hist : Photo → E) (img : Photo) (d : Det K L (Option E)) : Prop :=
  ∃ cut, getCutout d.points.rows img = some cut ∧
    (0 < cut.h ∧ 0 < cut.w → d.extra = some (hist cut)) ∧ (cut.h = 0 ∨ cut.w = 0 → d.extra = none)

/-- What happens in frame `i` of a video, with the detections `pred` for this frame; `shown` are those of the last frame that
was processed, `f` is the call of the tracker and `pic` the picture that is written. -/
structure ReidFrame (hist : Photo → E) (dr : EvalDraw K L H) (flt : FilterOps K F) (border skip i : Nat) (shown : List Ref)
    (x : Photo × List Ref) (f : Frame K L D F (Option E)) (pic : Photo) : Prop where
  processed : i % skip = 0 → f.dets = some x.2 ∧ f.period = skip ∧ ∀ r ∈ x.2, SeenIn hist x.1 (f.before.heap r)
  skipped : i % skip ≠ 0 → f.dets = none ∧ f.period = 1
  still : f.ct = none
  picture : ∃ act c c', f.out = .ok act ∧
    drawPoints dr.env [x.1.h, x.1.w, 3] {} (some (shown.map fun r => Drawable.ofDet dr.lab (f.after.heap r))) = some (some c) ∧
    drawTrackedObjects dr.env [x.1.h, x.1.w, 3] (some (act.map (Drawable.ofObj flt dr.idOf dr.lab))) = some (some c') ∧
    Bordered border ⟨x.1.h, x.1.w, fun y x' => c'.render dr.ras [x.1.h, x.1.w, 3]
      (c.render dr.ras [x.1.h, x.1.w, 3] fun p => x.1.px p.2.toNat p.1.toNat) (x', y)⟩ pic

end Norfair.Spec
