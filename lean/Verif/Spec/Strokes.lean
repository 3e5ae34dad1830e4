import Verif.Model.Pixels

/-!
What was drawn on a picture, and which pixels it covers.
-/

namespace Norfair.Spec

open Norfair

variable {K : Type}

/-- something drawn on a picture -/
inductive Stroke (K : Type)
  | circle (pos : List ℤ) (radius thickness : ℤ) (color : Color)
  | line (a b : List ℤ) (thickness : ℤ) (color : Color)
  | rectangle (a b : List ℤ) (thickness : ℤ) (color : Color)
  | text (s : List Char) (pos : Option (List ℤ)) (color : Color) (size : Option K) (thickness : Option ℤ)

/-- everything drawn on a picture or on one of those it was made from, oldest first -/
def strokes : Canvas K → List (Stroke K)
  | .base => []
  | .black => []
  | .scaled c _ => strokes c
  | .circle c p r t col => strokes c ++ [.circle p r t col]
  | .line c a b t col => strokes c ++ [.line a b t col]
  | .rectangle c a b t col => strokes c ++ [.rectangle a b t col]
  | .text c s p col size t => strokes c ++ [.text s p col size t]
  | .blend a b _ _ => strokes b ++ strokes a

/-- the pixel is painted when this is drawn on a frame of shape `shape` (a text is written twice: the shadow
and the text itself) -/
def Stroke.Covers [Field K] [LinearOrder K] [FloorRing K] (ras : Raster K) (shape : List Nat) (px : ℤ × ℤ) :
    Stroke K → Prop
  | .circle p r t _ => ras.circle p r t px = true
  | .line a b t _ => ras.line a b t px = true
  | .rectangle a b t _ => ras.rectangle a b t px = true
  | .text s p col size t => ∃ u ∈ drawerText shape s (ras.position p) size col t, ras.glyph u px = true

/-- The picture is made from the frame of the user by drawing and by blending with weights from 0 to 1 and sum 1. -/
def OnFrame [Field K] [LinearOrder K] : Canvas K → Prop
  | .base => True
  | .black => False
  | .scaled _ _ => False
  | .circle c _ _ _ _ => OnFrame c
  | .line c _ _ _ _ => OnFrame c
  | .rectangle c _ _ _ _ => OnFrame c
  | .text c _ _ _ _ _ => OnFrame c
  | .blend a b x y => OnFrame a ∧ OnFrame b ∧ 0 ≤ x ∧ 0 ≤ y ∧ x + y = 1

/-- the circles that `draw_points` may draw cover `px`: one of a live point, or of any point if dead points are
shown -/
def PointCovers [Ring K] [LinearOrder K] [FloorRing K] {H : Type} (ras : Raster K) (hide : Bool) (r t : ℤ)
    (px : ℤ × ℤ) (d : Drawable K H) : Prop :=
  ∃ q ∈ d.points.zip d.live, (q.2 = true ∨ hide = false) ∧ ras.circle (q.1.map truncInt) r t px = true

end Norfair.Spec
