import Verif.Model.Drawing

/-!
Model of `norfair/drawing/drawer.py` (`Drawer`): what the drawing functions do to the pixels of a picture.

Which pixels OpenCV paints for a circle, a line, a rectangle or a text is a parameter (`Raster`).
Simplification: exact arithmetic instead of floats when pictures are blended or attenuated.
-/

namespace Norfair

variable {K : Type}

/-- a picture (`np.ndarray` of type `uint8`): the value of the pixel at `(x, y)` in each channel. The size of
the picture plays no role here: what is said about a pixel outside of it means nothing. -/
abbrev Pic := ℤ × ℤ → Nat → Nat

/-- the conversion of numbers to `uint8` by OpenCV, which saturates -/
def toByte (x : ℤ) : Nat := (max 0 (min x 255)).toNat

/-- the arguments of `cv2.putText` (`drawer.py` lines 119-139), without the font and the kind of lines, which
are always the same -/
structure PutText (K : Type) where
  text : List Char
  org : ℤ × ℤ
  size : K
  color : Color
  thickness : ℤ

/-- `Drawer.text` (`drawer.py` lines 67-139): the calls of `cv2.putText`, in order, on a frame of shape
`shape`. Lines 115-116 do nothing. Python's `round` rounds halves to even numbers. -/
def drawerText [Field K] [LinearOrder K] [FloorRing K] (shape : List Nat) (text : List Char) (position : ℤ × ℤ)
    (size : Option K) (color : Color) (thickness : Option ℤ) (shadow : Bool := true)
    (shadowColor : Color := [0, 0, 0]) (shadowOffset : ℤ := 1) : List (PutText K) :=
  let size := size.getD (min (max (((shape.foldl max 0 : Nat) : K) / 4000) (1 / 2)) (3 / 2))
  let thickness := thickness.getD (around size + 1)
  let anchor := (position.1 + thickness / 2, position.2 - thickness / 2)
  (if shadow then [⟨text, (anchor.1 + shadowOffset, anchor.2 + shadowOffset), size, shadowColor, thickness⟩]
    else []) ++ [⟨text, anchor, size, color, thickness⟩]

/-- `Drawer.circle` (`drawer.py` lines 24-65) with its default values, on a frame of shape `shape` -/
def Canvas.drawerCircle [Field K] [LinearOrder K] [FloorRing K] (c : Canvas K) (shape : List Nat) (pos : List ℤ)
    (radius thickness : Option ℤ) (color : Color) : Canvas K :=
  let radius := radius.getD (truncInt (max (((shape.foldl max 0 : Nat) : K) * (5 / 1000)) 1))
  c.circle pos radius (thickness.getD (radius - 1)) color

/-- `Drawer.alpha_blend` (`drawer.py` lines 264-298) with its default values, and without
`gamma`, which is zero in all calls -/
def Canvas.alphaBlend [Field K] (a b : Canvas K) (alpha : K := 1 / 2) (beta : Option K := none) : Canvas K :=
  a.blend b alpha (beta.getD (1 - alpha))

/-- What OpenCV does: the pixels of a circle (`cv2.circle`), a line (`cv2.line`) and a rectangle
(`cv2.rectangle`), which get the given color; the pixels that change when a text is written (`cv2.putText`)
and their new values, which depend on the old ones because the edges of letters are smoothed; the coordinates
that numpy makes from NaN. -/
structure Raster (K : Type) where
  circle : List ℤ → ℤ → ℤ → ℤ × ℤ → Bool
  line : List ℤ → List ℤ → ℤ → ℤ × ℤ → Bool
  rectangle : List ℤ → List ℤ → ℤ → ℤ × ℤ → Bool
  glyph : PutText K → ℤ × ℤ → Bool
  ink : PutText K → ℤ × ℤ → Nat → Nat → Nat
  nan : List ℤ
  ink_le : ∀ t p ch v, ink t p ch v ≤ 255

/-- some pixels get a color -/
def paint (covers : ℤ × ℤ → Bool) (color : Color) (pic : Pic) : Pic := fun p ch =>
  if covers p then toByte (color.getD ch 0) else pic p ch

/-- `cv2.putText` -/
def Raster.write (ras : Raster K) (pic : Pic) (t : PutText K) : Pic := fun p ch =>
  if ras.glyph t p then ras.ink t p ch (pic p ch) else pic p ch

/-- the position of a text as a pair, see `Raster.nan` -/
def Raster.position (ras : Raster K) (pos : Option (List ℤ)) : ℤ × ℤ :=
  ((pos.getD ras.nan).getD 0 0, (pos.getD ras.nan).getD 1 0)

/-- The pixels of a picture made from the frame `frame` of shape `shape`. Attenuation:
`(mask * factor).astype("uint8")` (`path.py` line 98), `cv2.addWeighted` (`drawer.py` lines 296-298). -/
def Canvas.render [Field K] [LinearOrder K] [FloorRing K] (ras : Raster K) (shape : List Nat) (frame : Pic) :
    Canvas K → Pic
  | .base => frame
  | .black => fun _ _ => 0
  | .scaled c f => fun p ch => (truncInt ((c.render ras shape frame p ch : K) * f) % 256).toNat
  | .circle c pos r t col => paint (ras.circle pos r t) col (c.render ras shape frame)
  | .line c a b t col => paint (ras.line a b t) col (c.render ras shape frame)
  | .rectangle c a b t col => paint (ras.rectangle a b t) col (c.render ras shape frame)
  | .text c s pos col size t =>
    (drawerText shape s (ras.position pos) size col t).foldl ras.write (c.render ras shape frame)
  | .blend a b x y => fun p ch =>
    toByte (around (x * (a.render ras shape frame p ch : K) + y * (b.render ras shape frame p ch : K)))

end Norfair
