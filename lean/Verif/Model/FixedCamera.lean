import Verif.Model.CameraMotion

/-!
Model of `norfair/drawing/fixed_camera.py`, and of the slices of numpy arrays it needs.
-/

namespace Norfair

variable {K Px : Type}

/-- An array of pixels (rows, columns); a pixel is the vector of all its channels. Only the values of
`px` at rows below `h` and columns below `w` have a meaning. -/
structure Image (Px : Type) where
  h : Nat
  w : Nat
  px : Nat → Nat → Px

/-- A limit `i` of a python slice of a sequence of length `n`: negative ones count from the end, then it is
clipped to the sequence. -/
def sliceLimit (n : Nat) (i : ℤ) : Nat := if i < 0 then (i + n).toNat else min i.toNat n

/-- `img[y0:y1, x0:x1, :]` -/
def Image.slice (img : Image Px) (y0 y1 x0 x1 : ℤ) : Image Px where
  h := sliceLimit img.h y1 - sliceLimit img.h y0
  w := sliceLimit img.w x1 - sliceLimit img.w x0
  px := fun i j => img.px (sliceLimit img.h y0 + i) (sliceLimit img.w x0 + j)

/-- `img[y0:y1, x0:x1, :] = sub`; `none` if the shapes differ. Simplification: numpy would accept some
different shapes by repeating a single row or column, here this counts as a failure. -/
def Image.assign (img : Image Px) (y0 y1 x0 x1 : ℤ) (sub : Image Px) : Option (Image Px) :=
  let a := sliceLimit img.h y0
  let b := sliceLimit img.h y1
  let c := sliceLimit img.w x0
  let d := sliceLimit img.w x1
  if b - a = sub.h ∧ d - c = sub.w then
    some { img with px := fun i j =>
      if a ≤ i ∧ i < b ∧ c ≤ j ∧ j < d then sub.px (i - a) (j - c) else img.px i j }
  else none

/-- `FixedCamera` (`fixed_camera.py` lines 54-57); `att` is what lines 93-95 do to a pixel: multiply it by
`1 - attenuation` and convert it to the type of the frame. -/
structure FixedCamera (K Px : Type) where
  scale : K
  att : Px → Px
  background : Option (Image Px)

/-- `FixedCamera(scale, attenuation)` -/
def FixedCamera.create (scale : K) (att : Px → Px) : FixedCamera K Px := ⟨scale, att, none⟩

/-- The background before the frame is drawn on it (`fixed_camera.py` lines 79-95); `none` if `np.zeros`
raises because of a negative size. -/
def FixedCamera.prepare [Field K] [LinearOrder K] [FloorRing K] [Zero Px] (c : FixedCamera K Px)
    (frame : Image Px) : Option (Image Px) :=
  match c.background with
  | none =>
    let width := around ((frame.w : K) * c.scale)
    let height := around ((frame.h : K) * c.scale)
    if height < 0 ∨ width < 0 then none
    else some ⟨height.toNat, width.toNat, fun _ _ => 0⟩
  | some b => some { b with px := fun i j => c.att (b.px i j) }

/-- The background with the frame drawn on it (`fixed_camera.py` lines 97-140); `none` if the call raises.
`None` as transformation has no method `rel_to_abs` (line 103).
Simplifications: all frames have the same number of channels; the anchor, an array of shape `(2,)`, is
given to the transformation as an array of one point. -/
def FixedCamera.place [Field K] [LinearOrder K] [FloorRing K] (bg frame : Image Px)
    (ct : Option (CoordTrans K)) : Option (Image Px) :=
  -- lines 99-104
  let top : ℤ := ((bg.h / 2 : Nat) : ℤ) - ((frame.h / 2 : Nat) : ℤ)
  let left : ℤ := ((bg.w / 2 : Nat) : ℤ) - ((frame.w / 2 : Nat) : ℤ)
  match ct with
  | none => none
  | some t =>
    let p := (t.relToAbs ⟨1, 2, [(left : K), (top : K)]⟩).data
    let top := around (p.getD 1 0)
    let left := around (p.getD 0 0)
    -- lines 106-108
    let by0 := top
    let by1 := top + frame.h
    let bx0 := left
    let bx1 := left + frame.w
    -- lines 113-140
    if by0 < 0 ∨ bx0 < 0 ∨ (bg.h : ℤ) < by1 ∨ (bg.w : ℤ) < bx1 then
      let fy0 := max (-by0) 0
      let fx0 := max (-bx0) 0
      let fy1 := max (min ((bg.h : ℤ) - by0) (by1 - by0)) 0
      let fx1 := max (min ((bg.w : ℤ) - bx0) (bx1 - bx0)) 0
      bg.assign (max by0 0) (max by1 0) (max bx0 0) (max bx1 0) (frame.slice fy0 fy1 fx0 fx1)
    else bg.assign by0 by1 bx0 bx1 (frame.slice 0 frame.h 0 frame.w)

/-- `FixedCamera.adjust_frame` (`fixed_camera.py` lines 59-141): the new state, whose background is also
the returned frame (that they are the same array is modelled in `Model/Memory.lean`); `none` if the call
raises. -/
def FixedCamera.adjustFrame [Field K] [LinearOrder K] [FloorRing K] [Zero Px] (c : FixedCamera K Px)
    (frame : Image Px) (ct : Option (CoordTrans K)) : Option (FixedCamera K Px) :=
  match c.prepare frame with
  | none => none
  | some bg => (FixedCamera.place bg frame ct).map fun b => { c with background := some b }

/-- `adjust_frame` on one frame after the other; `none` if a call raises -/
def FixedCamera.run [Field K] [LinearOrder K] [FloorRing K] [Zero Px] (c : FixedCamera K Px) :
    List (Image Px × Option (CoordTrans K)) → Option (FixedCamera K Px)
  | [] => some c
  | f :: fs => (c.adjustFrame f.1 f.2).bind fun c => c.run fs

end Norfair
