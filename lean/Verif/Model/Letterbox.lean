import Verif.Model.Float32

/-!
Model of `letterbox`, `scale_coords` and `clip_coords` of `demos/yolopv2/src/utils.py`: how an image is fitted into the shape
of the network and how boxes come back to the image.

Simplifications: numbers are rational (no rounding of floats before `round`); sizes and `stride` are not 0; an image is
represented by its size, and `place` says where its points are in the result (`cv2.resize` and `cv2.copyMakeBorder`, in
continuous coordinates).
-/

namespace Norfair

/-- the parameters of `letterbox` (`utils.py` lines 56-64) -/
structure LetterOpts where
  newH : Nat
  newW : Nat
  auto : Bool
  scaleFill : Bool
  scaleup : Bool
  stride : Nat

/-- what `letterbox` does: size of the image after resizing, borders, and what it returns besides the image -/
structure Letter where
  unpadW : ℤ
  unpadH : ℤ
  top : ℤ
  bottom : ℤ
  left : ℤ
  right : ℤ
  ratioW : ℚ
  ratioH : ℚ
  dw : ℚ
  dh : ℚ

/-- one side of the padding and the borders (`utils.py` lines 88-95): `dw /= 2`, `round(dw - 0.1)` and `round(dw + 0.1)` -/
def borders (d : ℚ) : ℚ × ℤ × ℤ := (d / 2, roundHalfEven (d / 2 - 1 / 10), roundHalfEven (d / 2 + 1 / 10))

/-- the scale ratio (`utils.py` lines 70-73) -/
def letterRatio (o : LetterOpts) (h w : Nat) : ℚ :=
  let r := min ((o.newH : ℚ) / h) ((o.newW : ℚ) / w)
  if o.scaleup then r else min r 1

/-- size after resizing, and the padding in both directions (`utils.py` lines 76-86) -/
def letterPad (o : LetterOpts) (h w : Nat) : (ℤ × ℤ) × (ℤ × ℤ) :=
  let r := letterRatio o h w
  let uw := roundHalfEven (w * r)
  let uh := roundHalfEven (h * r)
  if o.auto then ((uw, uh), (o.newW - uw) % o.stride, (o.newH - uh) % o.stride)
  else if o.scaleFill then ((o.newW, o.newH), 0, 0)
  else ((uw, uh), o.newW - uw, o.newH - uh)

/-- `letterbox` for an image of height `h` and width `w` (`utils.py` lines 56-99) -/
def letterbox (o : LetterOpts) (h w : Nat) : Letter :=
  let p := letterPad o h w
  let bw := borders p.2.1
  let bh := borders p.2.2
  let fill := !o.auto && o.scaleFill
  { unpadW := p.1.1
    unpadH := p.1.2
    top := bh.2.1
    bottom := bh.2.2
    left := bw.2.1
    right := bw.2.2
    ratioW := if fill then (o.newW : ℚ) / w else letterRatio o h w
    ratioH := if fill then (o.newH : ℚ) / h else letterRatio o h w
    dw := bw.1
    dh := bh.1 }

/-- width of the result -/
def Letter.outW (l : Letter) : ℤ := l.unpadW + l.left + l.right

/-- height of the result -/
def Letter.outH (l : Letter) : ℤ := l.unpadH + l.top + l.bottom

/-- where a point of the image is in the result: `cv2.resize` to `new_unpad`, then a border on the left and on the top
(`utils.py` lines 91-97) -/
def Letter.place (l : Letter) (h w : Nat) (p : ℚ × ℚ) : ℚ × ℚ := (p.1 * l.unpadW / w + l.left, p.2 * l.unpadH / h + l.top)

/-- `scale_coords` and `clip_coords` for one corner (`utils.py` lines 219-236 and 259-264); `ratioPad` is
`(ratio_pad[0][0], ratio_pad[1])` -/
def scalePoint (h1 w1 : ℚ) (h0 w0 : Nat) (ratioPad : Option (ℚ × ℚ × ℚ)) (p : ℚ × ℚ) : ℚ × ℚ :=
  let gp : ℚ × ℚ × ℚ := match ratioPad with
    | none =>
      let gain := min (h1 / h0) (w1 / w0)
      (gain, (w1 - w0 * gain) / 2, (h1 - h0 * gain) / 2)
    | some x => x
  (min (max ((p.1 - gp.2.1) / gp.1) 0) w0, min (max ((p.2 - gp.2.2) / gp.1) 0) h0)

end Norfair
