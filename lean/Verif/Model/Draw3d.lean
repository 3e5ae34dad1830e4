import Verif.Model.Demos
import Verif.Model.Drawing

/-!
Model of `draw_3d_tracked_boxes` (`demos/3d_track/src/utils.py` lines 124-181): which lines and texts it draws.
-/

namespace Norfair

variable {K : Type}

/-- `CONNECTED_INDEXES` (line 6) -/
def connectedIndexes : List Nat := [1, 2, 4, 3, 1, 5, 7, 3, 7, 8, 6, 5, 6, 2, 4, 8]

/-- the attributes of a tracked object that are read: id, estimate (rows of three numbers), `live_points` -/
structure Obj3d (K : Type) where
  id : Nat
  estimate : List (K × K × K)
  live : List Bool

/-- a call of `cv2.polylines` (not closed) or of `cv2.putText` -/
inductive Mark3d (K : Type)
  | lines (points : List (ℤ × ℤ)) (color : Color) (thickness : ℤ)
  | text (text : List Char) (position : ℤ × ℤ) (size : K) (color : Color) (thickness : ℤ)
deriving DecidableEq

/-- the arguments with defaults (lines 128-133); a tuple of colors has become a list with one color (lines 142-143) -/
structure Draw3dArgs (K : Type) where
  borderColors : Option (List Color) := none
  borderWidth : Option ℤ := none
  idSize : Option K := none
  idThickness : Option ℤ := none
  drawBox : Bool := true
  onlyAlive : Bool := true

/-- `astype(int)` of a point -/
def truncPoint [Ring K] [LinearOrder K] [FloorRing K] (p : K × K) : ℤ × ℤ := (truncInt p.1, truncInt p.2)

/-- the color of the object with number `n` (lines 148-151); `none` if there are no colors -/
def color3d (pal : Nat → Option Color) (a : Draw3dArgs K) (n : Nat) (o : Obj3d K) : Option Color :=
  match a.borderColors with
  | none => pal o.id
  | some cs => if cs.length = 0 then none else cs[n % cs.length]?

/-- the body of the loop for an object that is drawn (lines 148-180); `none` if it raises: no colors, a missing point -/
def draw3dObject [Field K] [LinearOrder K] [FloorRing K] (pal : Nat → Option Color) (str : Nat → List Char)
    (project : K × K × K → K × K) (a : Draw3dArgs K) (width : ℤ) (size : K) (thickness : ℤ) (n : Nat) (o : Obj3d K) :
    Option (List (Mark3d K)) :=
  (color3d pal a n o).bind fun color =>
  (connectedIndexes.mapM fun i => (o.estimate.map project)[i]?).bind fun sorted =>
  ((o.estimate.map project)[0]?).map fun center =>
    (if a.drawBox then [Mark3d.lines (sorted.map truncPoint) color width] else []) ++
      if size > 0 then [Mark3d.text (str o.id) (truncPoint center) size color thickness] else []

/-- the loop over the objects (lines 145-180), the first of which has number `n` -/
def draw3dLoop [Field K] [LinearOrder K] [FloorRing K] (pal : Nat → Option Color) (str : Nat → List Char)
    (project : K × K × K → K × K) (a : Draw3dArgs K) (width : ℤ) (size : K) (thickness : ℤ) :
    Nat → List (Obj3d K) → Option (List (Mark3d K))
  | _, [] => some []
  | n, o :: os =>
    if a.onlyAlive && !(o.live.any id) then draw3dLoop pal str project a width size thickness (n + 1) os
    else
      (draw3dObject pal str project a width size thickness n o).bind fun l =>
        (draw3dLoop pal str project a width size thickness (n + 1) os).map fun ls => l ++ ls

/-- `draw_3d_tracked_boxes` (lines 124-181) for a frame of this height. `pal` is `Palette.choose_color`, `str` is `str`. -/
def draw3dTrackedBoxes [Field K] [LinearOrder K] [FloorRing K] (pal : Nat → Option Color) (str : Nat → List Char)
    (project : K × K × K → K × K) (a : Draw3dArgs K) (height : Nat) (os : List (Obj3d K)) : Option (List (Mark3d K)) :=
  let scale : K := (height : K) / 100
  draw3dLoop pal str project a (a.borderWidth.getD (truncInt (scale * (1 / 2)))) (a.idSize.getD (scale / 10))
    (a.idThickness.getD (truncInt (scale / 5))) 0 os

end Norfair
