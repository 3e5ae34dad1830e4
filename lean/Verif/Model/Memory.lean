import Verif.Model.Pixels
import Verif.Model.FixedCamera

/-!
Model of the arrays behind the pictures of `norfair/drawing`: which arrays the drawing functions write to and
which ones they return. An array is an address in a memory; numpy and OpenCV functions either write to an
array or make a new one.
-/

namespace Norfair

variable {K H P Px : Type}

/-- all arrays that hold pictures; the addresses from `next` on are free -/
structure Mem (P : Type) where
  next : Nat
  pic : Nat → P

/-- a new array -/
def Mem.new (m : Mem P) (p : P) : Mem P × Nat := (⟨m.next + 1, Function.update m.pic m.next p⟩, m.next)

/-- the content of an array changes -/
def Mem.set (m : Mem P) (a : Nat) (p : P) : Mem P := ⟨m.next, Function.update m.pic a p⟩

/-- `Drawer.circle`, which draws on the array it gets (`drawer.py` lines 24-65) -/
def Mem.circle (ras : Raster K) (m : Mem Pic) (a : Nat) (pos : List ℤ) (radius thickness : ℤ) (color : Color) :
    Mem Pic :=
  m.set a (paint (ras.circle pos radius thickness) color (m.pic a))

/-- `Drawer.line`, which draws on the array it gets (`drawer.py` lines 226-262) -/
def Mem.line (ras : Raster K) (m : Mem Pic) (a : Nat) (p q : List ℤ) (thickness : ℤ) (color : Color) :
    Mem Pic :=
  m.set a (paint (ras.line p q thickness) color (m.pic a))

/-- `Drawer.alpha_blend`: `cv2.addWeighted` makes a new array (`drawer.py` lines 264-298) -/
def Mem.blend [Field K] [LinearOrder K] [FloorRing K] (m : Mem Pic) (a b : Nat) (alpha beta : K) :
    Mem Pic × Nat :=
  m.new fun p ch => toByte (around (alpha * (m.pic a p ch : K) + beta * (m.pic b p ch : K)))

/-- The drawings of `draw_points`, `draw_boxes` and `draw_absolute_grid` (`Drawer.circle`, `Drawer.line`,
`Drawer.rectangle`, `Drawer.text` and `Drawer.cross`, `drawer.py` lines 24-262), one after the other on the
array `a` of shape `shape`; `none` for pictures that are not made in this way. -/
def Canvas.onArray [Field K] [LinearOrder K] [FloorRing K] (ras : Raster K) (shape : List Nat) (m : Mem Pic)
    (a : Nat) : Canvas K → Option (Mem Pic)
  | .base => some m
  | .circle c pos r t col => (c.onArray ras shape m a).map fun m => m.circle ras a pos r t col
  | .line c p q t col => (c.onArray ras shape m a).map fun m => m.line ras a p q t col
  | .rectangle c p q t col =>
    (c.onArray ras shape m a).map fun m => m.set a (paint (ras.rectangle p q t) col (m.pic a))
  | .text c s pos col size t =>
    (c.onArray ras shape m a).map fun m =>
      (drawerText shape s (ras.position pos) size col t).foldl (fun m u => m.set a (ras.write (m.pic a) u)) m
  | .black => none
  | .scaled _ _ => none
  | .blend _ _ _ _ => none

/-! ### Paths -/

/-- `Paths` (`path.py` lines 12-122): like `Norfair.Paths`, but `mask` is an array -/
structure MemPaths where
  radius : Option ℤ
  thickness : Option ℤ
  mask : Option Nat

/-- the circles of one object on an array (`path.py` lines 113-120, 205-212) -/
def Mem.circles [Ring K] [LinearOrder K] [FloorRing K] (ras : Raster K) (a : Nat) (radius thickness : ℤ)
    (color : Color) (ps : List (List K)) (m : Mem Pic) : Mem Pic :=
  ps.foldl (fun m p => m.circle ras a (p.map truncInt) radius thickness color) m

/-- the loop of `Paths.draw` (`path.py` lines 100-120) on the array `a`; `none` if the choice of a color
raises -/
def MemPaths.loop [Ring K] [LinearOrder K] [FloorRing K] (ras : Raster K) (hash : H → ℤ) (pal : Palette)
    (get : List (List K) → List (List K)) (color : Option Color) (radius thickness : ℤ) (a : Nat) :
    List (PathObj K H) → Mem Pic → Option (Mem Pic)
  | [], m => some m
  | o :: os, m =>
    match (match color with | some c => some c | none => pal.choose (o.id.map hash)) with
    | none => none
    | some c => MemPaths.loop ras hash pal get color radius thickness a os
        (m.circles ras a radius thickness c (get o.estimate))

/-- `Paths.draw` (`path.py` lines 67-122) on the array `frame` of height `height`: the memory after the call,
the new state and the returned array; `none` if it raises. -/
def MemPaths.draw [Field K] [LinearOrder K] [FloorRing K] (ras : Raster K) (hash : H → ℤ) (pal : Palette)
    (get : List (List K) → List (List K)) (color : Option Color) (att : K) (height : Nat) (m : Mem Pic)
    (s : MemPaths) (frame : Nat) (objs : List (PathObj K H)) : Option (Mem Pic × MemPaths × Nat) :=
  let scale : K := (height : K) / 100
  -- lines 88-96
  let (m, s, mask) : Mem Pic × MemPaths × Nat := match s.mask with
    | some a => (m, s, a)
    | none =>
      let (m, a) := m.new fun _ _ => 0
      (m, { radius := some (s.radius.getD (truncInt (max (scale * (7 / 10)) 1)))
            thickness := some (s.thickness.getD (truncInt (max (scale / 7) 1)))
            mask := some a }, a)
  -- line 98
  let (m, mask) := m.new fun p ch => (truncInt ((m.pic mask p ch : K) * att) % 256).toNat
  match MemPaths.loop ras hash pal get color (s.radius.getD 0) (s.thickness.getD 0) mask objs m with
  | none => none
  | some m =>
    let (m, out) := m.blend mask frame (1 : K) 1
    some (m, { s with mask := some mask }, out)

/-! ### AbsolutePaths -/

/-- lines 218-225 on the array `a` -/
def Mem.pathLines [Ring K] [LinearOrder K] [FloorRing K] (ras : Raster K) (a : Nat) (thickness : ℤ)
    (color : Color) : List (List K) → List (List K) → Mem Pic → Option (Mem Pic)
  | _, [], m => some m
  | [], _ :: _, _ => none
  | l :: last, p :: ps, m =>
    Mem.pathLines ras a thickness color last ps (m.line ras a (l.map truncInt) (p.map truncInt) thickness color)

/-- lines 215-229: the steps of the path of one object, from `i` on; `frame` is the array that the variable of
this name holds -/
def Mem.pathSteps [Field K] [LinearOrder K] [FloorRing K] (ras : Raster K) (alphas : List K)
    (absToRel : List (List K) → List (List K)) (thickness : ℤ) (color : Color) :
    Nat → List (List K) → List (List (List K)) → Mem Pic → Nat → Option (Mem Pic × Nat)
  | _, _, [], m, frame => some (m, frame)
  | i, last, p :: ps, m, frame =>
    let (m, overlay) := m.new (m.pic frame)
    match m.pathLines ras overlay thickness color (absToRel last) (absToRel p) with
    | none => none
    | some m =>
      match alphas[i]? with
      | none => none
      | some alpha =>
        let (m, frame) := m.blend overlay frame alpha (1 - alpha)
        Mem.pathSteps ras alphas absToRel thickness color (i + 1) p ps m frame

/-- the loop of `AbsolutePaths.draw` over the objects (`path.py` lines 194-231) -/
def Mem.absLoop [Field K] [LinearOrder K] [FloorRing K] [DecidableEq H] (ras : Raster K) (hash : H → ℤ)
    (pal : Palette) (get : List (List K) → List (List K)) (color : Option Color) (maxHistory : Nat)
    (absToRel : Option (List (List K) → List (List K))) (radius thickness : ℤ) :
    List (PathObj K H) → (Option H → List (List (List K))) → Mem Pic → Nat →
      Option ((Option H → List (List (List K))) × Mem Pic × Nat)
  | [], past, m, frame => some (past, m, frame)
  | o :: os, past, m, frame =>
    if !o.live.any (·) then
      Mem.absLoop ras hash pal get color maxHistory absToRel radius thickness os past m frame
    else
      match (match color with | some c => some c | none => pal.choose (o.id.map hash)) with
      | none => none
      | some col =>
        let pts := get o.absolute
        match absToRel with
        | none => none
        | some f =>
          let m := m.circles ras frame radius thickness col (f pts)
          match m.pathSteps ras (pathAlphas maxHistory) f thickness col 0 pts (past o.id) frame with
          | none => none
          | some (m, frame) =>
            let past := Function.update past o.id ((pts :: past o.id).take maxHistory)
            Mem.absLoop ras hash pal get color maxHistory absToRel radius thickness os past m frame

/-- `AbsolutePaths.draw` (`path.py` lines 187-232) on the array `frame` of height `height`: the memory after
the call, the new state and the returned array; `none` if it raises. -/
def Mem.absDraw [Field K] [LinearOrder K] [FloorRing K] [DecidableEq H] (ras : Raster K) (hash : H → ℤ)
    (pal : Palette) (get : List (List K) → List (List K)) (color : Option Color) (maxHistory : Nat)
    (height : Nat) (m : Mem Pic) (s : AbsPaths K H) (frame : Nat) (objs : List (PathObj K H))
    (absToRel : Option (List (List K) → List (List K))) : Option (Mem Pic × AbsPaths K H × Nat) :=
  let scale : K := (height : K) / 100
  let radius := s.radius.getD (truncInt (max (scale * (7 / 10)) 1))
  let thickness := s.thickness.getD (truncInt (max (scale / 7) 1))
  match m.absLoop ras hash pal get color maxHistory absToRel radius thickness objs s.past frame with
  | none => none
  | some (past, m, out) => some (m, ⟨some radius, some thickness, past⟩, out)

/-! ### FixedCamera -/

/-- `FixedCamera` (`fixed_camera.py` lines 54-57): like `Norfair.FixedCamera`, but the background is an
array -/
structure MemCamera (K Px : Type) where
  scale : K
  att : Px → Px
  background : Option Nat

/-- `FixedCamera.adjust_frame` (`fixed_camera.py` lines 59-141) on the array `frame`: the memory after the
call, the new state and the returned array; `none` if it raises. The background is a new array in each call
(lines 89-95), the frame is drawn on it (lines 138-140), and it is returned (line 141). -/
def MemCamera.adjustFrame [Field K] [LinearOrder K] [FloorRing K] [Zero Px] (m : Mem (Image Px))
    (c : MemCamera K Px) (frame : Nat) (ct : Option (CoordTrans K)) :
    Option (Mem (Image Px) × MemCamera K Px × Nat) :=
  match (⟨c.scale, c.att, c.background.map m.pic⟩ : FixedCamera K Px).prepare (m.pic frame) with
  | none => none
  | some bg =>
    let (m, a) := m.new bg
    match FixedCamera.place (m.pic a) (m.pic frame) ct with
    | none => none
    | some b => some (m.set a b, { c with background := some a }, a)

end Norfair
