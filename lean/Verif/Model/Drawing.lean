import Verif.Model.Color
import Verif.Model.CameraMotion

/-!
Model of `norfair/drawing/utils.py`, `drawer.py` (`Drawable`), `draw_points.py`, `draw_boxes.py`,
`path.py` and `absolute_grid.py`.

The drawing functions of OpenCV are constructors of pictures: a picture is the frame given by the user and
what was drawn on it, in order; what they do to pixels is in `Model/Pixels.lean`. `H` is a type of ids and
labels with Python's `hash` and `str` as parameters.
-/

namespace Norfair

variable {K H L X D F : Type}

/-- `Drawer` (`drawer.py` lines 16-298): the pictures that can be made from the frame of the user (`base`),
the empty mask of `Paths` (`black`) and the results of earlier calls -/
inductive Canvas (K : Type)
  | base
  | black
  | scaled (c : Canvas K) (factor : K)
  | circle (on : Canvas K) (pos : List ℤ) (radius : ℤ) (thickness : ℤ) (color : Color)
  | line (on : Canvas K) (a b : List ℤ) (thickness : ℤ) (color : Color)
  | rectangle (on : Canvas K) (a b : List ℤ) (thickness : ℤ) (color : Color)
  | text (on : Canvas K) (s : List Char) (pos : Option (List ℤ)) (color : Color) (size : Option K)
    (thickness : Option ℤ)
  | blend (a b : Canvas K) (alpha beta : K)

/-- `x.astype(int)`: the part after the decimal point is cut off -/
def truncInt [Ring K] [LinearOrder K] [FloorRing K] (x : K) : ℤ := if 0 ≤ x then ⌊x⌋ else ⌈x⌉

/-- `Drawable` (`drawer.py` lines 301-363); the rows of `points` are a list -/
structure Drawable (K H : Type) where
  points : List (List K)
  id : Option H
  label : Option H
  scores : Option (List K)
  live : List Bool

/-- the rows of an array of points -/
def Pts.rows (p : Pts K) : List (List K) :=
  (List.range p.n).map fun i => (p.data.drop (i * p.dim)).take p.dim

/-- `Drawable(detection)` (`drawer.py` lines 337-344) -/
def Drawable.ofDet (lab : L → Option H) (d : Det K L X) : Drawable K H where
  points := d.points.rows
  id := none
  label := lab d.label
  scores := d.scores
  live := List.replicate d.points.n true

/-- `Drawable(tracked_object)` (`drawer.py` lines 346-353) -/
def Drawable.ofObj (fo : FilterOps K F) (idOf : Nat → H) (lab : L → Option H) (o : Obj K L D F) :
    Drawable K H where
  points := (o.estimate fo).rows
  id := o.id.map idOf
  label := lab o.label
  scores := none
  live := o.livePoints

/-- `_build_text` (`drawing/utils.py` lines 16-28); `str` is `str()` of ids and labels, `fmt` the text of
the rounded mean of the scores. -/
def buildText (str : H → List Char) (fmt : List K → List Char) (d : Drawable K H)
    (drawLabels drawIds drawScores : Bool) : List Char :=
  let text := match drawLabels, d.label with
    | true, some l => str l
    | _, _ => []
  let text := match drawIds, d.id with
    | true, some i => (if text.length > 0 then text ++ ['-'] else text) ++ str i
    | _, _ => text
  match drawScores, d.scores with
  | true, some s => (if text.length > 0 then text ++ ['-'] else text) ++ fmt s
  | _, _ => text

/-- what the drawing functions know about the world: Python's `hash` and `str`, the text of a mean score,
the palette, the hashes of the random numbers drawn from `np.random.rand()` -/
structure DrawEnv (K H : Type) where
  hash : H → ℤ
  str : H → List Char
  fmt : List K → List Char
  palette : Palette
  rnd : Nat → ℤ

/-- The color of an object (`draw_points.py` lines 137-144, `draw_boxes.py` lines 140-147); `k` counts the
calls of `np.random.rand()`. `none` if it raises. -/
def objColor (env : DrawEnv K H) (color : ColorLike) (d : Drawable K H) (k : Nat) : Option Color :=
  if color = .str "by_id".toList then env.palette.choose (d.id.map env.hash)
  else if color = .str "by_label".toList then env.palette.choose (d.label.map env.hash)
  else if color = .str "random".toList then env.palette.choose (some (env.rnd k))
  else parseColor color

/-- the arguments of `draw_points` (`draw_points.py` lines 13-30) -/
structure DrawPointsArgs (K : Type) where
  radius : Option ℤ := none
  thickness : Option ℤ := none
  color : Option ColorLike := some (.str "by_id".toList)
  colorByLabel : Option Bool := none
  drawLabels : Bool := true
  drawIds : Bool := true
  drawPoints : Bool := true
  textColor : Option ColorLike := none
  hideDeadPoints : Bool := true
  drawScores : Bool := false
  textSize : Option K := none
  textThickness : Option ℤ := none
  labelSize : Option K := none

/-- the rows of an array at the `true` entries of a mask -/
def maskRows {α : Type} (rows : List α) (mask : List Bool) : List α :=
  ((rows.zip mask).filter (·.2)).map (·.1)

/-- `rows.mean(axis=0)` for rows with `dim` entries; `none` (all entries NaN) if there are no rows -/
def meanRows [Field K] (dim : Nat) (rows : List (List K)) : Option (List K) :=
  if rows.length = 0 then none
  else some ((List.range dim).map fun k =>
    ((rows.map fun r => r.getD k 0).foldl (· + ·) 0) / (rows.length : K))

/-- one circle per point (`draw_points.py` lines 151-160) -/
def drawCircles [Ring K] [LinearOrder K] [FloorRing K] (hide : Bool) (radius thickness : ℤ) (color : Color)
    (ps : List (List K × Bool)) (c : Canvas K) : Canvas K :=
  ps.foldl (fun c p =>
    if p.2 || !hide then c.circle (p.1.map truncInt) radius thickness color else c) c

/-- The loop of `draw_points` over the drawables (lines 128-176), `none` if it raises; `k` counts the
objects that are drawn. The position of a text is `none` if it is computed from NaN. -/
def drawPointsLoop [Field K] [LinearOrder K] [FloorRing K] (env : DrawEnv K H) (a : DrawPointsArgs K)
    (color : ColorLike) (radius thickness : ℤ) (textColor : Option Color) :
    Nat → List (Drawable K H) → Canvas K → Option (Canvas K)
  | _, [], c => some c
  | k, d :: ds, c =>
    if a.hideDeadPoints && !d.live.any (·) then
      drawPointsLoop env a color radius thickness textColor k ds c
    else
      match objColor env color d k with
      | none => none
      | some objC =>
        let txtC := textColor.getD objC
        let c := if a.drawPoints then
            drawCircles a.hideDeadPoints radius thickness objC (d.points.zip d.live) c
          else c
        let c := if a.drawLabels || a.drawIds || a.drawScores then
            let pos := meanRows ((d.points.headD []).length) (maskRows d.points d.live)
            c.text (buildText env.str env.fmt d a.drawLabels a.drawIds a.drawScores)
              (pos.map fun p => p.map fun x => truncInt (x - (radius : K))) txtC
              (a.labelSize.or a.textSize) a.textThickness
          else c
        drawPointsLoop env a color radius thickness textColor (k + 1) ds c

/-- `draw_points` (`draw_points.py` lines 13-178) on a frame of shape `shape`, without the deprecated
argument `detections`. The outer `none` means that it raises, the inner one that it
returns `None` (line 116).
Simplification: the mask of the live points of a drawable has as many entries as there are points. -/
def drawPoints [Field K] [LinearOrder K] [FloorRing K] (env : DrawEnv K H) (shape : List Nat)
    (a : DrawPointsArgs K) (drawables : Option (List (Drawable K H))) : Option (Option (Canvas K)) :=
  -- lines 98-102
  let color := match a.colorByLabel with
    | some _ => some (ColorLike.str "by_label".toList)
    | none => a.color
  match drawables with
  | none => some none
  | some ds =>
    let textColor : Option (Option Color) := match a.textColor with
      | some c => (parseColor c).map some
      | none => some none
    match textColor with
    | none => none
    | some textColor =>
      let color := color.getD (.str "by_id".toList)
      let thickness := a.thickness.getD (-1)
      let radius := a.radius.getD (around (max (((shape.foldl max 0 : Nat) : K) * (2 / 1000)) 1))
      (drawPointsLoop env a color radius thickness textColor 0 ds .base).map some

/-- the arguments of `draw_boxes` (`draw_boxes.py` lines 13-31) -/
structure DrawBoxesArgs (K : Type) where
  color : Option ColorLike := some (.str "by_id".toList)
  thickness : Option ℤ := none
  randomColor : Option Bool := none
  colorByLabel : Option Bool := none
  drawLabels : Bool := false
  drawIds : Bool := true
  textColor : Option ColorLike := none
  drawBox : Bool := true
  lineColor : Option ColorLike := none
  lineWidth : Option ℤ := none
  drawScores : Bool := false
  textSize : Option K := none
  textThickness : Option ℤ := none
  labelSize : Option K := none

/-- The loop of `draw_boxes` over the drawables (lines 134-179), `none` if it raises (a drawable without
two points raises an `IndexError` in `Drawer.rectangle` or at `points[0, 0]`). -/
def drawBoxesLoop [Field K] [LinearOrder K] [FloorRing K] (env : DrawEnv K H) (a : DrawBoxesArgs K)
    (color : ColorLike) (thickness : ℤ) (textColor : Option Color) :
    Nat → List (Drawable K H) → Canvas K → Option (Canvas K)
  | _, [], c => some c
  | k, d :: ds, c =>
    match objColor env color d k with
    | none => none
    | some objC =>
      let points := d.points.map fun p => p.map truncInt
      let boxed : Option (Canvas K) := if a.drawBox then
          match points with
          | p :: q :: _ => some (c.rectangle p q thickness objC)
          | _ => none
        else some c
      match boxed with
      | none => none
      | some c =>
        let text := buildText env.str env.fmt d a.drawLabels a.drawIds a.drawScores
        let texted : Option (Canvas K) := if text = [] then some c
          else match points with
            | (x :: y :: _) :: _ =>
              some (c.text text (some [x - thickness / 2, y - thickness / 2 - 1]) (textColor.getD objC)
                (a.labelSize.or a.textSize) a.textThickness)
            | _ => none
        match texted with
        | none => none
        | some c => drawBoxesLoop env a color thickness textColor (k + 1) ds c

/-- `draw_boxes` (`draw_boxes.py` lines 13-181), without the deprecated argument `detections`;
`none` if it raises. -/
def drawBoxes [Field K] [LinearOrder K] [FloorRing K] (env : DrawEnv K H) (shape : List Nat)
    (a : DrawBoxesArgs K) (drawables : Option (List (Drawable K H))) : Option (Canvas K) :=
  -- lines 99-120
  let color := match a.randomColor with
    | some _ => some (ColorLike.str "random".toList)
    | none => a.color
  let color := match a.colorByLabel with
    | some _ => some (ColorLike.str "by_label".toList)
    | none => color
  let color := match a.lineColor with
    | some c => some c
    | none => color
  let thickness := match a.lineWidth with
    | some w => some w
    | none => a.thickness
  -- lines 123-126
  let color := color.getD (.str "by_id".toList)
  let thickness := thickness.getD (truncInt (((shape.foldl max 0 : Nat) : K) / 500))
  match drawables with
  | none => some .base
  | some ds =>
    let textColor : Option (Option Color) := match a.textColor with
      | some c => (parseColor c).map some
      | none => some none
    match textColor with
    | none => none
    | some textColor => drawBoxesLoop env a color thickness textColor 0 ds .base

/-! ### Deprecated functions -/

/-- `draw_tracked_objects` (`draw_points.py` lines 189-229): what is drawn on the frame; the function itself
returns nothing. `label_size or id_size` is the first of the two that is not `None` or zero, else the
second. -/
def drawTrackedObjects [Field K] [LinearOrder K] [FloorRing K] (env : DrawEnv K H) (shape : List Nat)
    (objects : Option (List (Drawable K H))) (radius : Option ℤ := none) (color : Option ColorLike := none)
    (idSize : Option K := none) (drawPts : Bool := true) (colorByLabel : Bool := false)
    (drawLabels : Bool := false) (idThickness : Option ℤ := none) (labelSize : Option K := none) :
    Option (Option (Canvas K)) :=
  let frameScale : K := ((shape.headD 0 : Nat) : K) / 100
  let radius := radius.getD (truncInt (frameScale * (1 / 2)))
  let idSize := idSize.getD (frameScale / 10)
  let idThickness := idThickness.getD (truncInt (frameScale / 5))
  let labelSize := labelSize.getD ((truncInt (max (frameScale / 100) 1) : ℤ) : K)
  drawPoints env shape
    { radius := some radius
      thickness := none
      color := if colorByLabel then some (.str "by_label".toList) else color
      drawLabels := drawLabels
      drawIds := decide (0 < idSize)
      drawPoints := drawPts
      textColor := none
      hideDeadPoints := true
      textSize := some (if labelSize = 0 then idSize else labelSize)
      textThickness := some idThickness } objects

/-- Python's `a or b` for two arguments that are numbers or `None` -/
def pyOr {α : Type} [Zero α] [DecidableEq α] : Option α → Option α → Option α
  | some x, b => if x = 0 then b else some x
  | none, b => b

/-- `draw_tracked_boxes` (`draw_boxes.py` lines 184-209) -/
def drawTrackedBoxes [Field K] [LinearOrder K] [FloorRing K] (env : DrawEnv K H) (shape : List Nat)
    (objects : Option (List (Drawable K H))) (borderColors : Option ColorLike := none)
    (borderWidth : Option ℤ := none) (idSize : Option K := none) (drawBox : Bool := true)
    (colorByLabel : Bool := false) (drawLabels : Bool := false) (idThickness : Option ℤ := none)
    (labelSize : Option K := none) (labelWidth : Option ℤ := none) : Option (Canvas K) :=
  drawBoxes env shape
    { color := if colorByLabel then some (.str "by_label".toList) else borderColors
      thickness := borderWidth
      drawLabels := drawLabels
      drawIds := match idSize with
        | some s => decide (0 < s)
        | none => false
      drawBox := drawBox
      textSize := pyOr labelSize idSize
      textThickness := pyOr idThickness labelWidth } objects

/-! ### Paths -/

/-- `Paths` (`path.py` lines 12-122): the fields that change. `mask` is `none` until the first frame. -/
structure Paths (K : Type) where
  radius : Option ℤ
  thickness : Option ℤ
  mask : Option (Canvas K)

/-- the fields of an object read by the drawers of paths -/
structure PathObj (K H : Type) where
  id : Option H
  estimate : List (List K)
  absolute : List (List K)
  live : List Bool

/-- the circles of one object on a picture -/
def circlesAt [Ring K] [LinearOrder K] [FloorRing K] (radius thickness : ℤ) (color : Color)
    (ps : List (List K)) (c : Canvas K) : Canvas K :=
  ps.foldl (fun c p => c.circle (p.map truncInt) radius thickness color) c

/-- the loop of `Paths.draw` (`path.py` lines 100-120); `get` is `get_points_to_draw`, which does not
raise; `none` if the choice of a color raises -/
def Paths.loop [Ring K] [LinearOrder K] [FloorRing K] (hash : H → ℤ) (pal : Palette)
    (get : List (List K) → List (List K)) (color : Option Color) (radius thickness : ℤ) :
    List (PathObj K H) → Canvas K → Option (Canvas K)
  | [], m => some m
  | o :: os, m =>
    match (match color with | some c => some c | none => pal.choose (o.id.map hash)) with
    | none => none
    | some c => Paths.loop hash pal get color radius thickness os
        (circlesAt radius thickness c (get o.estimate) m)

/-- `Paths.draw` (`path.py` lines 67-122): the new state and the returned picture, or `none` if it raises.
`height` is `frame.shape[0]`; `att` is the attenuation factor. The mask of the first frame is attenuated
too, which does not change a black picture, but is part of the code (line 98). -/
def Paths.draw [Field K] [LinearOrder K] [FloorRing K] (hash : H → ℤ) (pal : Palette)
    (get : List (List K) → List (List K)) (color : Option Color) (att : K) (height : Nat)
    (s : Paths K) (objs : List (PathObj K H)) : Option (Paths K × Canvas K) :=
  let scale : K := (height : K) / 100
  let s : Paths K := match s.mask with
    | some _ => s
    | none =>
      { radius := some (s.radius.getD (truncInt (max (scale * (7 / 10)) 1)))
        thickness := some (s.thickness.getD (truncInt (max (scale / 7) 1)))
        mask := some .black }
  let mask := (s.mask.getD .black).scaled att
  match Paths.loop hash pal get color (s.radius.getD 0) (s.thickness.getD 0) objs mask with
  | none => none
  | some m => some ({ s with mask := some m }, m.blend .base 1 1)

/-- `np.linspace(0.99, 0.01, n)` (`path.py` line 185) -/
def pathAlphas [Field K] (n : Nat) : List K :=
  (List.range n).map fun i : Nat => 99 / 100 - (i : K) * ((98 / 100) / ((n - 1 : Nat) : K))

/-- `AbsolutePaths` (`path.py` lines 164-185): the fields that change; `past` is the `defaultdict`
`past_points` -/
structure AbsPaths (K H : Type) where
  radius : Option ℤ
  thickness : Option ℤ
  past : Option H → List (List (List K))

/-- lines 218-225: the lines of one step of the path; `none` if `last[j]` does not exist -/
def pathLines [Ring K] [LinearOrder K] [FloorRing K] (thickness : ℤ) (color : Color) :
    List (List K) → List (List K) → Canvas K → Option (Canvas K)
  | _, [], c => some c
  | [], _ :: _, _ => none
  | l :: last, p :: ps, c =>
    pathLines thickness color last ps (c.line (l.map truncInt) (p.map truncInt) thickness color)

/-- lines 215-229: the steps of the path of one object, from `i` on; `none` if `alphas[i]` or `last[j]`
does not exist -/
def pathSteps [Field K] [LinearOrder K] [FloorRing K] (alphas : List K)
    (absToRel : List (List K) → List (List K)) (thickness : ℤ) (color : Color) :
    Nat → List (List K) → List (List (List K)) → Canvas K → Option (Canvas K)
  | _, _, [], c => some c
  | i, last, p :: ps, c =>
    match pathLines thickness color (absToRel last) (absToRel p) c with
    | none => none
    | some overlay =>
      match alphas[i]? with
      | none => none
      | some alpha => pathSteps alphas absToRel thickness color (i + 1) p ps
          (overlay.blend c alpha (1 - alpha))

/-- The loop of `AbsolutePaths.draw` over the objects (`path.py` lines 194-231); `none` if it raises.
`absToRel` is `coord_transform.abs_to_rel` on rows, `none` if there is no transformation. -/
def AbsPaths.loop [Field K] [LinearOrder K] [FloorRing K] [DecidableEq H] (hash : H → ℤ) (pal : Palette)
    (get : List (List K) → List (List K)) (color : Option Color) (maxHistory : Nat)
    (absToRel : Option (List (List K) → List (List K))) (radius thickness : ℤ) :
    List (PathObj K H) → (Option H → List (List (List K))) → Canvas K →
      Option ((Option H → List (List (List K))) × Canvas K)
  | [], past, c => some (past, c)
  | o :: os, past, c =>
    if !o.live.any (·) then AbsPaths.loop hash pal get color maxHistory absToRel radius thickness os past c
    else
      match (match color with | some c => some c | none => pal.choose (o.id.map hash)) with
      | none => none
      | some col =>
        let pts := get o.absolute
        match absToRel with
        | none => none
        | some f =>
          let c := circlesAt radius thickness col (f pts) c
          match pathSteps (pathAlphas maxHistory) f thickness col 0 pts (past o.id) c with
          | none => none
          | some c =>
            let past := Function.update past o.id ((pts :: past o.id).take maxHistory)
            AbsPaths.loop hash pal get color maxHistory absToRel radius thickness os past c

/-- `AbsolutePaths.draw` (`path.py` lines 187-232): the new state and the returned picture, or `none` if it
raises. What happens to the frame given by the user is in `Model/Memory.lean`. -/
def AbsPaths.draw [Field K] [LinearOrder K] [FloorRing K] [DecidableEq H] (hash : H → ℤ) (pal : Palette)
    (get : List (List K) → List (List K)) (color : Option Color) (maxHistory : Nat) (height : Nat)
    (s : AbsPaths K H) (objs : List (PathObj K H))
    (absToRel : Option (List (List K) → List (List K))) : Option (AbsPaths K H × Canvas K) :=
  let scale : K := (height : K) / 100
  let radius := s.radius.getD (truncInt (max (scale * (7 / 10)) 1))
  let thickness := s.thickness.getD (truncInt (max (scale / 7) 1))
  match AbsPaths.loop hash pal get color maxHistory absToRel radius thickness objs s.past .base with
  | none => none
  | some (past, c) => some (⟨some radius, some thickness, past⟩, c)

/-- `get_points_to_draw` by default (`path.py` lines 56-57, 175-176): the mean of the points -/
def meanPoint [Field K] (ps : List (List K)) : List (List K) :=
  [(meanRows (ps.headD []).length ps).getD []]

/-! ### Grid -/

/-- `Drawer.cross` (`drawer.py` lines 178-224) -/
def Canvas.cross (c : Canvas K) (x y radius thickness : ℤ) (color : Color) : Canvas K :=
  (c.line [x, y - radius] [x, y + radius] thickness color).line [x - radius, y] [x + radius, y] thickness
    color

/-- `draw_absolute_grid` (`absolute_grid.py` lines 49-103) on a frame of height `h` and width `w`; `grid`
is the result of `_get_grid`, see `getGrid` in `Model/Grid.lean`. -/
def drawAbsoluteGrid [Field K] [LinearOrder K] [FloorRing K] (grid : List (K × K))
    (absToRel : Option (List (K × K) → List (K × K))) (h w : Nat) (radius thickness : ℤ) (color : Color) :
    Canvas K :=
  let pts := match absToRel with
    | none => grid
    | some f => f grid
  let visible := pts.filter fun p =>
    decide (p.1 ≤ (w : K) ∧ p.2 ≤ (h : K)) && decide (0 ≤ p.1 ∧ 0 ≤ p.2)
  visible.foldl (fun c p => c.cross (truncInt p.1) (truncInt p.2) radius thickness color) .base

end Norfair
