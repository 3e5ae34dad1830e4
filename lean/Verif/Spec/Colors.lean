import Verif.Model.Drawing

/-!
Which color the drawing functions are asked for, and which color that is for an object.
-/

namespace Norfair.Spec

open Norfair

variable {K H : Type}

/-- the color asked for by the arguments of `draw_boxes`: a deprecated argument that is given, with any value,
takes precedence over `color`; of several ones `line_color` wins over `color_by_label`, and this one over
`random_color` -/
inductive BoxColor (a : DrawBoxesArgs K) : ColorLike → Prop
  | line {c} (h : a.lineColor = some c) : BoxColor a c
  | label {b} (h1 : a.lineColor = none) (h : a.colorByLabel = some b) : BoxColor a (.str "by_label".toList)
  | random {b} (h1 : a.lineColor = none) (h2 : a.colorByLabel = none) (h : a.randomColor = some b) :
      BoxColor a (.str "random".toList)
  | color {c} (h1 : a.lineColor = none) (h2 : a.colorByLabel = none) (h3 : a.randomColor = none)
      (h : a.color = some c) : BoxColor a c
  | default (h1 : a.lineColor = none) (h2 : a.colorByLabel = none) (h3 : a.randomColor = none)
      (h : a.color = none) : BoxColor a (.str "by_id".toList)

/-- the color asked for by the arguments of `draw_points` -/
inductive PointColor (a : DrawPointsArgs K) : ColorLike → Prop
  | label {b} (h : a.colorByLabel = some b) : PointColor a (.str "by_label".toList)
  | color {c} (h2 : a.colorByLabel = none) (h : a.color = some c) : PointColor a c
  | default (h2 : a.colorByLabel = none) (h : a.color = none) : PointColor a (.str "by_id".toList)

/-- the three words that stand for a color per object -/
def PerObject (c : ColorLike) : Prop :=
  c = .str "by_id".toList ∨ c = .str "by_label".toList ∨ c = .str "random".toList

/-- `col` is the color of the object `d`, the `k`-th one that is drawn, if `c` is asked for -/
inductive IsColor (env : DrawEnv K H) (k : Nat) (d : Drawable K H) : ColorLike → Color → Prop
  | byId {col} (h : env.palette.choose (d.id.map env.hash) = some col) :
      IsColor env k d (.str "by_id".toList) col
  | byLabel {col} (h : env.palette.choose (d.label.map env.hash) = some col) :
      IsColor env k d (.str "by_label".toList) col
  | random {col} (h : env.palette.choose (some (env.rnd k)) = some col) :
      IsColor env k d (.str "random".toList) col
  | fixed {c col} (hc : ¬ PerObject c) (h : parseColor c = some col) : IsColor env k d c col

/-- `col` is the color of a text: the one given for texts, else the one of its object -/
def IsTextColor (given : Option ColorLike) (obj col : Color) : Prop :=
  (∀ c, given = some c → parseColor c = some col) ∧ (given = none → col = obj)

end Norfair.Spec
