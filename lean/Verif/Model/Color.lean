import Mathlib.Data.Nat.Notation
import Mathlib.Data.Int.Notation

/-!
Model of `norfair/drawing/color.py`. A Python string is a list of characters.
-/

namespace Norfair

/-- `ColorType`: a BGR tuple of integers -/
abbrev Color := List ℤ

/-- the characters of the class `[a-f0-9]` -/
def isHexChar (c : Char) : Bool := ('a' ≤ c && c ≤ 'f') || ('0' ≤ c && c ≤ '9')

/-- `re.match("#[a-f0-9]{n}$", s)`: a `#`, then `n` characters of the class, then the end of the string;
`$` also matches before a newline that ends the string -/
def matchHex (n : Nat) : List Char → Bool
  | '#' :: s => (s.take n).length == n && (s.take n).all isHexChar &&
      (s.drop n == [] || s.drop n == ['\n'])
  | _ => false

/-- the value of a digit in `int(..., 16)` -/
def hexDigit (c : Char) : Nat := if 'a' ≤ c then c.toNat - 'a'.toNat + 10 else c.toNat - '0'.toNat

/-- `int(s, 16)` for strings of lower case digits -/
def parseHex (s : List Char) : Nat := s.foldl (fun n c => 16 * n + hexDigit c) 0

/-- `s[a:b]` for `0 ≤ a ≤ b` -/
def substr (s : List Char) (a b : Nat) : List Char := (s.take b).drop a

/-- `hex_to_bgr` (`color.py` lines 10-41); `none` is the `ValueError` -/
def hexToBgr (s : List Char) : Option Color :=
  if matchHex 6 s then
    some [(parseHex (substr s 5 7) : ℤ), (parseHex (substr s 3 5) : ℤ), (parseHex (substr s 1 3) : ℤ)]
  else if matchHex 3 s then
    some [(parseHex (substr s 3 4 ++ substr s 3 4) : ℤ), (parseHex (substr s 2 3 ++ substr s 2 3) : ℤ),
      (parseHex (substr s 1 2 ++ substr s 1 2) : ℤ)]
  else none

/-- the attributes of the class `Color` (`color.py` lines 53-233) defined by `hex_to_bgr`; `green` is the
only one written as a tuple (line 108) -/
def colorNames : List (String × String) := [
  ("aliceblue", "#f0f8ff"), ("antiquewhite", "#faebd7"), ("aqua", "#00ffff"), ("aquamarine", "#7fffd4"),
  ("azure", "#f0ffff"), ("beige", "#f5f5dc"), ("bisque", "#ffe4c4"), ("black", "#000000"),
  ("blanchedalmond", "#ffebcd"), ("blue", "#0000ff"), ("blueviolet", "#8a2be2"), ("brown", "#a52a2a"),
  ("burlywood", "#deb887"), ("cadetblue", "#5f9ea0"), ("chartreuse", "#7fff00"), ("chocolate", "#d2691e"),
  ("coral", "#ff7f50"), ("cornflowerblue", "#6495ed"), ("cornsilk", "#fff8dc"), ("crimson", "#dc143c"),
  ("cyan", "#00ffff"), ("darkblue", "#00008b"), ("darkcyan", "#008b8b"), ("darkgoldenrod", "#b8860b"),
  ("darkgray", "#a9a9a9"), ("darkgrey", "#a9a9a9"), ("darkgreen", "#006400"), ("darkkhaki", "#bdb76b"),
  ("darkmagenta", "#8b008b"), ("darkolivegreen", "#556b2f"), ("darkorange", "#ff8c00"), ("darkorchid", "#9932cc"),
  ("darkred", "#8b0000"), ("darksalmon", "#e9967a"), ("darkseagreen", "#8fbc8f"), ("darkslateblue", "#483d8b"),
  ("darkslategray", "#2f4f4f"), ("darkslategrey", "#2f4f4f"), ("darkturquoise", "#00ced1"), ("darkviolet", "#9400d3"),
  ("deeppink", "#ff1493"), ("deepskyblue", "#00bfff"), ("dimgray", "#696969"), ("dimgrey", "#696969"),
  ("dodgerblue", "#1e90ff"), ("firebrick", "#b22222"), ("floralwhite", "#fffaf0"), ("forestgreen", "#228b22"),
  ("fuchsia", "#ff00ff"), ("gainsboro", "#dcdcdc"), ("ghostwhite", "#f8f8ff"), ("gold", "#ffd700"),
  ("goldenrod", "#daa520"), ("gray", "#808080"), ("grey", "#808080"), ("greenyellow", "#adff2f"),
  ("honeydew", "#f0fff0"), ("hotpink", "#ff69b4"), ("indianred", "#cd5c5c"), ("indigo", "#4b0082"),
  ("ivory", "#fffff0"), ("khaki", "#f0e68c"), ("lavender", "#e6e6fa"), ("lavenderblush", "#fff0f5"),
  ("lawngreen", "#7cfc00"), ("lemonchiffon", "#fffacd"), ("lightblue", "#add8e6"), ("lightcoral", "#f08080"),
  ("lightcyan", "#e0ffff"), ("lightgoldenrodyellow", "#fafad2"), ("lightgreen", "#90ee90"), ("lightgray", "#d3d3d3"),
  ("lightgrey", "#d3d3d3"), ("lightpink", "#ffb6c1"), ("lightsalmon", "#ffa07a"), ("lightseagreen", "#20b2aa"),
  ("lightskyblue", "#87cefa"), ("lightslategray", "#778899"), ("lightslategrey", "#778899"), ("lightsteelblue", "#b0c4de"),
  ("lightyellow", "#ffffe0"), ("lime", "#00ff00"), ("limegreen", "#32cd32"), ("linen", "#faf0e6"),
  ("magenta", "#ff00ff"), ("maroon", "#800000"), ("mediumaquamarine", "#66cdaa"), ("mediumblue", "#0000cd"),
  ("mediumorchid", "#ba55d3"), ("mediumpurple", "#9370db"), ("mediumseagreen", "#3cb371"), ("mediumslateblue", "#7b68ee"),
  ("mediumspringgreen", "#00fa9a"), ("mediumturquoise", "#48d1cc"), ("mediumvioletred", "#c71585"), ("midnightblue", "#191970"),
  ("mintcream", "#f5fffa"), ("mistyrose", "#ffe4e1"), ("moccasin", "#ffe4b5"), ("navajowhite", "#ffdead"),
  ("navy", "#000080"), ("oldlace", "#fdf5e6"), ("olive", "#808000"), ("olivedrab", "#6b8e23"),
  ("orange", "#ffa500"), ("orangered", "#ff4500"), ("orchid", "#da70d6"), ("palegoldenrod", "#eee8aa"),
  ("palegreen", "#98fb98"), ("paleturquoise", "#afeeee"), ("palevioletred", "#db7093"), ("papayawhip", "#ffefd5"),
  ("peachpuff", "#ffdab9"), ("peru", "#cd853f"), ("pink", "#ffc0cb"), ("plum", "#dda0dd"),
  ("powderblue", "#b0e0e6"), ("purple", "#800080"), ("rebeccapurple", "#663399"), ("red", "#ff0000"),
  ("rosybrown", "#bc8f8f"), ("royalblue", "#4169e1"), ("saddlebrown", "#8b4513"), ("salmon", "#fa8072"),
  ("sandybrown", "#f4a460"), ("seagreen", "#2e8b57"), ("seashell", "#fff5ee"), ("sienna", "#a0522d"),
  ("silver", "#c0c0c0"), ("skyblue", "#87ceeb"), ("slateblue", "#6a5acd"), ("slategray", "#708090"),
  ("slategrey", "#708090"), ("snow", "#fffafa"), ("springgreen", "#00ff7f"), ("steelblue", "#4682b4"),
  ("tan", "#d2b48c"), ("teal", "#008080"), ("thistle", "#d8bfd8"), ("tomato", "#ff6347"),
  ("turquoise", "#40e0d0"), ("violet", "#ee82ee"), ("wheat", "#f5deb3"), ("white", "#ffffff"),
  ("whitesmoke", "#f5f5f5"), ("yellow", "#ffff00"), ("yellowgreen", "#9acd32"), ("tab1", "#1f77b4"),
  ("tab2", "#aec7e8"), ("tab3", "#ff7f0e"), ("tab4", "#ffbb78"), ("tab5", "#2ca02c"),
  ("tab6", "#98df8a"), ("tab7", "#d62728"), ("tab8", "#ff9896"), ("tab9", "#9467bd"),
  ("tab10", "#c5b0d5"), ("tab11", "#8c564b"), ("tab12", "#c49c94"), ("tab13", "#e377c2"),
  ("tab14", "#f7b6d2"), ("tab15", "#7f7f7f"), ("tab16", "#c7c7c7"), ("tab17", "#bcbd22"),
  ("tab18", "#dbdb8d"), ("tab19", "#17becf"), ("tab20", "#9edae5"), ("cb1", "#0173b2"),
  ("cb2", "#de8f05"), ("cb3", "#029e73"), ("cb4", "#d55e00"), ("cb5", "#cc78bc"),
  ("cb6", "#ca9161"), ("cb7", "#fbafe4"), ("cb8", "#949494"), ("cb9", "#ece133"),
  ("cb10", "#56b4e9")]

/-- `ColorLike`: a string or a tuple of integers -/
inductive ColorLike
  | str (s : List Char)
  | tup (c : List ℤ)
deriving DecidableEq

/-- `getattr(Color, name)`; `none` is the `AttributeError`. Simplification: the attributes every Python
class has (`__doc__` etc.) are no colors and count as missing. -/
def namedColor (name : List Char) : Option Color :=
  if name = "green".toList then some [0, 128, 0]
  else (colorNames.find? fun p => p.1.toList == name).bind fun p => hexToBgr p.2.toList

/-- `parse_color` (`color.py` lines 236-259); `none` if it raises -/
def parseColor : ColorLike → Option Color
  | .str s => if ['#'].isPrefixOf s then hexToBgr s else namedColor s
  | .tup c => some c

/-- the colors of `PALETTES` (`color.py` lines 262-309) -/
def paletteNames : List (String × List String) := [
  ("tab10", ["tab1", "tab3", "tab5", "tab7", "tab9", "tab11", "tab13", "tab15", "tab17", "tab19"]),
  ("tab20", ["tab1", "tab2", "tab3", "tab4", "tab5", "tab6", "tab7", "tab8", "tab9", "tab10", "tab11", "tab12", "tab13", "tab14", "tab15", "tab16", "tab17", "tab18", "tab19", "tab20"]),
  ("colorblind", ["cb1", "cb2", "cb3", "cb4", "cb5", "cb6", "cb7", "cb8", "cb9", "cb10"])]

/-- `PALETTES[name]`; `none` is the `KeyError` -/
def namedPalette (name : List Char) : Option (List Color) :=
  (paletteNames.find? fun p => p.1.toList == name).map fun p =>
    p.2.map fun c => (namedColor c.toList).getD []

/-- The state of the class `Palette` (`color.py` lines 326-327) -/
structure Palette where
  colors : List Color
  default : Color
deriving DecidableEq

/-- `Palette` when the module is loaded -/
def Palette.initial : Palette where
  colors := (namedPalette "tab10".toList).getD []
  default := (namedColor "black".toList).getD []

/-- `Palette.set` (`color.py` lines 330-353) with a string; the new state and whether it raises -/
def Palette.setName (p : Palette) (name : List Char) : Palette × Bool :=
  match namedPalette name with
  | some c => ({ p with colors := c }, false)
  | none => (p, true)

/-- the loop of lines 349-351 of `Palette.set`; `none` if `parse_color` raises -/
def parseColors : List ColorLike → Option (List Color)
  | [] => some []
  | c :: cs =>
    match parseColor c with
    | none => none
    | some x => (parseColors cs).map fun xs => x :: xs

/-- `Palette.set` (`color.py` lines 330-353) with a list of colors; the new state and whether it raises -/
def Palette.setColors (p : Palette) (cs : List ColorLike) : Palette × Bool :=
  match parseColors cs with
  | some c => ({ p with colors := c }, false)
  | none => (p, true)

/-- `Palette.set_default_color` (`color.py` lines 356-365) -/
def Palette.setDefault (p : Palette) (c : ColorLike) : Palette × Bool :=
  match parseColor c with
  | some c => ({ p with default := c }, false)
  | none => (p, true)

/-- `Palette.choose_color` (`color.py` lines 368-371). The argument is `hash(hashable)`, `none` if the
value is `None`; the result is `none` if the call raises (`% 0`). -/
def Palette.choose (p : Palette) : Option ℤ → Option Color
  | none => some p.default
  | some h => if p.colors.length = 0 then none else p.colors[h.natAbs % p.colors.length]?

/-- `hash(n)` of a Python `int` (of a 64 bit CPython): the remainder modulo `2^61 - 1` with the sign of
`n`, and `-2` instead of `-1` -/
def pyHashInt (n : ℤ) : ℤ :=
  let h := n.sign * ((n.natAbs % (2 ^ 61 - 1) : Nat) : ℤ)
  if h = -1 then -2 else h

end Norfair
