import Verif.Model.Color
import Mathlib.Tactic.IntervalCases
import Mathlib.Data.List.Basic
import Mathlib.Data.List.GetD
import Mathlib.Tactic.Ring
import Mathlib.Data.Nat.ModEq
import Mathlib.Data.List.Nodup
import Mathlib.Tactic.Linarith

/-!
Colors and palettes (C51, C52).
-/

namespace Norfair.Props

open Norfair

/-! ### C51: hex colors -/

/-- the lower case hexadecimal digits -/
def digits : List Char :=
  ['0', '1', '2', '3', '4', '5', '6', '7', '8', '9', 'a', 'b', 'c', 'd', 'e', 'f']

/-- the character of the digit `d` -/
def digit (d : Fin 16) : Char := digits.get d

/-- `#rrggbb` -/
def longHex (r1 r2 g1 g2 b1 b2 : Fin 16) : List Char :=
  ['#', digit r1, digit r2, digit g1, digit g2, digit b1, digit b2]

/-- `#rgb` -/
def shortHex (r g b : Fin 16) : List Char := ['#', digit r, digit g, digit b]

theorem isHexChar_digit (d : Fin 16) : isHexChar (digit d) = true := by revert d; decide

theorem hexDigit_digit (d : Fin 16) : hexDigit (digit d) = d.val := by revert d; decide

theorem isHexChar_iff (c : Char) : isHexChar c = true ↔ ∃ d, c = digit d := by
  constructor
  · intro h
    have hc : c = Char.ofNat c.toNat := (Char.ofNat_toNat c).symm
    have key : (97 ≤ c.toNat ∧ c.toNat ≤ 102) ∨ (48 ≤ c.toNat ∧ c.toNat ≤ 57) := by
      simp only [isHexChar, Bool.or_eq_true, Bool.and_eq_true, decide_eq_true_eq] at h
      rcases h with ⟨h1, h2⟩ | ⟨h1, h2⟩
      · exact Or.inl ⟨h1, h2⟩
      · exact Or.inr ⟨h1, h2⟩
    rw [hc]
    generalize c.toNat = n at key
    rcases key with ⟨h1, h2⟩ | ⟨h1, h2⟩ <;> interval_cases n
    exacts [⟨10, by decide⟩, ⟨11, by decide⟩, ⟨12, by decide⟩, ⟨13, by decide⟩, ⟨14, by decide⟩,
      ⟨15, by decide⟩, ⟨0, by decide⟩, ⟨1, by decide⟩, ⟨2, by decide⟩, ⟨3, by decide⟩, ⟨4, by decide⟩,
      ⟨5, by decide⟩, ⟨6, by decide⟩, ⟨7, by decide⟩, ⟨8, by decide⟩, ⟨9, by decide⟩]
  · rintro ⟨d, rfl⟩; exact isHexChar_digit d

/-- an end of string as `$` sees it -/
def AtEnd (e : List Char) : Prop := e = [] ∨ e = ['\n']

theorem matchHex_six (s : List Char) : matchHex 6 s = true ↔
    ∃ r1 r2 g1 g2 b1 b2 e, AtEnd e ∧ s = longHex r1 r2 g1 g2 b1 b2 ++ e := by
  constructor
  · intro h
    unfold matchHex at h
    split at h
    · rename_i s
      simp only [Bool.and_eq_true, beq_iff_eq, Bool.or_eq_true] at h
      obtain ⟨⟨hl, ha⟩, he⟩ := h
      match s, hl, ha, he with
      | c1 :: c2 :: c3 :: c4 :: c5 :: c6 :: e, _, ha, he =>
        simp only [List.take_succ_cons, List.take_zero, List.all_cons, List.all_nil, Bool.and_true,
          Bool.and_eq_true, isHexChar_iff] at ha
        obtain ⟨⟨d1, rfl⟩, ⟨d2, rfl⟩, ⟨d3, rfl⟩, ⟨d4, rfl⟩, ⟨d5, rfl⟩, ⟨d6, rfl⟩⟩ := ha
        exact ⟨d1, d2, d3, d4, d5, d6, e, by simpa [AtEnd] using he, rfl⟩
      | [], hl, _, _ => simp at hl
      | [_], hl, _, _ => simp at hl
      | [_, _], hl, _, _ => simp at hl
      | [_, _, _], hl, _, _ => simp at hl
      | [_, _, _, _], hl, _, _ => simp at hl
      | [_, _, _, _, _], hl, _, _ => simp at hl
    · cases h
  · rintro ⟨r1, r2, g1, g2, b1, b2, e, he, rfl⟩
    simp only [longHex, List.cons_append, List.nil_append, matchHex, List.take_succ_cons, List.take_zero,
      List.all_cons, List.all_nil, isHexChar_digit, List.drop_succ_cons, List.drop_zero]
    simpa [AtEnd] using he

theorem matchHex_three (s : List Char) : matchHex 3 s = true ↔
    ∃ r g b e, AtEnd e ∧ s = shortHex r g b ++ e := by
  constructor
  · intro h
    unfold matchHex at h
    split at h
    · rename_i s
      simp only [Bool.and_eq_true, beq_iff_eq, Bool.or_eq_true] at h
      obtain ⟨⟨hl, ha⟩, he⟩ := h
      match s, hl, ha, he with
      | c1 :: c2 :: c3 :: e, _, ha, he =>
        simp only [List.take_succ_cons, List.take_zero, List.all_cons, List.all_nil, Bool.and_true,
          Bool.and_eq_true, isHexChar_iff] at ha
        obtain ⟨⟨d1, rfl⟩, ⟨d2, rfl⟩, ⟨d3, rfl⟩⟩ := ha
        exact ⟨d1, d2, d3, e, by simpa [AtEnd] using he, rfl⟩
      | [], hl, _, _ => simp at hl
      | [_], hl, _, _ => simp at hl
      | [_, _], hl, _, _ => simp at hl
    · cases h
  · rintro ⟨r, g, b, e, he, rfl⟩
    simp only [shortHex, List.cons_append, List.nil_append, matchHex, List.take_succ_cons, List.take_zero,
      List.all_cons, List.all_nil, isHexChar_digit, List.drop_succ_cons, List.drop_zero]
    simpa [AtEnd] using he

theorem hexToBgr_long (r1 r2 g1 g2 b1 b2 : Fin 16) (e : List Char) (he : AtEnd e) :
    hexToBgr (longHex r1 r2 g1 g2 b1 b2 ++ e) =
      some [(16 * b1 + b2 : ℤ), (16 * g1 + g2 : ℤ), (16 * r1 + r2 : ℤ)] := by
  unfold hexToBgr
  rw [if_pos ((matchHex_six _).mpr ⟨_, _, _, _, _, _, e, he, rfl⟩)]
  simp [longHex, substr, parseHex, hexDigit_digit]

theorem hexToBgr_short (r g b : Fin 16) (e : List Char) (he : AtEnd e) :
    hexToBgr (shortHex r g b ++ e) = some [(17 * b : ℤ), (17 * g : ℤ), (17 * r : ℤ)] := by
  unfold hexToBgr
  rw [if_neg, if_pos ((matchHex_three _).mpr ⟨_, _, _, e, he, rfl⟩)]
  · simp only [shortHex, List.cons_append, List.nil_append, substr, List.take_succ_cons, List.take_zero,
      List.drop_succ_cons, List.drop_zero, parseHex, List.foldl_cons, List.foldl_nil, hexDigit_digit]
    push_cast
    congr 2
    · ring
    · congr 1
      · ring
      · congr 1; ring
  · intro h
    obtain ⟨r1, r2, g1, g2, b1, b2, e', he', h⟩ := (matchHex_six _).mp h
    have := congrArg List.length h
    rcases he with rfl | rfl <;> rcases he' with rfl | rfl <;> simp [longHex, shortHex] at this

/-- C51: `hex_to_bgr` is the inverse of hex formatting: for red, green and blue below 256, written with two
digits each. -/
theorem C51_six_digits (r g b : Fin 256) :
    hexToBgr (longHex ⟨r / 16, by omega⟩ ⟨r % 16, by omega⟩ ⟨g / 16, by omega⟩ ⟨g % 16, by omega⟩
      ⟨b / 16, by omega⟩ ⟨b % 16, by omega⟩) = some [(b : ℤ), (g : ℤ), (r : ℤ)] := by
  have := hexToBgr_long ⟨r / 16, by omega⟩ ⟨r % 16, by omega⟩ ⟨g / 16, by omega⟩ ⟨g % 16, by omega⟩
      ⟨b / 16, by omega⟩ ⟨b % 16, by omega⟩ [] (Or.inl rfl)
  rw [List.append_nil] at this
  rw [this]
  have h : ∀ n : Nat, (16 * ((n / 16 : Nat) : ℤ) + ((n % 16 : Nat) : ℤ)) = n := by intro n; omega
  simp only [h]

/-- C51: three digits, each counts twice -/
theorem C51_three_digits (r g b : Fin 16) :
    hexToBgr (shortHex r g b) = hexToBgr (longHex r r g g b b) := by
  have h1 := hexToBgr_short r g b [] (Or.inl rfl)
  have h2 := hexToBgr_long r r g g b b [] (Or.inl rfl)
  rw [List.append_nil] at h1 h2
  rw [h1, h2]
  congr 2
  · ring
  · congr 1
    · ring
    · congr 1; ring

/-- C51: every other string raises, except for those with a newline added at the end (missing: they should
raise too, see `C51_newline`); the values are between 0 and 255. -/
theorem C51_accepts_partial (s : List Char) :
    (∀ c, hexToBgr s = some c → ∃ x y z, c = [x, y, z] ∧ (0 ≤ x ∧ x ≤ 255) ∧ (0 ≤ y ∧ y ≤ 255) ∧
      (0 ≤ z ∧ z ≤ 255)) ∧
    ((hexToBgr s).isSome ↔ ∃ e, AtEnd e ∧
      ((∃ r g b, s = shortHex r g b ++ e) ∨ ∃ r1 r2 g1 g2 b1 b2, s = longHex r1 r2 g1 g2 b1 b2 ++ e)) := by
  constructor
  · intro c hc
    by_cases h6 : matchHex 6 s = true
    · obtain ⟨r1, r2, g1, g2, b1, b2, e, he, rfl⟩ := (matchHex_six s).mp h6
      rw [hexToBgr_long _ _ _ _ _ _ _ he] at hc
      cases hc
      exact ⟨_, _, _, rfl, by omega, by omega, by omega⟩
    · by_cases h3 : matchHex 3 s = true
      · obtain ⟨r, g, b, e, he, rfl⟩ := (matchHex_three s).mp h3
        rw [hexToBgr_short _ _ _ _ he] at hc
        cases hc
        exact ⟨_, _, _, rfl, by omega, by omega, by omega⟩
      · unfold hexToBgr at hc
        rw [if_neg h6, if_neg h3] at hc
        cases hc
  · constructor
    · intro h
      by_cases h6 : matchHex 6 s = true
      · obtain ⟨r1, r2, g1, g2, b1, b2, e, he, rfl⟩ := (matchHex_six s).mp h6
        exact ⟨e, he, Or.inr ⟨_, _, _, _, _, _, rfl⟩⟩
      · by_cases h3 : matchHex 3 s = true
        · obtain ⟨r, g, b, e, he, rfl⟩ := (matchHex_three s).mp h3
          exact ⟨e, he, Or.inl ⟨_, _, _, rfl⟩⟩
        · unfold hexToBgr at h
          rw [if_neg h6, if_neg h3] at h
          cases h
    · rintro ⟨e, he, ⟨r, g, b, rfl⟩ | ⟨r1, r2, g1, g2, b1, b2, rfl⟩⟩
      · rw [hexToBgr_short _ _ _ _ he]; rfl
      · rw [hexToBgr_long _ _ _ _ _ _ _ he]; rfl

/-- C51 is false: a string that ends in a newline is accepted -/
theorem C51_newline : hexToBgr "#00ff00\n".toList = some [0, 255, 0] := by decide +kernel

/-- C51: capital letters are not accepted, although the documentation of `draw_points` gives `"#FF0000"`
as an example -/
theorem C51_capitals : hexToBgr "#FF0000".toList = none := by decide +kernel

/-- C51: every predefined color has three values between 0 and 255 -/
theorem C51_predefined : ∀ p ∈ colorNames, ∃ x y z, hexToBgr p.2.toList = some [x, y, z] ∧
    (0 ≤ x ∧ x ≤ 255) ∧ (0 ≤ y ∧ y ≤ 255) ∧ (0 ≤ z ∧ z ≤ 255) := by
  intro p hp
  have h : ∀ p ∈ colorNames, (hexToBgr p.2.toList).isSome := by decide +kernel
  obtain ⟨c, hc⟩ := Option.isSome_iff_exists.mp (h p hp)
  obtain ⟨x, y, z, rfl, hb⟩ := (C51_accepts_partial p.2.toList).1 c hc
  exact ⟨x, y, z, hc, hb⟩

/-- C51: `#ff8000` -/
example : hexToBgr "#ff8000".toList = some [0, 128, 255] := by decide +kernel

/-! ### C52: palettes -/

/-- C52: `None` gets the default color -/
theorem C52_default (p : Palette) : p.choose none = some p.default := rfl

/-- C52: everything else gets a color of the palette (missing: the empty palette, see `C52_empty`) -/
theorem C52_member_partial (p : Palette) (hp : p.colors ≠ []) (h : ℤ) :
    ∃ c ∈ p.colors, p.choose (some h) = some c := by
  have hl : 0 < p.colors.length := List.length_pos_iff.mpr hp
  have hi : h.natAbs % p.colors.length < p.colors.length := Nat.mod_lt _ hl
  refine ⟨p.colors[h.natAbs % p.colors.length], List.getElem_mem hi, ?_⟩
  simp only [Palette.choose]
  rw [if_neg (by omega), List.getElem?_eq_getElem hi]

/-- C52 is false of the empty palette: `Palette.set([])` is accepted, then every object with an id makes
`choose_color` raise -/
theorem C52_empty (p : Palette) (h : ℤ) :
    (p.setColors []).2 = false ∧ (p.setColors []).1.choose (some h) = none := ⟨rfl, rfl⟩

theorem pyHashInt_small (n : Nat) (hn : n < 2 ^ 61 - 1) : pyHashInt n = n := by
  have hs : ((n : ℤ)).sign * (n : ℤ) = n := by
    rcases Nat.eq_zero_or_pos n with rfl | h
    · rfl
    · rw [Int.sign_eq_one_of_pos (by exact_mod_cast h), one_mul]
  unfold pyHashInt
  simp only [Int.natAbs_natCast]
  rw [Nat.mod_eq_of_lt hn, hs, if_neg (by omega)]

/-- C52: ids that differ by less than the size of the palette have different slots of the palette, so in a
palette of different colors they have different colors -/
theorem C52_different (p : Palette) (hp : p.colors.Nodup) (i j : Nat) (hij : i < j)
    (hd : j - i < p.colors.length) (hj : j < 2 ^ 61 - 1) :
    p.choose (some (pyHashInt i)) ≠ p.choose (some (pyHashInt j)) := by
  rw [pyHashInt_small i (by omega), pyHashInt_small j hj]
  have hl : 0 < p.colors.length := by omega
  have hi' : i % p.colors.length < p.colors.length := Nat.mod_lt _ hl
  have hj' : j % p.colors.length < p.colors.length := Nat.mod_lt _ hl
  simp only [Palette.choose, Int.natAbs_natCast]
  rw [if_neg (by omega), if_neg (by omega), List.getElem?_eq_getElem hi', List.getElem?_eq_getElem hj']
  intro h
  have h := (List.Nodup.getElem_inj_iff hp).mp (Option.some.inj h)
  have hdvd : p.colors.length ∣ j - i := (Nat.modEq_iff_dvd' hij.le).mp h
  have := Nat.le_of_dvd (by omega) hdvd
  omega

/-- C52: a color is chosen by the id only, and the slot repeats with the size of the palette -/
theorem C52_periodic (p : Palette) (i : Nat) (hj : i + p.colors.length < 2 ^ 61 - 1) :
    p.choose (some (pyHashInt i)) = p.choose (some (pyHashInt (i + p.colors.length))) := by
  have := pyHashInt_small (i + p.colors.length) hj
  push_cast at this
  rw [pyHashInt_small i (by omega), this]
  simp only [Palette.choose]
  rw [show ((i : ℤ) + (p.colors.length : ℤ)).natAbs = i + p.colors.length by omega]
  simp

/-- C52: the colors of each predefined palette are different -/
theorem C52_predefined : ∀ n ∈ paletteNames, ∃ c, namedPalette n.1.toList = some c ∧ c.Nodup ∧ c ≠ [] ∧
    ∀ x ∈ c, x.length = 3 := by
  have h : ∀ n ∈ paletteNames, (match namedPalette n.1.toList with
      | some c => decide (c.Nodup ∧ c ≠ [] ∧ ∀ x ∈ c, x.length = 3)
      | none => false) = true := by decide +kernel
  intro n hn
  have := h n hn
  split at this
  · rename_i c hc
    exact ⟨c, hc, of_decide_eq_true this⟩
  · cases this

/-- C52: a name that is not one of `PALETTES` raises and changes nothing; a known name sets its colors and
keeps the default color -/
theorem C52_set_name (p : Palette) (name : List Char) :
    ((p.setName name).2 = true ↔ ∀ n ∈ paletteNames, n.1.toList ≠ name) ∧
    ((p.setName name).2 = true → (p.setName name).1 = p) ∧
    (∀ c, namedPalette name = some c → (p.setName name).1 = ⟨c, p.default⟩) := by
  unfold Palette.setName
  refine ⟨?_, ?_, ?_⟩
  · cases h : namedPalette name with
    | none =>
      simp only [namedPalette, Option.map_eq_none_iff, List.find?_eq_none, beq_iff_eq] at h
      simpa using h
    | some c =>
      simp only [namedPalette, Option.map_eq_some_iff] at h
      obtain ⟨n, hn, -⟩ := h
      have h1 := List.mem_of_find?_eq_some hn
      have h2 := List.find?_some hn
      simp only [Bool.false_eq_true, false_iff, not_forall]
      exact ⟨n, h1, by simpa using h2⟩
  · cases namedPalette name <;> simp
  · intro c hc
    rw [hc]

theorem parseColors_some : ∀ (cs : List ColorLike) (xs : List Color), parseColors cs = some xs ↔
    cs.map parseColor = xs.map some := by
  intro cs
  induction cs with
  | nil => intro xs; cases xs <;> simp [parseColors]
  | cons c cs ih =>
    intro xs
    simp only [parseColors]
    cases hc : parseColor c with
    | none => cases xs <;> simp [hc]
    | some x =>
      cases xs with
      | nil => simp
      | cons y ys =>
        simp only [List.map_cons, hc, List.cons.injEq, Option.some.injEq, Option.map_eq_some_iff, ← ih ys]
        constructor
        · rintro ⟨a, ha, rfl, rfl⟩; exact ⟨rfl, ha⟩
        · rintro ⟨rfl, ha⟩; exact ⟨_, ha, rfl, rfl⟩

/-- C52: a list of colors is set as a whole, in order, or, if one of them cannot be parsed, not at all -/
theorem C52_set_colors (p : Palette) (cs : List ColorLike) :
    ((p.setColors cs).2 = true ↔ ∃ c ∈ cs, parseColor c = none) ∧
    ((p.setColors cs).2 = true → (p.setColors cs).1 = p) ∧
    ((p.setColors cs).2 = false → (p.setColors cs).1.default = p.default ∧
      (p.setColors cs).1.colors.map some = cs.map parseColor) := by
  unfold Palette.setColors
  cases h : parseColors cs with
  | none =>
    refine ⟨?_, by simp, by simp⟩
    simp only [true_iff]
    by_contra hn
    push Not at hn
    have : parseColors cs = some (cs.map fun c => (parseColor c).getD []) := by
      rw [parseColors_some, List.map_map]
      refine List.map_congr_left fun c hc => ?_
      cases h' : parseColor c with
      | none => exact absurd h' (hn c hc)
      | some x => simp [h']
    rw [h] at this
    cases this
  | some xs =>
    have hx := (parseColors_some cs xs).mp h
    refine ⟨?_, by simp, by simp [hx]⟩
    simp only [Bool.false_eq_true, false_iff, not_exists, not_and]
    intro c hc hn
    have : none ∈ cs.map parseColor := List.mem_map.mpr ⟨c, hc, hn⟩
    rw [hx] at this
    simp at this

/-- C52: ids 3 and 4 in the initial palette -/
example : Palette.initial.choose (some (pyHashInt 3)) = some [40, 39, 214] ∧
    Palette.initial.choose (some (pyHashInt 4)) = some [189, 103, 148] ∧
    Palette.initial.choose none = some [0, 0, 0] := by decide +kernel

/-- C52_different, C52_periodic: their hypotheses hold for the initial palette -/
example : Palette.initial.colors.Nodup ∧ Palette.initial.colors.length = 10 := by decide +kernel

/-- C52: a custom palette, an unknown palette, an unknown color -/
example : (Palette.initial.setColors [.str "red".toList, .tup [1, 2, 3]]) =
      (⟨[[0, 0, 255], [1, 2, 3]], [0, 0, 0]⟩, false) ∧
    (Palette.initial.setName "tab30".toList) = (Palette.initial, true) ∧
    (Palette.initial.setColors [.str "redd".toList]) = (Palette.initial, true) := by decide +kernel

end Norfair.Props
