import Mathlib.Algebra.Order.Floor.Semifield
import Verif.Props.Pixels

/-!
Size, thickness and place of texts (C90).
-/

set_option linter.unusedSectionVars false

namespace Norfair.Props

open Norfair Norfair.Spec

variable {K H : Type} [Field K] [LinearOrder K] [IsStrictOrderedRing K] [FloorRing K]

theorem around_half : around (1 / 2 : K) = 0 := by
  have hf : ⌊(1 / 2 : K)⌋ = 0 := by rw [Int.floor_eq_iff]; norm_num
  have hr : Int.fract (1 / 2 : K) = 1 / 2 := by rw [Int.fract, hf]; norm_num
  simp only [around, hf, hr]
  norm_num

theorem around_three_halves : around (3 / 2 : K) = 2 := by
  have hf : ⌊(3 / 2 : K)⌋ = 1 := by rw [Int.floor_eq_iff]; norm_num
  have hr : Int.fract (3 / 2 : K) = 1 / 2 := by rw [Int.fract, hf]; norm_num
  simp [around, hf, hr]

theorem around_middle {x : K} (h1 : 1 / 2 < x) (h2 : x < 3 / 2) : around x = 1 := by
  unfold around
  by_cases hx : x < 1
  · have hf : ⌊x⌋ = 0 := by rw [Int.floor_eq_iff]; constructor <;> norm_num <;> linarith
    have hr : Int.fract x = x := by rw [Int.fract, hf]; simp
    simp only [hf, hr]
    rw [if_neg (by linarith), if_pos h1]
    norm_num
  · have hf : ⌊x⌋ = 1 := by rw [Int.floor_eq_iff]; constructor <;> norm_num <;> linarith
    have hr : Int.fract x = x - 1 := by rw [Int.fract, hf]; simp
    simp only [hf, hr]
    rw [if_pos (by linarith)]

/-- C90: `Drawer.text` writes the text twice: first its shadow, in black and moved right and down by one pixel,
then the text itself in its color, both in the same size and thickness. The place of the text is the one that
is asked for, moved right and up by half of the thickness. -/
theorem C90_calls (shape : List Nat) (text : List Char) (x y : ℤ) (size : Option K) (color : Color)
    (thickness : Option ℤ) : ∃ u v, drawerText shape text (x, y) size color thickness = [u, v] ∧
    u.text = text ∧ v.text = text ∧ u.color = [0, 0, 0] ∧ v.color = color ∧
    u.size = v.size ∧ u.thickness = v.thickness ∧ u.org = (v.org.1 + 1, v.org.2 + 1) ∧
    v.org = (x + v.thickness / 2, y - v.thickness / 2) ∧
    (∀ s, size = some s → v.size = s) ∧ (∀ t, thickness = some t → v.thickness = t) ∧
    (thickness = none → v.thickness = around v.size + 1) := by
  refine ⟨_, _, rfl, rfl, rfl, rfl, rfl, rfl, rfl, rfl, rfl, ?_, ?_, ?_⟩
  · rintro s rfl; rfl
  · rintro t rfl; rfl
  · rintro rfl; rfl

/-- C90: the default size of texts is from 1/2 to 3/2, the default thickness 1, 2 or 3: 1 for frames of at most 2000
pixels in each direction, 3 from 6000 pixels in some direction on, and 2 in between. -/
theorem C90_default_size (shape : List Nat) (text : List Char) (pos : ℤ × ℤ) (color : Color) (n : Nat)
    (hn : n = shape.foldl max 0) : ∀ u ∈ drawerText (K := K) shape text pos none color none,
    1 / 2 ≤ u.size ∧ u.size ≤ 3 / 2 ∧
    (n ≤ 2000 → u.size = 1 / 2 ∧ u.thickness = 1) ∧
    (2000 < n → n < 6000 → u.size = (n : K) / 4000 ∧ u.thickness = 2) ∧
    (6000 ≤ n → u.size = 3 / 2 ∧ u.thickness = 3) := by
  intro u hu
  have hs : u.size = min (max ((n : K) / 4000) (1 / 2)) (3 / 2) ∧ u.thickness = around u.size + 1 := by
    simp only [drawerText, if_true, List.singleton_append, List.mem_cons, List.not_mem_nil, or_false] at hu
    rcases hu with rfl | rfl <;> exact ⟨by rw [hn]; rfl, rfl⟩
  rw [hs.2, hs.1]
  refine ⟨le_min (le_max_right _ _) (by norm_num), min_le_right _ _, ?_, ?_, ?_⟩
  · intro h
    have h' : (n : K) ≤ 2000 := by exact_mod_cast h
    have e : min (max ((n : K) / 4000) (1 / 2)) (3 / 2) = 1 / 2 := by
      rw [max_eq_right (by linarith), min_eq_left (by norm_num)]
    rw [e, around_half]
    exact ⟨rfl, rfl⟩
  · intro h1 h2
    have h1' : (2000 : K) < n := by exact_mod_cast h1
    have h2' : (n : K) < 6000 := by exact_mod_cast h2
    have e : min (max ((n : K) / 4000) (1 / 2)) (3 / 2) = (n : K) / 4000 := by
      rw [max_eq_left (by linarith), min_eq_left (by linarith)]
    rw [e, around_middle (by linarith) (by linarith)]
    exact ⟨rfl, rfl⟩
  · intro h
    have h' : (6000 : K) ≤ n := by exact_mod_cast h
    have e : min (max ((n : K) / 4000) (1 / 2)) (3 / 2) = 3 / 2 := by
      rw [max_eq_left (by linarith), min_eq_right (by linarith)]
    rw [e, around_three_halves]
    exact ⟨rfl, rfl⟩

/-- the size of a text on a picture of `draw_points` or `draw_boxes` is the given one -/
def TextsSized (size : Option K) (thickness : Option ℤ) (c : Canvas K) : Prop :=
  ∀ x ∈ strokes c, ∀ s p col z t, x = .text s p col z t → z = size ∧ t = thickness

theorem drawCircles_sized (size : Option K) (th : Option ℤ) (hide : Bool) (r t : ℤ) (col : Color)
    (ps : List (List K × Bool)) (c : Canvas K) (h : TextsSized size th c) :
    TextsSized size th (drawCircles hide r t col ps c) := by
  unfold drawCircles
  induction ps generalizing c with
  | nil => exact h
  | cons q ps ih =>
    refine ih _ ?_
    simp only
    split
    · intro x hx
      simp only [strokes, List.mem_append, List.mem_singleton] at hx
      rcases hx with hx | rfl
      · exact h x hx
      · intros; simp_all
    · exact h

/-- C90: `draw_points` writes all texts in the given size and thickness; the deprecated `label_size` wins over
`text_size`. -/
theorem C90_draw_points (env : DrawEnv K H) (shape : List Nat) (a : DrawPointsArgs K) (ds : List (Drawable K H))
    (c : Canvas K) (h : drawPoints env shape a (some ds) = some (some c)) (size : Option K)
    (h1 : ∀ s, a.labelSize = some s → size = some s) (h2 : a.labelSize = none → size = a.textSize) :
    TextsSized size a.textThickness c := by
  have hsz : a.labelSize.or a.textSize = size := by
    cases hl : a.labelSize with
    | none => rw [h2 hl]; rfl
    | some s => rw [h1 s hl]; rfl
  have key : ∀ color r t tc (ds : List (Drawable K H)) k (c0 c : Canvas K),
      drawPointsLoop env a color r t tc k ds c0 = some c → TextsSized size a.textThickness c0 →
      TextsSized size a.textThickness c := by
    intro color r t tc ds
    induction ds with
    | nil => intro k c0 c h h0; cases h; exact h0
    | cons d ds ih =>
      intro k c0 c h h0
      rw [drawPointsLoop] at h
      split at h
      · exact ih _ _ _ h h0
      · split at h
        · cases h
        · rename_i col _
          have e1 : TextsSized size a.textThickness (if a.drawPoints = true then
              drawCircles a.hideDeadPoints r t col (d.points.zip d.live) c0 else c0) := by
            split
            · exact drawCircles_sized _ _ _ r t col _ c0 h0
            · exact h0
          refine ih _ _ _ h ?_
          split
          · intro x hx
            simp only [strokes, List.mem_append, List.mem_singleton] at hx
            rcases hx with hx | rfl
            · exact e1 x hx
            · intro s p col' z t' hxe
              simp only [Stroke.text.injEq] at hxe
              exact ⟨by rw [← hxe.2.2.2.1, hsz], hxe.2.2.2.2.symm⟩
          · exact e1
  obtain ⟨color, r, t, tc, hl, -⟩ := drawPoints_cases env shape a ds c h
  exact key color r t tc ds 0 .base c hl (by intro x hx; cases hx)

/-- C90: `draw_boxes` writes all texts in the given size and thickness; the deprecated `label_size` wins over
`text_size`. -/
theorem C90_draw_boxes (env : DrawEnv K H) (shape : List Nat) (a : DrawBoxesArgs K) (ds : List (Drawable K H))
    (c : Canvas K) (h : drawBoxes env shape a (some ds) = some c) (size : Option K)
    (h1 : ∀ s, a.labelSize = some s → size = some s) (h2 : a.labelSize = none → size = a.textSize) :
    TextsSized size a.textThickness c := by
  have hsz : a.labelSize.or a.textSize = size := by
    cases hl : a.labelSize with
    | none => rw [h2 hl]; rfl
    | some s => rw [h1 s hl]; rfl
  have key : ∀ color t tc (ds : List (Drawable K H)) k (c0 c : Canvas K),
      drawBoxesLoop env a color t tc k ds c0 = some c → TextsSized size a.textThickness c0 →
      TextsSized size a.textThickness c := by
    intro color t tc ds
    induction ds with
    | nil => intro k c0 c h h0; cases h; exact h0
    | cons d ds ih =>
      intro k c0 c h h0
      rw [drawBoxesLoop] at h
      split at h
      · cases h
      · simp only at h
        split at h
        · cases h
        · rename_i c1 hc1
          have e1 : TextsSized size a.textThickness c1 := by
            split at hc1
            · split at hc1
              · cases hc1
                intro x hx
                simp only [strokes, List.mem_append, List.mem_singleton] at hx
                rcases hx with hx | rfl
                · exact h0 x hx
                · intros; simp_all
              · cases hc1
            · cases hc1; exact h0
          split at h
          · cases h
          · rename_i c2 hc2
            refine ih _ _ _ h ?_
            split at hc2
            · cases hc2; exact e1
            · split at hc2
              · cases hc2
                intro x hx
                simp only [strokes, List.mem_append, List.mem_singleton] at hx
                rcases hx with hx | rfl
                · exact e1 x hx
                · intro s p col' z t' hxe
                  simp only [Stroke.text.injEq] at hxe
                  exact ⟨by rw [← hxe.2.2.2.1, hsz], hxe.2.2.2.2.symm⟩
              · cases hc2
  obtain ⟨cl, hcl⟩ := exists_boxColor a
  obtain ⟨t, ht⟩ : ∃ t, LineWidth shape a t := by
    obtain ⟨t, t1, t2, t3, -⟩ := drawBoxes_eq env shape hcl ds
    exact ⟨t, t1, t2, t3⟩
  obtain ⟨tc, hl⟩ := drawBoxes_loop env shape hcl ds ht h
  exact key cl t tc ds 0 .base c hl (by intro x hx; cases hx)

/-- C90: the text of a box starts above the upper line of the box, which is `t` pixels thick, whenever its own
thickness is not negative; its shadow does not start below the upper edge of this line. -/
theorem C90_above_box (ras : Raster K) (env : DrawEnv K H) (shape : List Nat) (a : DrawBoxesArgs K) (t : ℤ)
    (d : Drawable K H) (x0 y0 x1 y1 : K) (hd : d.points = [[x0, y0], [x1, y1]]) (col : Color)
    (hth : ∀ w, a.textThickness = some w → 0 ≤ w)
    (hsz : a.textThickness = none → ∀ s, a.labelSize.or a.textSize = some s → 0 ≤ s) :
    boxTexts ras env shape a t d col = [] ∨ ∃ u v, boxTexts ras env shape a t d col = [u, v] ∧
      u.color = [0, 0, 0] ∧ v.color = col ∧ u.org.2 ≤ truncInt y0 - t / 2 ∧ v.org.2 < truncInt y0 - t / 2 := by
  unfold boxTexts
  simp only [boxOf, hd, List.map_cons, List.map_nil, List.headD_cons, List.getD_cons_zero, List.getD_cons_succ]
  split
  · exact Or.inl rfl
  · right
    obtain ⟨v, w, e, -, -, e1, e2, e3, e4, e5, e6, e7, e8, e9⟩ := C90_calls shape
      (buildText env.str env.fmt d a.drawLabels a.drawIds a.drawScores) (truncInt x0 - t / 2)
      (truncInt y0 - t / 2 - 1) (a.labelSize.or a.textSize) col a.textThickness
    have hw : 0 ≤ w.thickness := by
      cases h : a.textThickness with
      | some z => rw [e8 z h]; exact hth z h
      | none =>
        rw [e9 h]
        have h0 : 0 ≤ w.size := by
          cases h' : a.labelSize.or a.textSize with
          | some s => rw [e7 s h']; exact hsz h s h'
          | none =>
            rw [h, h'] at e
            have := (C90_default_size shape _ (truncInt x0 - t / 2, truncInt y0 - t / 2 - 1) col _ rfl w
              (by rw [e]; simp)).1
            linarith
        have := (around_bounds (x := w.size) (lo := 0) (hi := ⌈w.size⌉) (by simpa using h0) (Int.le_ceil _)).1
        omega
    refine ⟨v, w, e, e1, e2, ?_, ?_⟩
    · rw [e5, e6]; simp only; omega
    · rw [e6]; simp only; omega

theorem label_size_pos (n : Nat) : (0 : K) < ((truncInt (max ((n : K) / 100 / 100) 1) : ℤ) : K) := by
  have h : (1 : K) ≤ max ((n : K) / 100 / 100) 1 := le_max_right _ _
  rw [truncInt, if_pos (zero_le_one.trans h)]
  have : (1 : ℤ) ≤ ⌊max ((n : K) / 100 / 100) 1⌋ := Int.le_floor.mpr (by simpa using h)
  exact_mod_cast lt_of_lt_of_le zero_lt_one this

/-- **C79**: the size of the texts of `draw_tracked_objects` does not depend on `id_size` if `label_size` is not
given: it is the height of the frame over 10000, cut off, but at least 1. -/
theorem C79_id_size (env : DrawEnv K H) (shape : List Nat) (ds : List (Drawable K H)) (radius : Option ℤ)
    (color : Option ColorLike) (idSize : Option K) (drawPts byLabel drawLabels : Bool) (idThickness : Option ℤ)
    (c : Canvas K) (h : drawTrackedObjects env shape (some ds) radius color idSize drawPts byLabel drawLabels
      idThickness none = some (some c)) :
    ∃ t, TextsSized (some ((truncInt (max (((shape.headD 0 : Nat) : K) / 100 / 100) 1) : ℤ) : K)) t c := by
  unfold drawTrackedObjects at h
  simp only [Option.getD_none, if_neg (label_size_pos (K := K) (shape.headD 0)).ne'] at h
  exact ⟨_, C90_draw_points env shape _ ds c h _ (by intro s hs; cases hs) (fun _ => rfl)⟩

/-- a frame of 480 rows: a text in size 1, not 5 -/
example :
    let d : Drawable ℚ Nat := ⟨[[10, 10]], some 1, none, none, [true]⟩
    (drawTrackedObjects (⟨fun i => (i : ℤ), fun i => List.replicate i 'i', fun _ => [], Palette.initial, fun _ => 0⟩ :
      DrawEnv ℚ Nat)
      [480, 640, 3] (some [d]) (idSize := some 5)).map (fun c => c.map fun c => (strokes c).filterMap fun
        | .text _ _ _ z t => some (z, t)
        | _ => none) = some (some [(some 1, some 0)]) := by
  decide +kernel

/-- hypotheses of `C90_above_box` -/
example : ∃ d : Drawable ℚ Nat, d.points = [[10, 20], [30, 40]] ∧
    (∀ w, ({} : DrawBoxesArgs ℚ).textThickness = some w → 0 ≤ w) ∧
    ∀ s, (({} : DrawBoxesArgs ℚ).labelSize.or ({} : DrawBoxesArgs ℚ).textSize) = some s → 0 ≤ s :=
  ⟨⟨[[10, 20], [30, 40]], some 1, none, none, [true, true]⟩, rfl, by simp, by simp⟩

/-- the calls for a text on a picture of 480 times 640 pixels -/
example : (drawerText (K := ℚ) [480, 640, 3] ['1'] (30, 40) none [9] none).map
    (fun u => (u.org, u.size, u.color, u.thickness)) =
      [((31, 41), 1 / 2, [0, 0, 0], 1), ((30, 40), 1 / 2, [9], 1)] ∧
    (drawerText (K := ℚ) [4000, 3000, 3] ['1'] (30, 40) none [9] none).map
      (fun u => (u.org, u.size, u.color, u.thickness)) =
      [((32, 40), 1, [0, 0, 0], 2), ((31, 39), 1, [9], 2)] := by
  decide +kernel

/-- the default thickness of 1 is used up to 2000 pixels, since Python rounds 0.5 to 0 -/
example : (drawerText (K := ℚ) [2000] ['1'] (0, 0) none [9] none).map (·.thickness) = [1, 1] ∧
    (drawerText (K := ℚ) [2001] ['1'] (0, 0) none [9] none).map (·.thickness) = [2, 2] ∧
    (drawerText (K := ℚ) [6000] ['1'] (0, 0) none [9] none).map (·.thickness) = [3, 3] := by
  decide +kernel

/-- Python's `a or b`: the first one if it is given and not zero, else the second one -/
def FirstOf {α : Type} [Zero α] (a b r : Option α) : Prop :=
  (∀ x, a = some x → x ≠ 0 → r = some x) ∧ (a = none → r = b) ∧ (a = some 0 → r = b)

theorem pyOr_of_firstOf {α : Type} [Zero α] [DecidableEq α] {a b r : Option α} (h : FirstOf a b r) : pyOr a b = r := by
  obtain ⟨h1, h2, h3⟩ := h
  cases a with
  | none => exact (h2 rfl).symm
  | some x =>
    by_cases hx : x = 0
    · subst hx; rw [h3 rfl]; simp [pyOr]
    · rw [h1 x rfl hx]; simp [pyOr, hx]

/-- **C79**: the texts of `draw_tracked_boxes` have the size `label_size` if it is given and not 0, else `id_size`, and
the thickness `id_thickness` if it is given and not 0, else `label_width`. -/
theorem C79_boxes_sizes (env : DrawEnv K H) (shape : List Nat) (ds : List (Drawable K H))
    (color : Option ColorLike) (width : Option ℤ) (idSize : Option K) (drawBox byLabel drawLabels : Bool)
    (idThickness : Option ℤ) (labelSize : Option K) (labelWidth : Option ℤ) (c : Canvas K)
    (h : drawTrackedBoxes env shape (some ds) color width idSize drawBox byLabel drawLabels idThickness labelSize
      labelWidth = some c) (size : Option K) (thickness : Option ℤ) (hs : FirstOf labelSize idSize size)
    (ht : FirstOf idThickness labelWidth thickness) : TextsSized size thickness c := by
  unfold drawTrackedBoxes at h
  have := C90_draw_boxes env shape _ ds c h size (by intro s hs; cases hs) (fun _ => (pyOr_of_firstOf hs).symm)
  rw [← pyOr_of_firstOf ht]
  exact this

/-- **C79**: the texts of `draw_tracked_objects` have the size `label_size` if it is given and not 0; for `label_size`
0 the size is `id_size` or one pixel for each 1000 rows. Their thickness is `id_thickness` or one pixel for each 500
rows. -/
theorem C79_points_sizes (env : DrawEnv K H) (n : Nat) (rest : List Nat) (ds : List (Drawable K H)) (radius : Option ℤ)
    (color : Option ColorLike) (idSize : Option K) (drawPts byLabel drawLabels : Bool) (idThickness : Option ℤ)
    (label : K) (c : Canvas K) (h : drawTrackedObjects env (n :: rest) (some ds) radius color idSize drawPts byLabel
      drawLabels idThickness (some label) = some (some c)) (size : K) (h1 : label ≠ 0 → size = label)
    (h2 : label = 0 → ∀ s, idSize = some s → size = s) (h3 : label = 0 → idSize = none → size = (n : K) / 1000) :
    TextsSized (some size) (some (idThickness.getD (n / 500 : Nat))) c := by
  have ht : truncInt (((n : Nat) : K) / 100 / 5) = ((n / 500 : Nat) : ℤ) := by
    have e : ((n : Nat) : K) / 100 / 5 = (n : K) / (500 : Nat) := by push_cast; ring
    rw [e]
    unfold truncInt
    rw [if_pos (by positivity), ← Nat.floor_div_eq_div (K := K), Int.natCast_floor_eq_floor (by positivity)]
  unfold drawTrackedObjects at h
  have := C90_draw_points env (n :: rest) _ ds c h (some size) (by intro s hs; cases hs) (fun _ => by
    simp only [Option.getD_some, List.headD_cons]
    by_cases hl : label = 0
    · rw [if_pos hl]
      cases idSize with
      | none => rw [h3 hl rfl, Option.getD_none]; congr 1; ring
      | some s => rw [h2 hl s rfl]; rfl
    · rw [if_neg hl, h1 hl])
  simp only [List.headD_cons, ht] at this
  exact this

/-- C79_boxes_sizes: `label_size` 0 counts as not given -/
example : FirstOf (some (0 : ℚ)) (some 3) (some 3) ∧ FirstOf (some (2 : ℚ)) (some 3) (some 2) ∧
    FirstOf none (some (3 : ℚ)) (some 3) := by
  simp [FirstOf]

/-- C79_boxes_sizes, C79_points_sizes: the functions return a picture with a text -/
example :
    let d : Drawable ℚ Nat := ⟨[[10, 10], [20, 20]], some 1, none, none, [true, true]⟩
    let env : DrawEnv ℚ Nat := ⟨fun i => (i : ℤ), fun i => List.replicate i 'i', fun _ => [], Palette.initial, fun _ => 0⟩
    (drawTrackedBoxes env [480, 640, 3] (some [d]) (idSize := some 5) (labelSize := some 2)).map (fun c =>
      (strokes c).filterMap fun | .text s _ _ z t => some (s, z, t) | _ => none) = some [(['i'], some 2, none)] ∧
    (drawTrackedObjects env [480, 640, 3] (some [d]) (idSize := some 5) (labelSize := some 0)).join.map (fun c =>
      (strokes c).filterMap fun | .text s _ _ z t => some (s, z, t) | _ => none) =
        some [(['i'], some 5, some 0)] := by
  refine ⟨?_, ?_⟩ <;> decide +kernel

/-- C90: the default radius of `Drawer.circle` is one pixel for each 200 pixels of the longer side of the frame, but
at least one, and its thickness by default one less than the radius; given values are kept. -/
theorem C90_circle (c : Canvas K) (shape : List Nat) (pos : List ℤ) (radius thickness : Option ℤ) (color : Color)
    (r t : ℤ) (hr : radius = some r ∨ radius = none ∧ r = max 1 ((shape.foldl max 0 / 200 : Nat) : ℤ))
    (ht : thickness = some t ∨ thickness = none ∧ t = r - 1) :
    c.drawerCircle shape pos radius thickness color = c.circle pos r t color := by
  have key : truncInt (max (((shape.foldl max 0 : Nat) : K) * (5 / 1000)) 1) =
      max 1 ((shape.foldl max 0 / 200 : Nat) : ℤ) := by
    generalize shape.foldl max 0 = n
    have e : ((n : Nat) : K) * (5 / 1000) = (n : K) / (200 : Nat) := by push_cast; ring
    rw [e]
    unfold truncInt
    rw [if_pos (le_max_of_le_right zero_le_one), max_comm]
    rw [(Int.floor_mono (R := K)).map_max, Int.floor_one, ← Int.natCast_floor_eq_floor (by positivity),
      Nat.floor_div_eq_div]
  unfold Canvas.drawerCircle
  have e1 : radius.getD (truncInt (max (((shape.foldl max 0 : Nat) : K) * (5 / 1000)) 1)) = r := by
    rcases hr with rfl | ⟨rfl, rfl⟩
    · rfl
    · exact key
  dsimp only
  rw [e1]
  rcases ht with rfl | ⟨rfl, rfl⟩ <;> rfl

/-- C90_circle: a frame of 1000 columns -/
example : (Canvas.base : Canvas ℚ).drawerCircle [480, 1000, 3] [3, 4] none none [0, 0, 0] =
    Canvas.base.circle [3, 4] 5 4 [0, 0, 0] :=
  C90_circle _ _ _ _ _ _ _ _ (.inr ⟨rfl, by decide⟩) (.inr ⟨rfl, by decide⟩)

end Norfair.Props
