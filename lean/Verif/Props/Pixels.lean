import Verif.Spec.Strokes
import Verif.Props.Colors
import Verif.Props.AbsPaths

/-!
Pixels (C89): drawing changes no other pixels than those that are covered; paths fade.
-/

set_option linter.unusedSectionVars false

namespace Norfair.Props

open Norfair Norfair.Spec

variable {K H : Type} [Field K] [LinearOrder K] [IsStrictOrderedRing K] [FloorRing K]

theorem around_bounds {x : K} {lo hi : ℤ} (h1 : (lo : K) ≤ x) (h2 : x ≤ hi) :
    lo ≤ around x ∧ around x ≤ hi := by
  have hf : lo ≤ ⌊x⌋ := Int.le_floor.mpr h1
  have hc : ⌊x⌋ ≤ hi := by
    have : (⌊x⌋ : K) ≤ hi := (Int.floor_le x).trans h2
    exact_mod_cast this
  have hc' : Int.fract x ≠ 0 → ⌊x⌋ + 1 ≤ hi := by
    intro hne
    have h3 : (⌊x⌋ : K) < x := by
      rcases lt_or_eq_of_le (Int.floor_le x) with h | h
      · exact h
      · exact absurd (by rw [Int.fract, h, sub_self]) hne
    have : (⌊x⌋ : K) < hi := lt_of_lt_of_le h3 h2
    have : ⌊x⌋ < hi := by exact_mod_cast this
    omega
  have hhalf : ¬ Int.fract x < 1 / 2 → Int.fract x ≠ 0 := by
    intro h h0
    rw [h0] at h
    exact h (by norm_num)
  unfold around
  simp only
  split
  · exact ⟨hf, hc⟩
  · have := hc' (hhalf ‹_›)
    split
    · exact ⟨by omega, this⟩
    · split
      · exact ⟨hf, hc⟩
      · exact ⟨by omega, this⟩

theorem around_natCast (n : Nat) : around (n : K) = n := by
  have := around_bounds (x := (n : K)) (lo := n) (hi := n) (by simp) (by simp)
  omega

theorem toByte_le (x : ℤ) : toByte x ≤ 255 := by unfold toByte; omega

theorem toByte_nat (n : Nat) : toByte n = min n 255 := by unfold toByte; omega

theorem blend_between {x y : K} (hx : 0 ≤ x) (hy : 0 ≤ y) (hxy : x + y = 1) {u v lo hi : Nat}
    (hu : lo ≤ u ∧ u ≤ hi) (hv : lo ≤ v ∧ v ≤ hi) (hhi : hi ≤ 255) :
    lo ≤ toByte (around (x * (u : K) + y * (v : K))) ∧ toByte (around (x * (u : K) + y * (v : K))) ≤ hi := by
  have h1 : ((lo : ℤ) : K) ≤ x * (u : K) + y * (v : K) := by
    have e : ((lo : ℤ) : K) = x * (lo : K) + y * (lo : K) := by rw [← add_mul, hxy, one_mul]; simp
    rw [e]
    exact add_le_add (mul_le_mul_of_nonneg_left (by exact_mod_cast hu.1) hx)
      (mul_le_mul_of_nonneg_left (by exact_mod_cast hv.1) hy)
  have h2 : x * (u : K) + y * (v : K) ≤ ((hi : ℤ) : K) := by
    have e : ((hi : ℤ) : K) = x * (hi : K) + y * (hi : K) := by rw [← add_mul, hxy, one_mul]; simp
    rw [e]
    exact add_le_add (mul_le_mul_of_nonneg_left (by exact_mod_cast hu.2) hx)
      (mul_le_mul_of_nonneg_left (by exact_mod_cast hv.2) hy)
  have := around_bounds h1 h2
  unfold toByte
  omega

theorem write_out (ras : Raster K) (px : ℤ × ℤ) (us : List (PutText K)) (h : ∀ u ∈ us, ras.glyph u px ≠ true)
    (pic : Pic) : us.foldl ras.write pic px = pic px := by
  induction us generalizing pic with
  | nil => rfl
  | cons u us ih =>
    rw [List.foldl_cons, ih (fun u hu => h u (List.mem_cons_of_mem _ hu))]
    funext ch
    unfold Raster.write
    rw [if_neg (h u (List.mem_cons_self ..))]

theorem write_le (ras : Raster K) (px : ℤ × ℤ) (ch : Nat) (us : List (PutText K)) (pic : Pic) (h : pic px ch ≤ 255) :
    us.foldl ras.write pic px ch ≤ 255 := by
  induction us generalizing pic with
  | nil => exact h
  | cons u us ih =>
    rw [List.foldl_cons]
    refine ih _ ?_
    unfold Raster.write
    split
    · exact ras.ink_le _ _ _ _
    · exact h

/-- C89: all values of all pictures are from 0 to 255. -/
theorem C89_range (ras : Raster K) (shape : List Nat) (frame : Pic) (px : ℤ × ℤ) (ch : Nat) (hf : frame px ch ≤ 255)
    (c : Canvas K) : c.render ras shape frame px ch ≤ 255 := by
  induction c with
  | base => exact hf
  | black => exact Nat.zero_le _
  | scaled c f ih => simp only [Canvas.render]; omega
  | circle c p r t col ih =>
    simp only [Canvas.render, paint]; split
    · exact toByte_le _
    · exact ih
  | line c a b t col ih =>
    simp only [Canvas.render, paint]; split
    · exact toByte_le _
    · exact ih
  | rectangle c a b t col ih =>
    simp only [Canvas.render, paint]; split
    · exact toByte_le _
    · exact ih
  | text c s p col size t ih => simp only [Canvas.render]; exact write_le ras px ch _ _ ih
  | blend a b x y iha ihb => simp only [Canvas.render]; exact toByte_le _

/-- C89: a pixel that is covered by nothing that was drawn keeps the value it has on the frame. -/
theorem C89_untouched (ras : Raster K) (shape : List Nat) (frame : Pic) (px : ℤ × ℤ) (ch : Nat)
    (hf : frame px ch ≤ 255) (c : Canvas K) (hc : OnFrame c)
    (h : ∀ s ∈ strokes c, ¬ s.Covers ras shape px) : c.render ras shape frame px ch = frame px ch := by
  induction c with
  | base => rfl
  | black => exact hc.elim
  | scaled c f ih => exact hc.elim
  | circle c p r t col ih =>
    simp only [strokes, List.mem_append, List.mem_singleton] at h
    simp only [Canvas.render, paint]
    rw [if_neg (show ¬ ras.circle p r t px = true from h _ (Or.inr rfl))]
    exact ih hc fun s hs => h s (Or.inl hs)
  | line c a b t col ih =>
    simp only [strokes, List.mem_append, List.mem_singleton] at h
    simp only [Canvas.render, paint]
    rw [if_neg (show ¬ ras.line a b t px = true from h _ (Or.inr rfl))]
    exact ih hc fun s hs => h s (Or.inl hs)
  | rectangle c a b t col ih =>
    simp only [strokes, List.mem_append, List.mem_singleton] at h
    simp only [Canvas.render, paint]
    rw [if_neg (show ¬ ras.rectangle a b t px = true from h _ (Or.inr rfl))]
    exact ih hc fun s hs => h s (Or.inl hs)
  | text c s p col size t ih =>
    simp only [strokes, List.mem_append, List.mem_singleton] at h
    simp only [Canvas.render]
    rw [write_out ras px _ fun u hu hg => h _ (Or.inr rfl) ⟨u, hu, hg⟩]
    exact ih hc fun s hs => h s (Or.inl hs)
  | blend a b x y iha ihb =>
    obtain ⟨ha, hb, hx, hy, hxy⟩ := hc
    simp only [strokes, List.mem_append] at h
    simp only [Canvas.render]
    rw [iha ha fun s hs => h s (Or.inr hs), ihb hb fun s hs => h s (Or.inl hs)]
    have := blend_between hx hy hxy (u := frame px ch) (v := frame px ch) ⟨le_refl _, le_refl _⟩
      ⟨le_refl _, le_refl _⟩ hf
    omega

/-- the color of something drawn -/
def Stroke.color : Stroke K → Color
  | .circle _ _ _ c => c
  | .line _ _ _ c => c
  | .rectangle _ _ _ c => c
  | .text _ _ c _ _ => c

/-- C89: where no text is written, every value lies between the smallest and the largest among the one of the
frame and those of the colors drawn there. -/
theorem C89_between (ras : Raster K) (shape : List Nat) (frame : Pic) (px : ℤ × ℤ) (ch lo hi : Nat)
    (hf : lo ≤ frame px ch ∧ frame px ch ≤ hi) (hhi : hi ≤ 255) (c : Canvas K) (hc : OnFrame c)
    (ht : ∀ s ∈ strokes c, ∀ a b col d e, s = .text a b col d e → ¬ s.Covers ras shape px)
    (h : ∀ s ∈ strokes c, s.Covers ras shape px →
      lo ≤ toByte ((Stroke.color s).getD ch 0) ∧ toByte ((Stroke.color s).getD ch 0) ≤ hi) :
    lo ≤ c.render ras shape frame px ch ∧ c.render ras shape frame px ch ≤ hi := by
  induction c with
  | base => exact hf
  | black => exact hc.elim
  | scaled c f ih => exact hc.elim
  | circle c p r t col ih =>
    simp only [strokes, List.mem_append, List.mem_singleton] at h ht
    simp only [Canvas.render, paint]
    split
    · rename_i hcov
      exact h (.circle p r t col) (Or.inr rfl) hcov
    · exact ih hc (fun s hs => ht s (Or.inl hs)) fun s hs => h s (Or.inl hs)
  | line c a b t col ih =>
    simp only [strokes, List.mem_append, List.mem_singleton] at h ht
    simp only [Canvas.render, paint]
    split
    · rename_i hcov
      exact h (.line a b t col) (Or.inr rfl) hcov
    · exact ih hc (fun s hs => ht s (Or.inl hs)) fun s hs => h s (Or.inl hs)
  | rectangle c a b t col ih =>
    simp only [strokes, List.mem_append, List.mem_singleton] at h ht
    simp only [Canvas.render, paint]
    split
    · rename_i hcov
      exact h (.rectangle a b t col) (Or.inr rfl) hcov
    · exact ih hc (fun s hs => ht s (Or.inl hs)) fun s hs => h s (Or.inl hs)
  | text c s p col size t ih =>
    simp only [strokes, List.mem_append, List.mem_singleton] at h ht
    simp only [Canvas.render]
    rw [write_out ras px _ fun u hu hg => ht _ (Or.inr rfl) _ _ _ _ _ rfl ⟨u, hu, hg⟩]
    exact ih hc (fun s hs => ht s (Or.inl hs)) fun s hs => h s (Or.inl hs)
  | blend a b x y iha ihb =>
    obtain ⟨ha, hb, hx, hy, hxy⟩ := hc
    simp only [strokes, List.mem_append] at h ht
    simp only [Canvas.render]
    exact blend_between hx hy hxy (iha ha (fun s hs => ht s (Or.inr hs)) fun s hs => h s (Or.inr hs))
      (ihb hb (fun s hs => ht s (Or.inl hs)) fun s hs => h s (Or.inl hs)) hhi

/-! ### `draw_points` -/

theorem drawCircles_px (ras : Raster K) (shape : List Nat) (frame : Pic) (px : ℤ × ℤ) (hide : Bool) (r t : ℤ)
    (col : Color) (ps : List (List K × Bool))
    (h : ∀ q ∈ ps, (q.2 = true ∨ hide = false) → ras.circle (q.1.map truncInt) r t px ≠ true) (c : Canvas K) :
    (drawCircles hide r t col ps c).render ras shape frame px = c.render ras shape frame px := by
  unfold drawCircles
  induction ps generalizing c with
  | nil => rfl
  | cons q ps ih =>
    rw [List.foldl_cons, ih (fun q hq => h q (List.mem_cons_of_mem _ hq))]
    split
    · funext ch
      simp only [Canvas.render, paint]
      rw [if_neg (h q (List.mem_cons_self ..) (by
        rename_i hq
        cases h2 : q.2 <;> cases hide <;> simp_all))]
    · rfl

/-- the calls of `cv2.putText` for a text of `draw_points` with radius `r`, in the color `col` -/
def pointTexts (ras : Raster K) (env : DrawEnv K H) (shape : List Nat) (a : DrawPointsArgs K) (r : ℤ)
    (d : Drawable K H) (col : Color) : List (PutText K) :=
  drawerText shape (buildText env.str env.fmt d a.drawLabels a.drawIds a.drawScores)
    (ras.position ((meanRows (d.points.headD []).length (maskRows d.points d.live)).map fun p =>
      p.map fun x => truncInt (x - (r : K)))) (a.labelSize.or a.textSize) col a.textThickness

/-- C89: `draw_points` changes no pixel that is not covered by the circle of a live point (of any point, if dead
points are shown) or by a text. Objects without live points do not matter if dead points are hidden. -/
theorem C89_draw_points (ras : Raster K) (env : DrawEnv K H) (shape : List Nat) (frame : Pic) (px : ℤ × ℤ)
    (a : DrawPointsArgs K) (ds : List (Drawable K H)) (c : Canvas K)
    (h : drawPoints env shape a (some ds) = some (some c)) (r t : ℤ)
    (hr : r = a.radius.getD (around (max (((shape.foldl max 0 : Nat) : K) * (2 / 1000)) 1)))
    (ht : t = a.thickness.getD (-1))
    (hcirc : a.drawPoints = true → ∀ d ∈ ds, ¬ PointCovers ras a.hideDeadPoints r t px d)
    (htext : (a.drawLabels || a.drawIds || a.drawScores) = true → ∀ d ∈ ds,
      (a.hideDeadPoints = true → true ∈ d.live) → ∀ col, ∀ u ∈ pointTexts ras env shape a r d col,
        ras.glyph u px ≠ true) :
    c.render ras shape frame px = frame px := by
  have key : ∀ color tc (ds : List (Drawable K H)),
      (a.drawPoints = true → ∀ d ∈ ds, ¬ PointCovers ras a.hideDeadPoints r t px d) →
      ((a.drawLabels || a.drawIds || a.drawScores) = true → ∀ d ∈ ds,
        (a.hideDeadPoints = true → true ∈ d.live) → ∀ col, ∀ u ∈ pointTexts ras env shape a r d col,
        ras.glyph u px ≠ true) →
      ∀ k (c0 c : Canvas K), drawPointsLoop env a color r t tc k ds c0 = some c →
      c.render ras shape frame px = c0.render ras shape frame px := by
    intro color tc ds
    induction ds with
    | nil => intro _ _ k c0 c h; cases h; rfl
    | cons d ds ih =>
      intro h1 h2 k c0 c h
      have ih := ih (fun hp d hd => h1 hp d (List.mem_cons_of_mem _ hd))
        (fun hp d hd => h2 hp d (List.mem_cons_of_mem _ hd))
      rw [drawPointsLoop] at h
      split at h
      · exact ih _ _ _ h
      · rename_i hlive
        split at h
        · cases h
        · rename_i col hcol
          have hl : a.hideDeadPoints = true → true ∈ d.live := by
            intro hh
            rw [hh] at hlive
            simpa using hlive
          simp only at h
          have e1 : ∀ c1 : Canvas K, (if a.drawPoints = true then
              drawCircles a.hideDeadPoints r t col (d.points.zip d.live) c1 else c1).render ras shape frame px =
              c1.render ras shape frame px := by
            intro c1
            split
            · refine drawCircles_px ras shape frame px _ r t col _ ?_ c1
              intro q hq hq2 hcov
              exact h1 ‹_› d (List.mem_cons_self ..) ⟨q, hq, hq2, hcov⟩
            · rfl
          rw [ih _ _ _ h]
          split
          · rename_i htx
            simp only [Canvas.render]
            exact (write_out ras px _ (h2 htx d (List.mem_cons_self ..) hl _) _).trans (e1 c0)
          · exact e1 c0
  unfold drawPoints at h
  simp only at h
  rw [← hr, ← ht] at h
  cases htc : a.textColor with
  | none =>
    rw [htc] at h
    simp only [Option.map_eq_some_iff] at h
    obtain ⟨c', h1, h2⟩ := h
    cases h2
    exact key _ _ ds hcirc htext _ _ _ h1
  | some x =>
    rw [htc] at h
    cases hp : parseColor x with
    | none => simp [hp] at h
    | some col =>
      simp only [hp] at h
      simp only [Option.map_some, Option.map_eq_some_iff] at h
      obtain ⟨c', h1, h2⟩ := h
      cases h2
      exact key _ _ ds hcirc htext _ _ _ h1

/-! ### `draw_boxes` -/

/-- the calls of `cv2.putText` for the text of a box with lines of thickness `t`, in the color `col`; there are
none if there is nothing to write -/
def boxTexts (ras : Raster K) (env : DrawEnv K H) (shape : List Nat) (a : DrawBoxesArgs K) (t : ℤ)
    (d : Drawable K H) (col : Color) : List (PutText K) :=
  let text := buildText env.str env.fmt d a.drawLabels a.drawIds a.drawScores
  let corner := ((boxOf d).headD []).map fun x => x - t / 2
  if text = [] then [] else drawerText shape text (corner.getD 0 0, corner.getD 1 0 - 1)
    (a.labelSize.or a.textSize) col a.textThickness

/-- the rectangle of a box covers the pixel -/
def BoxCovers (ras : Raster K) (t : ℤ) (px : ℤ × ℤ) (d : Drawable K H) : Prop :=
  ras.rectangle ((boxOf d).getD 0 []) ((boxOf d).getD 1 []) t px = true

/-- one object of `draw_boxes` -/
theorem drawBoxesLoop_px (ras : Raster K) (env : DrawEnv K H) (shape : List Nat) (frame : Pic) (px : ℤ × ℤ)
    (a : DrawBoxesArgs K) (color : ColorLike) (t : ℤ) (tc : Option Color) (k : Nat) (d : Drawable K H)
    (ds : List (Drawable K H)) (hbox : ∃ x0 y0 x1 y1, d.points = [[x0, y0], [x1, y1]])
    (htext : ∀ col, ∀ u ∈ boxTexts ras env shape a t d col, ras.glyph u px ≠ true) (c0 c : Canvas K)
    (h : drawBoxesLoop env a color t tc k (d :: ds) c0 = some c) :
    ∃ col c1, objColor env color d k = some col ∧
      drawBoxesLoop env a color t tc (k + 1) ds c1 = some c ∧
      (a.drawBox = true → BoxCovers ras t px d → ∀ ch, c1.render ras shape frame px ch = toByte (col.getD ch 0)) ∧
      (a.drawBox = true → ¬ BoxCovers ras t px d →
        c1.render ras shape frame px = c0.render ras shape frame px) ∧
      (a.drawBox = false → c1.render ras shape frame px = c0.render ras shape frame px) := by
  obtain ⟨x0, y0, x1, y1, hd⟩ := hbox
  rw [drawBoxesLoop] at h
  cases ho : objColor env color d k with
  | none => rw [ho] at h; cases h
  | some col =>
    rw [ho] at h
    simp only [hd, List.map_cons, List.map_nil] at h
    simp only [boxTexts, boxOf, hd, List.map_cons, List.map_nil, List.headD_cons, List.getD_cons_zero,
      List.getD_cons_succ] at htext
    simp only [BoxCovers, boxOf, hd, List.map_cons, List.map_nil, List.getD_cons_zero, List.getD_cons_succ]
    refine ⟨col, ?_⟩
    generalize buildText env.str env.fmt d a.drawLabels a.drawIds a.drawScores = txt at h htext
    have htx : ∀ (c : Canvas K) (cl : Color), txt ≠ [] →
        (c.text txt (some [truncInt x0 - t / 2, truncInt y0 - t / 2 - 1]) cl (a.labelSize.or a.textSize)
          a.textThickness).render ras shape frame px = c.render ras shape frame px := by
      intro c cl ht
      simp only [Canvas.render]
      refine write_out ras px _ ?_ _
      have := htext cl
      rw [if_neg ht] at this
      exact this
    have hrect : ∀ c : Canvas K, ∀ ch, (c.rectangle [truncInt x0, truncInt y0] [truncInt x1, truncInt y1] t
        col).render ras shape frame px ch = if ras.rectangle [truncInt x0, truncInt y0]
          [truncInt x1, truncInt y1] t px = true then toByte (col.getD ch 0) else
            c.render ras shape frame px ch := by
      intro c ch; rfl
    by_cases hb : a.drawBox = true
    · simp only [hb, if_true] at h
      by_cases ht : txt = []
      · simp only [ht, if_true] at h
        refine ⟨_, rfl, h, ?_, ?_, (by rw [hb]; intro h; cases h)⟩
        · intro _ hcov ch; rw [hrect, if_pos hcov]
        · intro _ hcov; funext ch; rw [hrect, if_neg hcov]
      · simp only [ht, if_false] at h
        refine ⟨_, rfl, h, ?_, ?_, (by rw [hb]; intro h; cases h)⟩
        · intro _ hcov ch; rw [htx _ _ ht, hrect, if_pos hcov]
        · intro _ hcov; funext ch; rw [htx _ _ ht, hrect, if_neg hcov]
    · simp only [hb] at h
      by_cases ht : txt = []
      · simp only [ht, if_true] at h
        exact ⟨_, rfl, h, fun h => absurd h hb, fun h => absurd h hb, fun _ => rfl⟩
      · simp only [ht, if_false] at h
        exact ⟨_, rfl, h, fun h => absurd h hb, fun h => absurd h hb, fun _ => htx _ _ ht⟩

theorem drawBoxesLoop_out (ras : Raster K) (env : DrawEnv K H) (shape : List Nat) (frame : Pic) (px : ℤ × ℤ)
    (a : DrawBoxesArgs K) (color : ColorLike) (t : ℤ) (tc : Option Color) (ds : List (Drawable K H))
    (hbox : ∀ d ∈ ds, ∃ x0 y0 x1 y1, d.points = [[x0, y0], [x1, y1]])
    (hrect : a.drawBox = true → ∀ d ∈ ds, ¬ BoxCovers ras t px d)
    (htext : ∀ d ∈ ds, ∀ col, ∀ u ∈ boxTexts ras env shape a t d col, ras.glyph u px ≠ true) :
    ∀ (k : Nat) (c0 c : Canvas K), drawBoxesLoop env a color t tc k ds c0 = some c →
    c.render ras shape frame px = c0.render ras shape frame px := by
  induction ds with
  | nil => intro k c0 c h; cases h; rfl
  | cons d ds ih =>
    intro k c0 c h
    obtain ⟨col, c1, -, h1, -, h2, h3⟩ := drawBoxesLoop_px ras env shape frame px a color t tc k d ds
      (hbox d (List.mem_cons_self ..)) (htext d (List.mem_cons_self ..)) c0 c h
    rw [ih (fun d hd => hbox d (List.mem_cons_of_mem _ hd)) (fun hb d hd => hrect hb d (List.mem_cons_of_mem _ hd))
      (fun d hd => htext d (List.mem_cons_of_mem _ hd)) _ _ _ h1]
    by_cases hb : a.drawBox = true
    · exact h2 hb (hrect hb d (List.mem_cons_self ..))
    · exact h3 (by simpa using hb)

/-- the thickness of the lines of boxes: a deprecated argument wins -/
structure LineWidth (shape : List Nat) (a : DrawBoxesArgs K) (t : ℤ) : Prop where
  deprecated : ∀ w, a.lineWidth = some w → t = w
  given : a.lineWidth = none → ∀ w, a.thickness = some w → t = w
  default : a.lineWidth = none → a.thickness = none → t = truncInt (((shape.foldl max 0 : Nat) : K) / 500)

/-- `draw_boxes` is its loop, with the thickness that is asked for -/
theorem drawBoxes_loop (env : DrawEnv K H) (shape : List Nat) {a : DrawBoxesArgs K} {cl : ColorLike}
    (hcl : BoxColor a cl) (ds : List (Drawable K H)) {t : ℤ} (ht : LineWidth shape a t) {c : Canvas K}
    (h : drawBoxes env shape a (some ds) = some c) : ∃ tc, drawBoxesLoop env a cl t tc 0 ds .base = some c := by
  obtain ⟨t', t1, t2, t3, e1, e2⟩ := drawBoxes_eq env shape hcl ds
  have htt : t' = t := by
    cases hlw : a.lineWidth with
    | some w => rw [t1 w hlw, ht.deprecated w hlw]
    | none =>
      cases hth : a.thickness with
      | some w => rw [t2 hlw w hth, ht.given hlw w hth]
      | none => rw [t3 hlw hth, ht.default hlw hth]
  subst htt
  cases htc : a.textColor with
  | none => exact ⟨none, (e1 htc).symm.trans h⟩
  | some x =>
    rw [e2 x htc] at h
    cases hp : parseColor x with
    | none => simp [hp] at h
    | some col => exact ⟨some col, by simpa [hp] using h⟩

theorem exists_boxColor (a : DrawBoxesArgs K) : ∃ cl, BoxColor a cl := by
  cases h1 : a.lineColor with
  | some c => exact ⟨_, .line h1⟩
  | none =>
    cases h2 : a.colorByLabel with
    | some b => exact ⟨_, .label h1 h2⟩
    | none =>
      cases h3 : a.randomColor with
      | some b => exact ⟨_, .random h1 h2 h3⟩
      | none =>
        cases h4 : a.color with
        | some c => exact ⟨_, .color h1 h2 h3 h4⟩
        | none => exact ⟨_, .default h1 h2 h3 h4⟩

/-- C89: `draw_boxes` changes no pixel that is not covered by the lines of a box or by a text. -/
theorem C89_draw_boxes (ras : Raster K) (env : DrawEnv K H) (shape : List Nat) (frame : Pic) (px : ℤ × ℤ)
    (a : DrawBoxesArgs K) (ds : List (Drawable K H)) (c : Canvas K)
    (h : drawBoxes env shape a (some ds) = some c)
    (hbox : ∀ d ∈ ds, ∃ x0 y0 x1 y1, d.points = [[x0, y0], [x1, y1]]) {t : ℤ} (ht : LineWidth shape a t)
    (hrect : a.drawBox = true → ∀ d ∈ ds, ¬ BoxCovers ras t px d)
    (htext : ∀ d ∈ ds, ∀ col, ∀ u ∈ boxTexts ras env shape a t d col, ras.glyph u px ≠ true) :
    c.render ras shape frame px = frame px := by
  obtain ⟨cl, hcl⟩ := exists_boxColor a
  obtain ⟨tc, hl⟩ := drawBoxes_loop env shape hcl ds ht h
  exact drawBoxesLoop_out ras env shape frame px a cl t tc ds hbox hrect htext 0 .base c hl

/-- C89: a pixel covered by the lines of a box has the color of this object, if no later box and no text from this
object on covers it. -/
theorem C89_top_box (ras : Raster K) (env : DrawEnv K H) (shape : List Nat) (frame : Pic) (px : ℤ × ℤ)
    (a : DrawBoxesArgs K) (hb : a.drawBox = true) {cl : ColorLike} (hcl : BoxColor a cl)
    (xs : List (Drawable K H)) (d : Drawable K H) (ys : List (Drawable K H)) (c : Canvas K)
    (h : drawBoxes env shape a (some (xs ++ d :: ys)) = some c)
    (hbox : ∀ d' ∈ xs ++ d :: ys, ∃ x0 y0 x1 y1, d'.points = [[x0, y0], [x1, y1]]) {t : ℤ}
    (ht : LineWidth shape a t) (hd : BoxCovers ras t px d) (hrect : ∀ d' ∈ ys, ¬ BoxCovers ras t px d')
    (htext : ∀ d' ∈ d :: ys, ∀ col, ∀ u ∈ boxTexts ras env shape a t d' col, ras.glyph u px ≠ true) :
    ∃ col, IsColor env xs.length d cl col ∧
      ∀ ch, c.render ras shape frame px ch = toByte (col.getD ch 0) := by
  obtain ⟨tc, hl⟩ := drawBoxes_loop env shape hcl _ ht h
  have key : ∀ (xs : List (Drawable K H)), (∀ d' ∈ xs ++ d :: ys, ∃ x0 y0 x1 y1, d'.points = [[x0, y0], [x1, y1]]) →
      ∀ k (c0 : Canvas K), drawBoxesLoop env a cl t tc k (xs ++ d :: ys) c0 = some c →
      ∃ c1, drawBoxesLoop env a cl t tc (k + xs.length) (d :: ys) c1 = some c := by
    intro xs
    induction xs with
    | nil => intro _ k c0 h; exact ⟨c0, h⟩
    | cons x xs ih =>
      intro hbox k c0 h
      obtain ⟨x0, y0, x1, y1, hx⟩ := hbox x (List.mem_cons_self ..)
      rw [List.cons_append] at h
      cases ho : objColor env cl x k with
      | none => rw [drawBoxesLoop, ho] at h; cases h
      | some col =>
        obtain ⟨c1, e1, -⟩ := drawBoxesLoop_cons env a cl t tc k x (xs ++ d :: ys) c0 x0 y0 x1 y1 hx col ho
        rw [e1] at h
        obtain ⟨c2, h2⟩ := ih (fun d' hd' => hbox d' (List.mem_cons_of_mem _ hd')) (k + 1) c1 h
        exact ⟨c2, by rw [List.length_cons, show k + (xs.length + 1) = k + 1 + xs.length by omega]; exact h2⟩
  obtain ⟨c1, h1⟩ := key xs hbox 0 .base hl
  obtain ⟨col, c2, h2, h3, h4, -⟩ := drawBoxesLoop_px ras env shape frame px a cl t tc (0 + xs.length) d ys
    (hbox d (by simp)) (htext d (List.mem_cons_self ..)) c1 c h1
  refine ⟨col, isColor_iff.mpr (by simpa using h2), fun ch => ?_⟩
  rw [drawBoxesLoop_out ras env shape frame px a cl t tc ys (fun d' hd' => hbox d' (by simp [hd']))
    (fun _ => hrect) (fun d' hd' => htext d' (List.mem_cons_of_mem _ hd')) _ _ _ h3]
  exact h4 hb hd ch

/-- C89: `Drawer.alpha_blend` without `beta` gives values between those of the two pictures for `alpha` between 0 and
1, the first picture for 1 and the second one for 0. -/
theorem C89_alpha_blend (ras : Raster K) (shape : List Nat) (frame : Pic) (a b : Canvas K) (alpha : K) (px : ℤ × ℤ)
    (ch : Nat) (ha : a.render ras shape frame px ch ≤ 255) (hb : b.render ras shape frame px ch ≤ 255) :
    (0 ≤ alpha → alpha ≤ 1 →
      min (a.render ras shape frame px ch) (b.render ras shape frame px ch) ≤
        (a.alphaBlend b alpha).render ras shape frame px ch ∧
      (a.alphaBlend b alpha).render ras shape frame px ch ≤
        max (a.render ras shape frame px ch) (b.render ras shape frame px ch)) ∧
    (a.alphaBlend b 1).render ras shape frame px ch = a.render ras shape frame px ch ∧
    (a.alphaBlend b 0).render ras shape frame px ch = b.render ras shape frame px ch := by
  have key : ∀ x : K, (a.alphaBlend b x).render ras shape frame px ch =
      toByte (around (x * (a.render ras shape frame px ch : K) + (1 - x) * (b.render ras shape frame px ch : K))) :=
    fun _ => rfl
  refine ⟨fun h0 h1 => ?_, ?_, ?_⟩
  · rw [key]
    exact blend_between h0 (by linarith) (by ring) ⟨min_le_left _ _, le_max_left _ _⟩
      ⟨min_le_right _ _, le_max_right _ _⟩ (max_le ha hb)
  · rw [key, one_mul, sub_self, zero_mul, add_zero, around_natCast, toByte_nat, min_eq_left ha]
  · rw [key, zero_mul, sub_zero, one_mul, zero_add, around_natCast, toByte_nat, min_eq_left hb]

/-- C89_alpha_blend: half of a white pixel on a black one -/
example (ras : Raster ℚ) : ((Canvas.base : Canvas ℚ).alphaBlend .black).render ras [] (fun _ _ => 200) (0, 0) 0 = 100 := by
  have e : ((Canvas.base : Canvas ℚ).alphaBlend .black).render ras [] (fun _ _ => 200) (0, 0) 0 =
    toByte (around ((1 / 2 : ℚ) * ((200 : Nat) : ℚ) + (1 - 1 / 2) * ((0 : Nat) : ℚ))) := rfl
  rw [e]
  decide +kernel

end Norfair.Props
