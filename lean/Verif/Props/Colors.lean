import Verif.Spec.Colors
import Verif.Props.Drawing

/-!
Colors of boxes and points for every choice of the arguments (C53, C69).
-/

namespace Norfair.Props

open Norfair Norfair.Spec

variable {K H : Type}

theorem isColor_iff {env : DrawEnv K H} {k : Nat} {d : Drawable K H} {c : ColorLike} {col : Color} :
    IsColor env k d c col ↔ objColor env c d k = some col := by
  unfold objColor
  constructor
  · rintro (h | h | h | ⟨hc, h⟩)
    · rw [if_pos rfl]; exact h
    · rw [if_neg (by decide), if_pos rfl]; exact h
    · rw [if_neg (by decide), if_neg (by decide), if_pos rfl]; exact h
    · simp only [PerObject, not_or] at hc
      rw [if_neg hc.1, if_neg hc.2.1, if_neg hc.2.2]; exact h
  · intro h
    split at h
    · subst_vars; exact .byId h
    split at h
    · subst_vars; exact .byLabel h
    split at h
    · subst_vars; exact .random h
    · exact .fixed (by simp only [PerObject, not_or]; exact ⟨‹_›, ‹_›, ‹_›⟩) h

section
variable [Field K] [LinearOrder K] [FloorRing K]

/-- `draw_boxes` with the color that is asked for -/
theorem drawBoxes_eq (env : DrawEnv K H) (shape : List Nat) {a : DrawBoxesArgs K} {cl : ColorLike}
    (hcl : BoxColor a cl) (ds : List (Drawable K H)) : ∃ t,
    (∀ w, a.lineWidth = some w → t = w) ∧ (a.lineWidth = none → ∀ w, a.thickness = some w → t = w) ∧
    (a.lineWidth = none → a.thickness = none → t = truncInt (((shape.foldl max 0 : Nat) : K) / 500)) ∧
    (a.textColor = none →
      drawBoxes env shape a (some ds) = drawBoxesLoop env a cl t none 0 ds .base) ∧
    ∀ x, a.textColor = some x → drawBoxes env shape a (some ds) =
      (parseColor x).bind fun col => drawBoxesLoop env a cl t (some col) 0 ds .base := by
  refine ⟨(match a.lineWidth with
      | some w => some w
      | none => a.thickness).getD (truncInt (((shape.foldl max 0 : Nat) : K) / 500)), ?_, ?_, ?_, ?_⟩
  · intro w hw; rw [hw]; rfl
  · intro hw w ht; rw [hw, ht]; rfl
  · intro hw ht; rw [hw, ht]; rfl
  · obtain ⟨color, th, rc, cbl, dl, di, tcol, db, lc, lw, dsc⟩ := a
    rcases hcl with h | ⟨h1, h⟩ | ⟨h1, h2, h⟩ | ⟨h1, h2, h3, h⟩ | ⟨h1, h2, h3, h⟩ <;> simp only at * <;>
      subst_vars <;> constructor
    all_goals first
      | (intro hx; subst hx; rfl)
      | (intro x hx; subst hx; simp only [drawBoxes]; cases parseColor x <;> rfl)

/-- what `draw_boxes` draws for an object: the rectangle and the text, if there is one -/
structure BoxDrawn (env : DrawEnv K H) (a : DrawBoxesArgs K) (cl : ColorLike) (t : ℤ) (k : Nat) (d : Drawable K H)
    (rs : List (List ℤ × List ℤ × ℤ × Color)) (ts : List (List Char × Option (List ℤ) × Color)) : Prop where
  box : ∃ x0 y0 x1 y1 col tcol, d.points = [[x0, y0], [x1, y1]] ∧ IsColor env k d cl col ∧
    IsTextColor a.textColor col tcol ∧
    rs = (if a.drawBox then [([truncInt x0, truncInt y0], [truncInt x1, truncInt y1], t, col)] else []) ∧
    ts = (if buildText env.str env.fmt d a.drawLabels a.drawIds a.drawScores = [] then [] else
      [(buildText env.str env.fmt d a.drawLabels a.drawIds a.drawScores,
        some [truncInt x0 - t / 2, truncInt y0 - t / 2 - 1], tcol)])

/-- **C69** for every choice of the arguments: if `draw_boxes` does not raise, then what it draws is, for the
objects in order, the rectangle of the object (none if boxes are switched off) in the color that is asked
for, and its text, if it is not empty, in the color given for texts or in the one of the object. -/
theorem C69_colors (env : DrawEnv K H) (shape : List Nat) (a : DrawBoxesArgs K) {cl : ColorLike}
    (hcl : BoxColor a cl) (ds : List (Drawable K H))
    (hbox : ∀ d ∈ ds, ∃ x0 y0 x1 y1, d.points = [[x0, y0], [x1, y1]]) {c : Canvas K}
    (h : drawBoxes env shape a (some ds) = some c) :
    ∃ t, (∀ w, a.lineWidth = some w → t = w) ∧
      (a.lineWidth = none → ∀ w, a.thickness = some w → t = w) ∧
      (a.lineWidth = none → a.thickness = none → t = truncInt (((shape.foldl max 0 : Nat) : K) / 500)) ∧
      ∃ (rs : List (List (List ℤ × List ℤ × ℤ × Color)))
        (ts : List (List (List Char × Option (List ℤ) × Color))), rs.length = ds.length ∧ ts.length = ds.length ∧
        rectangles c = rs.flatten ∧ texts c = ts.flatten ∧
        ∀ k d r t', ds[k]? = some d → rs[k]? = some r → ts[k]? = some t' → BoxDrawn env a cl t k d r t' := by
  have key : ∀ (t : ℤ) (tc : Option Color) (htc : ∀ col, IsTextColor a.textColor col (tc.getD col))
      (ds : List (Drawable K H)), (∀ d ∈ ds, ∃ x0 y0 x1 y1, d.points = [[x0, y0], [x1, y1]]) →
      ∀ (k : Nat) (c0 c : Canvas K), drawBoxesLoop env a cl t tc k ds c0 = some c →
      ∃ (rs : List (List (List ℤ × List ℤ × ℤ × Color)))
        (ts : List (List (List Char × Option (List ℤ) × Color))), rs.length = ds.length ∧ ts.length = ds.length ∧
        rectangles c = rectangles c0 ++ rs.flatten ∧ texts c = texts c0 ++ ts.flatten ∧
        ∀ j d r t', ds[j]? = some d → rs[j]? = some r → ts[j]? = some t' →
          BoxDrawn env a cl t (k + j) d r t' := by
    intro t tc htc ds
    induction ds with
    | nil =>
      intro _ k c0 c h
      cases h
      exact ⟨[], [], rfl, rfl, by simp, by simp, by simp⟩
    | cons d ds ih =>
      intro hbox k c0 c h
      obtain ⟨x0, y0, x1, y1, hd⟩ := hbox d (List.mem_cons_self ..)
      cases ho : objColor env cl d k with
      | none => rw [drawBoxesLoop, ho] at h; cases h
      | some col =>
        obtain ⟨c1, e1, e2, e3⟩ := drawBoxesLoop_cons env a cl t tc k d ds c0 x0 y0 x1 y1 hd col ho
        rw [e1] at h
        obtain ⟨rs, ts, l1, l2, h1, h2, h3⟩ := ih (fun d hd => hbox d (List.mem_cons_of_mem _ hd)) _ _ _ h
        refine ⟨(if a.drawBox then [([truncInt x0, truncInt y0], [truncInt x1, truncInt y1], t, col)] else []) :: rs,
          (if buildText env.str env.fmt d a.drawLabels a.drawIds a.drawScores = [] then [] else
            [(buildText env.str env.fmt d a.drawLabels a.drawIds a.drawScores,
              some [truncInt x0 - t / 2, truncInt y0 - t / 2 - 1], tc.getD col)]) :: ts,
          by simp [l1], by simp [l2], by rw [h1, e2, List.flatten_cons, List.append_assoc],
          by rw [h2, e3, List.flatten_cons, List.append_assoc], ?_⟩
        intro j d' r t' hj hr ht
        cases j with
        | zero =>
          simp only [List.getElem?_cons_zero, Option.some.injEq] at hj hr ht
          subst hj hr ht
          exact ⟨x0, y0, x1, y1, col, _, hd, isColor_iff.mpr ho, htc col, rfl, rfl⟩
        | succ j =>
          simp only [List.getElem?_cons_succ] at hj hr ht
          have := h3 j d' r t' hj hr ht
          rwa [show k + 1 + j = k + (j + 1) by omega] at this
  obtain ⟨t, t1, t2, t3, e1, e2⟩ := drawBoxes_eq env shape hcl ds
  refine ⟨t, t1, t2, t3, ?_⟩
  cases htc : a.textColor with
  | none =>
    rw [e1 htc] at h
    obtain ⟨rs, ts, h1, h2, h3, h4, h5⟩ := key t none
      (by intro col; rw [htc]; exact ⟨by simp, fun _ => rfl⟩) ds hbox 0 .base c h
    refine ⟨rs, ts, h1, h2, by simpa [rectangles] using h3, by simpa [texts] using h4, ?_⟩
    intro k d r t' e1 e2 e3
    simpa using h5 k d r t' e1 e2 e3
  | some x =>
    rw [e2 x htc] at h
    cases hp : parseColor x with
    | none => simp [hp] at h
    | some col =>
      simp only [hp, Option.bind_some] at h
      obtain ⟨rs, ts, h1, h2, h3, h4, h5⟩ := key t (some col)
        (by intro col'; rw [htc]; exact ⟨by rintro c ⟨⟩; exact hp, by simp⟩) ds hbox 0 .base c h
      refine ⟨rs, ts, h1, h2, by simpa [rectangles] using h3, by simpa [texts] using h4, ?_⟩
      intro k d r t' e1 e2 e3
      simpa using h5 k d r t' e1 e2 e3

/-- **C69** ... and it does not raise if the colors that are asked for exist. -/
theorem C69_does_not_raise (env : DrawEnv K H) (hpal : env.palette.colors ≠ []) (shape : List Nat)
    (a : DrawBoxesArgs K) {cl : ColorLike} (hcl : BoxColor a cl)
    (hc : PerObject cl ∨ ∃ col, parseColor cl = some col)
    (ht : ∀ c, a.textColor = some c → ∃ col, parseColor c = some col) (ds : List (Drawable K H))
    (hbox : ∀ d ∈ ds, ∃ x0 y0 x1 y1, d.points = [[x0, y0], [x1, y1]]) :
    ∃ c, drawBoxes env shape a (some ds) = some c := by
  have hch : ∀ o, ∃ col, env.palette.choose o = some col := by
    intro o
    cases o with
    | none => exact ⟨_, rfl⟩
    | some h => exact (C52_member_partial env.palette hpal h).imp fun _ h => h.2
  have hcol : ∀ d k, ∃ col, objColor env cl d k = some col := by
    intro d k
    by_cases hp : PerObject cl
    · rcases hp with rfl | rfl | rfl
      · exact (hch _).imp fun _ h => isColor_iff.mp (.byId h)
      · exact (hch _).imp fun _ h => isColor_iff.mp (.byLabel h)
      · exact (hch _).imp fun _ h => isColor_iff.mp (.random h)
    · exact (hc.resolve_left hp).imp fun _ h => isColor_iff.mp (.fixed hp h)
  have key : ∀ (t : ℤ) (tc : Option Color) (ds : List (Drawable K H)),
      (∀ d ∈ ds, ∃ x0 y0 x1 y1, d.points = [[x0, y0], [x1, y1]]) →
      ∀ (k : Nat) (c0 : Canvas K), ∃ c, drawBoxesLoop env a cl t tc k ds c0 = some c := by
    intro t tc ds
    induction ds with
    | nil => intro _ k c0; exact ⟨c0, rfl⟩
    | cons d ds ih =>
      intro hbox k c0
      obtain ⟨x0, y0, x1, y1, hd⟩ := hbox d (List.mem_cons_self ..)
      obtain ⟨col, ho⟩ := hcol d k
      obtain ⟨c1, e1, -⟩ := drawBoxesLoop_cons env a cl t tc k d ds c0 x0 y0 x1 y1 hd col ho
      rw [e1]
      exact ih (fun d hd => hbox d (List.mem_cons_of_mem _ hd)) _ _
  obtain ⟨t, -, -, -, e1, e2⟩ := drawBoxes_eq env shape hcl ds
  cases htc : a.textColor with
  | none => rw [e1 htc]; exact key _ none ds hbox 0 .base
  | some x =>
    obtain ⟨col, hp⟩ := ht x htc
    rw [e2 x htc, hp]
    exact key _ _ ds hbox 0 .base

/-- what `draw_points` draws for an object that is drawn -/
structure PointsDrawn (env : DrawEnv K H) (a : DrawPointsArgs K) (cl : ColorLike) (k : Nat) (d : Drawable K H)
    (cs : List (List ℤ × Color)) (ts : List (List Char × Color)) : Prop where
  drawn : ∃ col tcol, IsColor env k d cl col ∧ IsTextColor a.textColor col tcol ∧
    cs = (if a.drawPoints then (livePositions d).map fun p => (p, col) else []) ∧
    ts = (if a.drawLabels || a.drawIds || a.drawScores then
      [(buildText env.str env.fmt d a.drawLabels a.drawIds a.drawScores, tcol)] else [])

/-- **C53** for every choice of the colors: with `hide_dead_points`, what `draw_points` draws is, for the objects
with live points in order, a circle at each live point in the color that is asked for, and the text of the
object in the color given for texts or in the one of the object. -/
theorem C53_colors (env : DrawEnv K H) (shape : List Nat) (a : DrawPointsArgs K)
    (hh : a.hideDeadPoints = true) {cl : ColorLike} (hcl : PointColor a cl) (ds : List (Drawable K H))
    {c : Canvas K} (h : drawPoints env shape a (some ds) = some (some c)) :
    let live := ds.filter fun d => d.live.contains true
    ∃ (cs : List (List (List ℤ × Color))) (ts : List (List (List Char × Color))), cs.length = live.length ∧ ts.length = live.length ∧ circles c = cs.flatten ∧
      (texts c).map (fun t => (t.1, t.2.2)) = ts.flatten ∧
      ∀ k d x t, live[k]? = some d → cs[k]? = some x → ts[k]? = some t → PointsDrawn env a cl k d x t := by
  intro live
  rw [C53_dead_objects env shape a hh] at h
  obtain ⟨col0, r, t, tc, hl, hco, -, ht1, ht2⟩ := drawPoints_cases env shape a _ c h
  have hco : cl = col0 := by
    rw [hco]
    rcases hcl with h | ⟨h2, h⟩ | ⟨h2, h⟩
    · rw [h]; rfl
    · rw [h2, h]; rfl
    · rw [h2, h]; rfl
  subst hco
  have htc : ∀ col, IsTextColor a.textColor col (tc.getD col) := by
    intro col
    cases hx : a.textColor with
    | none => exact ⟨by simp, fun _ => by rw [ht1 hx]; rfl⟩
    | some x =>
      refine ⟨?_, by simp⟩
      rintro y ⟨⟩
      have := ht2 x hx
      cases hp : parseColor x with
      | none =>
        exfalso
        unfold drawPoints at h
        simp [hx, hp] at h
      | some col' => rw [hp] at this; rw [this]; rfl
  have key : ∀ (ds : List (Drawable K H)), (∀ d ∈ ds, d.live.contains true = true) →
      ∀ (k : Nat) (c0 c : Canvas K), drawPointsLoop env a cl r t tc k ds c0 = some c →
      ∃ (cs : List (List (List ℤ × Color))) (ts : List (List (List Char × Color))), cs.length = ds.length ∧ ts.length = ds.length ∧ circles c = circles c0 ++ cs.flatten ∧
        (texts c).map (fun t => (t.1, t.2.2)) = (texts c0).map (fun t => (t.1, t.2.2)) ++ ts.flatten ∧
        ∀ j d x t, ds[j]? = some d → cs[j]? = some x → ts[j]? = some t →
          PointsDrawn env a cl (k + j) d x t := by
    intro ds
    induction ds with
    | nil =>
      intro _ k c0 c h
      cases h
      exact ⟨[], [], rfl, rfl, by simp, by simp, by simp⟩
    | cons d ds ih =>
      intro hlive k c0 c h
      have hn : ¬ (a.hideDeadPoints = true ∧ ∀ b ∈ d.live, b = false) := by
        rintro ⟨-, h⟩
        have := h true (by simpa using hlive d (List.mem_cons_self ..))
        cases this
      have hs := (drawPointsLoop_cons env a cl r t tc k d ds c0).2 hn
      cases ho : objColor env cl d k with
      | none => rw [hs.1 ho] at h; cases h
      | some col =>
        obtain ⟨c1, e1, e2, e3⟩ := hs.2 col ho
        rw [e1] at h
        obtain ⟨cs, ts, l1, l2, h1, h2, h3⟩ := ih (fun d hd => hlive d (List.mem_cons_of_mem _ hd)) _ _ _ h
        have elive : ((d.points.zip d.live).filter fun p => p.2 || !a.hideDeadPoints).map
            (fun p => (p.1.map truncInt, col)) = (livePositions d).map fun p => (p, col) := by
          rw [hh, livePositions, ← zip_live]
          simp
        refine ⟨(if a.drawPoints then (livePositions d).map fun p => (p, col) else []) :: cs,
          (if a.drawLabels || a.drawIds || a.drawScores then
            [(buildText env.str env.fmt d a.drawLabels a.drawIds a.drawScores, tc.getD col)] else []) :: ts,
          by simp [l1], by simp [l2], by rw [h1, e2, elive, List.flatten_cons, List.append_assoc], ?_, ?_⟩
        · rw [h2, e3, List.flatten_cons, List.map_append, List.append_assoc]
          congr 2
          split <;> rfl
        · intro j d' x t' hj hx ht
          cases j with
          | zero =>
            simp only [List.getElem?_cons_zero, Option.some.injEq] at hj hx ht
            subst hj hx ht
            exact ⟨col, _, isColor_iff.mpr ho, htc col, rfl, rfl⟩
          | succ j =>
            simp only [List.getElem?_cons_succ] at hj hx ht
            have := h3 j d' x t' hj hx ht
            rwa [show k + 1 + j = k + (j + 1) by omega] at this
  obtain ⟨cs, ts, h1, h2, h3, h4, h5⟩ := key live (by intro d hd; exact (List.mem_filter.mp hd).2) 0 .base c hl
  refine ⟨cs, ts, h1, h2, by simpa [circles] using h3, by simpa [texts] using h4, ?_⟩
  intro k d x t' e1 e2 e3
  simpa using h5 k d x t' e1 e2 e3

end

/-- C69: `line_color` takes precedence over `color`; the rectangle is red, the text white -/
example :
    let a : DrawBoxesArgs ℚ :=
      { lineColor := some (.str "#ff0000".toList)
        randomColor := some true
        textColor := some (.tup [255, 255, 255]) }
    let ds : List (Drawable ℚ Nat) := [⟨[[1, 2], [7 / 2, 4]], some 1, none, none, [true, true]⟩]
    BoxColor a (.str "#ff0000".toList) ∧ (∃ col, parseColor (.str "#ff0000".toList) = some col) ∧
    (drawBoxes toyEnv [1000, 200, 3] a (some ds)).map rectangles = some [([1, 2], [3, 4], 2, [0, 0, 255])] ∧
    (drawBoxes toyEnv [1000, 200, 3] a (some ds)).map (fun c => (texts c).map fun t => t.2.2) =
      some [[255, 255, 255]] :=
  ⟨.line rfl, ⟨[0, 0, 255], by decide +kernel⟩, by decide +kernel, by decide +kernel⟩

/-- C53: colors by label, a text color, and a dead object that is not drawn -/
example :
    let a : DrawPointsArgs ℚ := { color := some (.str "by_label".toList), textColor := some (.tup [1, 2, 3]) }
    let ds : List (Drawable ℚ Nat) := [⟨[[9, 9]], some 2, some 5, none, [false]⟩,
      ⟨[[1, 2], [3, 4]], some 1, some 5, none, [true, false]⟩]
    PointColor a (.str "by_label".toList) ∧
    (drawPoints toyEnv [100, 200, 3] a (some ds)).map (fun c => c.map circles) =
      some (some [([1, 2], [2, 2, 2])]) ∧
    (drawPoints toyEnv [100, 200, 3] a (some ds)).map (fun c => c.map fun c => (texts c).map fun t => t.2.2) =
      some (some [[1, 2, 3]]) :=
  ⟨.color rfl rfl, by decide +kernel, by decide +kernel⟩

end Norfair.Props
