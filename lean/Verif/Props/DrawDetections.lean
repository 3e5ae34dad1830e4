import Verif.Props.DrawTracked
import Verif.Props.Color

/-! C99: detections can be drawn as they are. -/

set_option linter.unusedSectionVars false

namespace Norfair.Props

open Norfair Norfair.Spec Norfair.Toy

variable {K L X H : Type}

theorem rows_flatten_take (data : List K) (dim n : Nat) :
    ((List.range n).map fun i => (data.drop (i * dim)).take dim).flatten = data.take (n * dim) := by
  induction n with
  | zero => simp
  | succ n ih =>
    rw [List.range_succ, List.map_append, List.flatten_append, ih, Nat.succ_mul, List.take_add]
    simp

/-- the rows of an array, one after the other, are its numbers -/
theorem rows_flatten (p : Pts K) (h : p.data.length = p.n * p.dim) : p.rows.flatten = p.data := by
  rw [Pts.rows, rows_flatten_take, ← h, List.take_length]

theorem rows_length (p : Pts K) : p.rows.length = p.n := by simp [Pts.rows]

theorem flatten_flatMap {α β : Type} (f : α → List (List β)) (l : List α) :
    (l.flatMap f).flatten = l.flatMap fun x => (f x).flatten := by
  induction l with
  | nil => rfl
  | cons a l ih => simp [ih]

section
variable [Field K] [LinearOrder K] [FloorRing K]

/-- all points of a detection are live -/
theorem livePositions_ofDet (lab : L → Option H) (d : Det K L X) :
    livePositions (Drawable.ofDet lab d) = d.points.rows.map fun p => p.map truncInt := by
  have hl : d.points.rows.length = d.points.n := rows_length _
  refine (zip_live (fun p : List K => p.map truncInt) d.points.rows
    (List.replicate d.points.n true)).symm.trans ?_
  rw [← hl]
  generalize d.points.rows = ps
  induction ps with
  | nil => rfl
  | cons p ps ih => simpa [List.replicate_succ] using ih

/-- **C99**: `draw_points` given detections does not raise, whatever `hide_dead_points`, with any palette that is
not empty. It draws one circle per point: the centers are the numbers of `points` (those the user gave, not the
absolute ones), in order, in whole pixels. All points count as live, also those whose score is low. -/
theorem C99_points (env : DrawEnv K H) (hpal : env.palette.colors ≠ []) (shape : List Nat)
    (a : DrawPointsArgs K) (hp : a.drawPoints = true) (ht : a.textColor = none)
    (hc : a.color = none ∨ a.color = some (.str "by_id".toList) ∨ a.color = some (.str "by_label".toList) ∨
      a.color = some (.str "random".toList)) (lab : L → Option H) (dets : List (Det K L X))
    (hdets : ∀ d ∈ dets, d.points.data.length = d.points.n * d.points.dim) :
    ∃ c, drawPoints env shape a (some (dets.map (Drawable.ofDet lab))) = some (some c) ∧
      (circles c).length = (dets.map fun d => d.points.n).sum ∧
      ((circles c).map (·.1)).flatten = (dets.flatMap fun d => d.points.data).map truncInt := by
  obtain ⟨c, h⟩ := C53_does_not_raise env hpal shape a ht hc (dets.map (Drawable.ofDet lab))
  have hpos : (circles c).map (·.1) = dets.flatMap fun d => d.points.rows.map fun p => p.map truncInt := by
    cases hh : a.hideDeadPoints with
    | true =>
      rw [C53_circles env shape a hh hp _ c h, List.flatMap_map]
      exact List.flatMap_congr fun d _ => livePositions_ofDet lab d
    | false =>
      rw [C53_all_circles env shape a hh hp _ ?_ c h, List.flatMap_map]
      · rfl
      · intro d hd
        obtain ⟨d, -, rfl⟩ := List.mem_map.mp hd
        simp [Drawable.ofDet, rows_length]
  refine ⟨c, h, ?_, ?_⟩
  · have := congrArg List.length hpos
    rw [List.length_map, List.length_flatMap] at this
    rw [this]
    simp [rows_length]
  · rw [hpos, flatten_flatMap, List.map_flatMap]
    refine List.flatMap_congr fun d hd => ?_
    rw [← List.map_flatten, rows_flatten _ (hdets d hd)]

/-- **C99** ... and, as detections have no id, with `color="by_id"` all circles are in the default color of the
palette. -/
theorem C99_points_color (env : DrawEnv K H) (shape : List Nat)
    (a : DrawPointsArgs K) (hh : a.hideDeadPoints = true) (hp : a.drawPoints = true)
    (hc : a.color = some (.str "by_id".toList)) (hcl : a.colorByLabel = none) (lab : L → Option H)
    (dets : List (Det K L X)) (c : Canvas K)
    (h : drawPoints env shape a (some (dets.map (Drawable.ofDet lab))) = some (some c)) :
    ∀ p ∈ circles c, p.2 = env.palette.default := by
  have h1 := C53_by_id env shape a hh hp hc hcl _ c h
  intro p hpm
  have h2 := List.mem_map_of_mem (f := fun p : List ℤ × Color => (p.1, some p.2)) hpm
  rw [h1, List.mem_flatMap] at h2
  obtain ⟨d, hd, h3⟩ := h2
  obtain ⟨d, -, rfl⟩ := List.mem_map.mp hd
  obtain ⟨q, -, h4⟩ := List.mem_map.mp h3
  have h5 := congrArg Prod.snd h4
  simp only [Drawable.ofDet, Option.map_none, Palette.choose, Option.some.injEq] at h5
  exact h5.symm

/-- **C99**: `draw_boxes` given detections that are boxes (two points in the plane) does not raise and draws one
rectangle per detection, its corners the two points the user gave, in whole pixels; with `color="by_id"` in the
default color of the palette. No text has an id in it: it is made of the label and of the score. -/
theorem C99_boxes (env : DrawEnv K H) (hpal : env.palette.colors ≠ []) (shape : List Nat)
    (a : DrawBoxesArgs K) (hb : a.drawBox = true) (hc : a.color = some (.str "by_id".toList))
    (hr : a.randomColor = none) (hl : a.colorByLabel = none) (hlc : a.lineColor = none)
    (htc : a.textColor = none) (lab : L → Option H) (dets : List (Det K L X))
    (hdets : ∀ d ∈ dets, d.points.n = 2 ∧ d.points.dim = 2 ∧ d.points.data.length = 4)
    (hs : ∀ d ∈ dets, ∀ s, d.scores = some s → env.fmt s ≠ []) :
    ∃ c, drawBoxes env shape a (some (dets.map (Drawable.ofDet lab))) = some c ∧
      (rectangles c).map (fun r => r.1 ++ r.2.1) = dets.map (fun d => d.points.data.map truncInt) ∧
      (∀ r ∈ rectangles c, r.2.2.2 = env.palette.default) ∧
      (texts c).map (·.1) = (dets.map fun d => ['-'].intercalate
        (((if a.drawLabels then ((lab d.label).map env.str).toList else []) ++
          (if a.drawScores then (d.scores.map env.fmt).toList else [])).filter (· ≠ []))).filter (· ≠ []) := by
  have hbox : ∀ d ∈ dets, ∃ x0 y0 x1 y1, d.points.data = [x0, y0, x1, y1] ∧
      (Drawable.ofDet lab d : Drawable K H).points = [[x0, y0], [x1, y1]] := by
    intro d hd
    obtain ⟨e1, e2, e3⟩ := hdets d hd
    match hdt : d.points.data, e3 with
    | [x0, y0, x1, y1], _ =>
      refine ⟨x0, y0, x1, y1, rfl, ?_⟩
      simp [Drawable.ofDet, Pts.rows, e1, e2, hdt, List.range_succ]
  obtain ⟨c, t, h1, -, -, -, h2, h3⟩ := C69_boxes env hpal shape a hb hc hr hl hlc htc
    (dets.map (Drawable.ofDet lab)) (by
      intro d hd
      obtain ⟨d', hd', rfl⟩ := List.mem_map.mp hd
      obtain ⟨x0, y0, x1, y1, -, e⟩ := hbox d' hd'
      exact ⟨x0, y0, x1, y1, e⟩)
  refine ⟨c, h1, ?_, ?_, ?_⟩
  · have h4 := congrArg (List.map fun x => x.1.flatten) h2
    rw [List.map_map, List.map_map, List.map_map] at h4
    refine Eq.trans ?_ (h4.trans (List.map_congr_left fun d hd => ?_))
    · refine List.map_congr_left fun r _ => ?_
      simp
    · obtain ⟨x0, y0, x1, y1, e1, e2⟩ := hbox d hd
      simp [boxOf, e1, e2]
  · intro r hrm
    have h4 := List.mem_map_of_mem
      (f := fun r : List ℤ × List ℤ × ℤ × Color => ([r.1, r.2.1], r.2.2.1, some r.2.2.2)) hrm
    rw [h2] at h4
    obtain ⟨d, hd, h5⟩ := List.mem_map.mp h4
    obtain ⟨d, -, rfl⟩ := List.mem_map.mp hd
    have h6 := congrArg (fun x => x.2.2) h5
    simp only [Drawable.ofDet, Option.map_none, Palette.choose, Option.some.injEq] at h6
    exact h6.symm
  · have h4 := congrArg (List.map fun x => x.1) h3
    rw [List.map_map, List.map_map, List.filter_map] at h4
    have hbt : ∀ d ∈ dets, buildText env.str env.fmt (Drawable.ofDet lab d) a.drawLabels a.drawIds a.drawScores =
        ['-'].intercalate
        (((if a.drawLabels then ((lab d.label).map env.str).toList else []) ++
          (if a.drawScores then (d.scores.map env.fmt).toList else [])).filter (· ≠ [])) := by
      intro d hd
      rw [C54_text _ _ _ _ _ _ (by simp [Drawable.ofDet]) (hs d hd)]
      simp [textParts, Drawable.ofDet]
    rw [List.filter_map]
    refine Eq.trans ?_ (h4.trans ?_)
    · rfl
    · rw [List.map_map]
      rw [List.filter_congr (q := ((fun x : List Char => decide (x ≠ [])) ∘ fun d : Det K L X => ['-'].intercalate
        (((if a.drawLabels then ((lab d.label).map env.str).toList else []) ++
          (if a.drawScores then (d.scores.map env.fmt).toList else [])).filter (· ≠ []))))]
      · refine List.map_congr_left fun d hd => ?_
        exact hbt d (List.mem_of_mem_filter hd)
      · intro d hd
        simp only [Function.comp, hbt d hd]

end

/-- two detections of boxes in a frame of a camera that moved: their absolute points are not drawn -/
def drawnDets : List (Det ℚ Nat Unit) :=
  [⟨⟨2, 2, [1, 2, 5, 13/2]⟩, some [1/2, 1/2], 0, (), ⟨2, 2, [101, 2, 105, 13/2]⟩, none⟩,
   ⟨⟨2, 2, [-3/2, 2, 7, 8]⟩, none, 1, (), ⟨2, 2, [200, 2, 207, 8]⟩, none⟩]

example : (∀ d ∈ drawnDets, d.points.n = 2 ∧ d.points.dim = 2 ∧ d.points.data.length = 4) ∧
    (drawBoxes toyEnv [100, 200, 3] { drawScores := true } (some (drawnDets.map (Drawable.ofDet some)))).map
      rectangles = some [([1, 2], [5, 6], 0, [7, 7, 7]), ([-1, 2], [7, 8], 0, [7, 7, 7])] ∧
    (drawBoxes toyEnv [100, 200, 3] { drawScores := true } (some (drawnDets.map (Drawable.ofDet some)))).map
      (fun c => (texts c).map (·.1)) = some [['s']] ∧
    (drawPoints toyEnv [100, 200, 3] {} (some (drawnDets.map (Drawable.ofDet some)))).map
      (fun c => c.map circles) =
      some (some [([1, 2], [7, 7, 7]), ([5, 6], [7, 7, 7]), ([-1, 2], [7, 7, 7]), ([7, 8], [7, 7, 7])]) := by
  refine ⟨by simp [drawnDets], ?_, ?_, ?_⟩ <;>
  decide +kernel

/-- C52: `Palette.set_default_color` raises exactly on a color that cannot be parsed, and then changes nothing;
otherwise from then on the color of `None` is the given one, and the other colors are as before. -/
theorem C52_set_default (p : Palette) (c : ColorLike) :
    ((p.setDefault c).2 = true ↔ parseColor c = none) ∧
    ((p.setDefault c).2 = true → (p.setDefault c).1 = p) ∧
    ((p.setDefault c).2 = false → (p.setDefault c).1.choose none = parseColor c) ∧
    (∀ h, (p.setDefault c).1.choose (some h) = p.choose (some h)) := by
  unfold Palette.setDefault
  cases h : parseColor c <;> simp [Palette.choose]

example : (Palette.initial.setDefault (.str "red".toList)).1.choose none = some [0, 0, 255] ∧
    (Palette.initial.setDefault (.str "reed".toList)).2 = true := by
  decide +kernel

end Norfair.Props
