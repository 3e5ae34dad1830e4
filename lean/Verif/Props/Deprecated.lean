import Mathlib.Algebra.Order.Floor.Semifield
import Verif.Props.Drawing

/-! C79: the deprecated drawing functions. -/

set_option linter.unusedSectionVars false

namespace Norfair.Props

open Norfair Norfair.Spec

variable {K H : Type} [Field K] [LinearOrder K] [FloorRing K]

/-- the circles do not depend on the arguments for texts -/
theorem drawPointsLoop_circles (env : DrawEnv K H) (a b : DrawPointsArgs K) (color : ColorLike)
    (r t : ℤ) (tc : Option Color) (r' t' : ℤ) (tc' : Option Color) (hh : a.hideDeadPoints = b.hideDeadPoints)
    (hp : a.drawPoints = b.drawPoints) (ds : List (Drawable K H)) :
    ∀ (k : Nat) (c c' : Canvas K), circles c = circles c' →
      (drawPointsLoop env a color r t tc k ds c).map circles =
        (drawPointsLoop env b color r' t' tc' k ds c').map circles := by
  induction ds with
  | nil =>
    intro k c c' h
    simp only [drawPointsLoop, Option.map_some, h]
  | cons d ds ih =>
    intro k c c' h
    have h1 := drawPointsLoop_cons env a color r t tc k d ds c
    have h2 := drawPointsLoop_cons env b color r' t' tc' k d ds c'
    rw [← hh] at h2
    by_cases hd : a.hideDeadPoints = true ∧ ∀ x ∈ d.live, x = false
    · rw [h1.1 hd.1 hd.2, h2.1 hd.1 hd.2]
      exact ih k c c' h
    · cases ho : objColor env color d k with
      | none => rw [(h1.2 hd).1 ho, (h2.2 hd).1 ho]
      | some col =>
        obtain ⟨c1, e1, e2, -⟩ := (h1.2 hd).2 col ho
        obtain ⟨c2, f1, f2, -⟩ := (h2.2 hd).2 col ho
        rw [e1, f1]
        refine ih (k + 1) c1 c2 ?_
        rw [e2, f2, h, hp]

/-- the rectangles do not depend on the arguments for texts -/
theorem drawBoxesLoop_rectangles (env : DrawEnv K H) (a b : DrawBoxesArgs K) (color : ColorLike) (t : ℤ)
    (tc tc' : Option Color) (hb : a.drawBox = b.drawBox) (ds : List (Drawable K H))
    (hbox : ∀ d ∈ ds, ∃ x0 y0 x1 y1, d.points = [[x0, y0], [x1, y1]]) :
    ∀ (k : Nat) (c c' : Canvas K), rectangles c = rectangles c' →
      (drawBoxesLoop env a color t tc k ds c).map rectangles =
        (drawBoxesLoop env b color t tc' k ds c').map rectangles := by
  induction ds with
  | nil =>
    intro k c c' h
    simp only [drawBoxesLoop, Option.map_some, h]
  | cons d ds ih =>
    intro k c c' h
    obtain ⟨x0, y0, x1, y1, hd⟩ := hbox d List.mem_cons_self
    cases ho : objColor env color d k with
    | none => simp only [drawBoxesLoop, ho]
    | some col =>
      obtain ⟨c1, e1, e2, -⟩ := drawBoxesLoop_cons env a color t tc k d ds c x0 y0 x1 y1 hd col ho
      obtain ⟨c2, f1, f2, -⟩ := drawBoxesLoop_cons env b color t tc' k d ds c' x0 y0 x1 y1 hd col ho
      rw [e1, f1]
      refine ih (fun d hd => hbox d (List.mem_cons_of_mem _ hd)) (k + 1) c1 c2 ?_
      rw [e2, f2, h, hb]

/-- **C79**: `draw_tracked_objects` draws the circles that `draw_points` draws with the same color, whatever
is said about radius, sizes and texts, and raises when `draw_points` does. -/
theorem C79_points (env : DrawEnv K H) (shape : List Nat) (ds : Option (List (Drawable K H)))
    (radius : Option ℤ) (color : Option ColorLike) (idSize : Option K) (drawPts byLabel drawLabels : Bool)
    (idThickness : Option ℤ) (labelSize : Option K) :
    (drawTrackedObjects env shape ds radius color idSize drawPts byLabel drawLabels idThickness labelSize).map
        (fun r => r.map circles) =
      (drawPoints env shape
        { color := if byLabel then some (.str "by_label".toList) else color
          drawPoints := drawPts } ds).map (fun r => r.map circles) := by
  unfold drawTrackedObjects drawPoints
  cases ds with
  | none => rfl
  | some ds =>
    simp only [Option.map_map]
    have key := fun a b color r t r' t' hh hp => drawPointsLoop_circles env a b color r t none r' t' none
      hh hp ds 0 .base .base rfl
    have := fun a b color r t r' t' hh hp => congrArg (Option.map some) (key a b color r t r' t' hh hp)
    simp only [Option.map_map] at this
    exact this _ _ _ _ _ _ _ rfl rfl

/-- **C79**: for boxes, `draw_tracked_boxes` draws the rectangles that `draw_boxes` draws with the same color
and thickness, whatever is said about texts, and raises when `draw_boxes` does. -/
theorem C79_boxes (env : DrawEnv K H) (shape : List Nat) (ds : List (Drawable K H))
    (hbox : ∀ d ∈ ds, ∃ x0 y0 x1 y1, d.points = [[x0, y0], [x1, y1]])
    (color : Option ColorLike) (width : Option ℤ) (idSize : Option K) (drawBox byLabel drawLabels : Bool)
    (idThickness : Option ℤ) (labelSize : Option K) (labelWidth : Option ℤ) :
    (drawTrackedBoxes env shape (some ds) color width idSize drawBox byLabel drawLabels idThickness labelSize
        labelWidth).map rectangles =
      (drawBoxes env shape
        { color := if byLabel then some (.str "by_label".toList) else color
          thickness := width
          drawBox := drawBox } (some ds)).map rectangles := by
  unfold drawTrackedBoxes drawBoxes
  exact drawBoxesLoop_rectangles env _ _ _ _ _ _ (by rfl) ds hbox 0 .base .base rfl

theorem drawBoxesLoop_noText (env : DrawEnv K H) (a : DrawBoxesArgs K) (color : ColorLike) (t : ℤ)
    (tc : Option Color) (hl : a.drawLabels = false) (hi : a.drawIds = false) (hs : a.drawScores = false)
    (ds : List (Drawable K H)) : ∀ (k : Nat) (c0 c : Canvas K),
      drawBoxesLoop env a color t tc k ds c0 = some c → texts c = texts c0 := by
  induction ds with
  | nil => intro k c0 c h; cases h; rfl
  | cons d ds ih =>
    intro k c0 c h
    have ht : buildText env.str env.fmt d a.drawLabels a.drawIds a.drawScores = [] := by
      rw [hl, hi, hs]; rfl
    rw [drawBoxesLoop] at h
    simp only [ht, if_true] at h
    cases ho : objColor env color d k with
    | none => rw [ho] at h; cases h
    | some col =>
      rw [ho] at h
      cases hb : a.drawBox with
      | false => simp only [hb] at h; exact ih _ _ _ h
      | true =>
        simp only [hb, if_true] at h
        split at h
        · cases h
        · rename_i c1 hc1
          rw [ih _ _ _ h]
          split at hc1
          · cases hc1; rfl
          · cases hc1

/-- **C79**: `draw_tracked_boxes` writes nothing unless labels are asked for or `id_size` is given and
positive. In particular it does not write ids by default, unlike `draw_boxes`. -/
theorem C79_no_ids (env : DrawEnv K H) (shape : List Nat) (ds : Option (List (Drawable K H)))
    (color : Option ColorLike) (width : Option ℤ) (idSize : Option K) (hid : ∀ s, idSize = some s → s ≤ 0)
    (drawBox byLabel : Bool) (idThickness : Option ℤ) (labelSize : Option K) (labelWidth : Option ℤ)
    (c : Canvas K)
    (h : drawTrackedBoxes env shape ds color width idSize drawBox byLabel false idThickness labelSize
      labelWidth = some c) : texts c = [] := by
  unfold drawTrackedBoxes drawBoxes at h
  cases ds with
  | none => cases h; rfl
  | some ds =>
    exact drawBoxesLoop_noText env _ _ _ _ rfl (by
      cases idSize with
      | none => rfl
      | some s => simpa using hid s rfl) rfl ds _ _ _ h

/-- the circles on a picture with radius and thickness, in the order in which they were drawn -/
def discs : Canvas K → List (List ℤ × ℤ × ℤ × Color)
  | .base => []
  | .black => []
  | .scaled c _ => discs c
  | .circle c p r t col => discs c ++ [(p, r, t, col)]
  | .line c _ _ _ _ => discs c
  | .rectangle c _ _ _ _ => discs c
  | .text c _ _ _ _ _ => discs c
  | .blend a b _ _ => discs b ++ discs a

theorem drawCircles_discs (hide : Bool) (r t : ℤ) (col : Color) (ps : List (List K × Bool)) :
    ∀ c c' : Canvas K, discs c = discs c' → texts c = texts c' →
      discs (drawCircles hide r t col ps c) = discs (drawCircles hide r t col ps c') ∧
      texts (drawCircles hide r t col ps c) = texts (drawCircles hide r t col ps c') := by
  unfold drawCircles
  induction ps with
  | nil => exact fun c c' h h' => ⟨h, h'⟩
  | cons p ps ih =>
    intro c c' h h'
    simp only [List.foldl_cons]
    split
    · exact ih _ _ (by simp only [discs, h]) (by simp only [texts, h'])
    · exact ih _ _ h h'

/-- circles and texts do not depend on the size and thickness of texts -/
theorem drawPointsLoop_sizes (env : DrawEnv K H) (a b : DrawPointsArgs K) (color : ColorLike) (r t : ℤ)
    (tc : Option Color) (hh : a.hideDeadPoints = b.hideDeadPoints) (hp : a.drawPoints = b.drawPoints)
    (hl : a.drawLabels = b.drawLabels) (hi : a.drawIds = b.drawIds) (hs : a.drawScores = b.drawScores)
    (ds : List (Drawable K H)) :
    ∀ (k : Nat) (c c' : Canvas K), discs c = discs c' → texts c = texts c' →
      (drawPointsLoop env a color r t tc k ds c).map (fun c => (discs c, texts c)) =
        (drawPointsLoop env b color r t tc k ds c').map (fun c => (discs c, texts c)) := by
  induction ds with
  | nil => intro k c c' h h'; simp only [drawPointsLoop, Option.map_some, h, h']
  | cons d ds ih =>
    intro k c c' h h'
    unfold drawPointsLoop
    rw [hh, hp, hl, hi, hs]
    split
    · exact ih k c c' h h'
    · split
      · rfl
      · dsimp only
        rename_i col _
        have h2 : discs (if b.drawPoints = true then
              drawCircles b.hideDeadPoints r t col (d.points.zip d.live) c else c) =
            discs (if b.drawPoints = true then
              drawCircles b.hideDeadPoints r t col (d.points.zip d.live) c' else c') ∧
            texts (if b.drawPoints = true then
              drawCircles b.hideDeadPoints r t col (d.points.zip d.live) c else c) =
            texts (if b.drawPoints = true then
              drawCircles b.hideDeadPoints r t col (d.points.zip d.live) c' else c') := by
          split
          · exact drawCircles_discs _ _ _ _ _ _ _ h h'
          · exact ⟨h, h'⟩
        split
        · exact ih _ _ _ (by simp only [discs, h2.1]) (by simp only [texts, h2.2])
        · exact ih _ _ _ h2.1 h2.2

/-- **C79**: `draw_tracked_objects` draws the circles, with radius and thickness, and writes the texts, with place
and color, that `draw_points` does with the same color, the given radius or half of a percent of the height of the
frame, the same `draw_labels`, without scores, and with ids if `id_size` is positive or (without `id_size`) the frame
is not empty. Only size and thickness of the texts may be different. -/
theorem C79_points_texts [IsStrictOrderedRing K] (env : DrawEnv K H) (h : Nat) (rest : List Nat)
    (ds : Option (List (Drawable K H)))
    (radius : Option ℤ) (color : Option ColorLike) (idSize : Option K) (drawPts byLabel drawLabels : Bool)
    (idThickness : Option ℤ) (labelSize : Option K) (ids : Bool)
    (hids : ids = true ↔ (∃ s, idSize = some s ∧ 0 < s) ∨ idSize = none ∧ 0 < h) :
    (drawTrackedObjects env (h :: rest) ds radius color idSize drawPts byLabel drawLabels idThickness labelSize).map
        (fun r => r.map fun c => (discs c, texts c)) =
      (drawPoints env (h :: rest)
        { radius := some (radius.getD (h / 200 : Nat))
          color := if byLabel then some (.str "by_label".toList) else color
          drawLabels := drawLabels
          drawIds := ids
          drawPoints := drawPts } ds).map (fun r => r.map fun c => (discs c, texts c)) := by
  have hr : truncInt (((h : Nat) : K) / 100 * (1 / 2)) = ((h / 200 : Nat) : ℤ) := by
    have e : ((h : Nat) : K) / 100 * (1 / 2) = (h : K) / (200 : Nat) := by push_cast; ring
    rw [e]
    unfold truncInt
    rw [if_pos (by positivity), ← Nat.floor_div_eq_div (K := K), Int.natCast_floor_eq_floor (by positivity)]
  have hi : decide (0 < idSize.getD (((h : Nat) : K) / 100 / 10)) = ids := by
    rw [Bool.eq_iff_iff, hids, decide_eq_true_iff]
    cases idSize with
    | none =>
      simp only [Option.getD_none, reduceCtorEq, false_and, exists_false, true_and, false_or]
      constructor
      · intro h0
        by_contra hn
        have : h = 0 := by omega
        rw [this] at h0
        simp at h0
      · intro h0
        have : (0 : K) < h := by exact_mod_cast h0
        positivity
    | some s => simp
  unfold drawTrackedObjects drawPoints
  cases ds with
  | none => rfl
  | some ds =>
    have e : ∀ x : Option (Canvas K), (x.map some).map (fun r => r.map fun c => (discs c, texts c)) =
        (x.map fun c => (discs c, texts c)).map some := by
      intro x; cases x <;> rfl
    dsimp only
    rw [e, e]
    simp only [List.headD_cons, Option.getD_some, hr]
    refine congrArg (Option.map some) (drawPointsLoop_sizes env _ _ _ _ _ none ?_ ?_ ?_ ?_ ?_ ds 0 .base .base rfl rfl)
    exacts [rfl, rfl, rfl, hi, rfl]

/-- texts and rectangles of boxes do not depend on the size and thickness of texts -/
theorem drawBoxesLoop_sizes (env : DrawEnv K H) (a b : DrawBoxesArgs K) (color : ColorLike) (t : ℤ)
    (tc : Option Color) (hb : a.drawBox = b.drawBox) (hl : a.drawLabels = b.drawLabels)
    (hi : a.drawIds = b.drawIds) (hs : a.drawScores = b.drawScores) (ds : List (Drawable K H))
    (hbox : ∀ d ∈ ds, ∃ x0 y0 x1 y1, d.points = [[x0, y0], [x1, y1]]) :
    ∀ (k : Nat) (c c' : Canvas K), texts c = texts c' →
      (drawBoxesLoop env a color t tc k ds c).map texts = (drawBoxesLoop env b color t tc k ds c').map texts := by
  induction ds with
  | nil => intro k c c' h; simp only [drawBoxesLoop, Option.map_some, h]
  | cons d ds ih =>
    intro k c c' h
    obtain ⟨x0, y0, x1, y1, hd⟩ := hbox d List.mem_cons_self
    cases ho : objColor env color d k with
    | none => simp only [drawBoxesLoop, ho]
    | some col =>
      obtain ⟨c1, e1, -, e2⟩ := drawBoxesLoop_cons env a color t tc k d ds c x0 y0 x1 y1 hd col ho
      obtain ⟨c2, f1, -, f2⟩ := drawBoxesLoop_cons env b color t tc k d ds c' x0 y0 x1 y1 hd col ho
      rw [e1, f1]
      refine ih (fun d hd => hbox d (List.mem_cons_of_mem _ hd)) (k + 1) c1 c2 ?_
      rw [e2, f2, h, hl, hi, hs]

/-- **C79**: for boxes, `draw_tracked_boxes` writes the texts, with place and color, that `draw_boxes` writes with
the same color and thickness, the same `draw_labels`, without scores, and with ids if `id_size` is given and
positive. -/
theorem C79_boxes_texts (env : DrawEnv K H) (shape : List Nat) (ds : List (Drawable K H))
    (hbox : ∀ d ∈ ds, ∃ x0 y0 x1 y1, d.points = [[x0, y0], [x1, y1]])
    (color : Option ColorLike) (width : Option ℤ) (idSize : Option K) (drawBox byLabel drawLabels : Bool)
    (idThickness : Option ℤ) (labelSize : Option K) (labelWidth : Option ℤ) (ids : Bool)
    (hids : ids = true ↔ ∃ s, idSize = some s ∧ 0 < s) :
    (drawTrackedBoxes env shape (some ds) color width idSize drawBox byLabel drawLabels idThickness labelSize
        labelWidth).map texts =
      (drawBoxes env shape
        { color := if byLabel then some (.str "by_label".toList) else color
          thickness := width
          drawLabels := drawLabels
          drawIds := ids
          drawBox := drawBox } (some ds)).map texts := by
  unfold drawTrackedBoxes drawBoxes
  refine drawBoxesLoop_sizes env _ _ _ _ _ ?_ ?_ ?_ ?_ ds hbox 0 .base .base rfl
  · rfl
  · rfl
  · rw [Bool.eq_iff_iff]
    refine Iff.trans ?_ hids.symm
    cases idSize <;> simp
  · rfl

/-- a box with id 7 -/
def dBox : Drawable ℚ Nat := ⟨[[10, 10], [30, 40]], some 7, none, none, [true, true]⟩

def dEnv : DrawEnv ℚ Nat := ⟨fun i => i, fun i => List.replicate i 'i', fun _ => [], Palette.initial, fun _ => 0⟩

/-- By default `draw_boxes` writes the id of this box and `draw_tracked_boxes` does not; both draw it. -/
theorem C79_ids_missing :
    (drawBoxes dEnv [480, 640, 3] {} (some [dBox])).map (fun c => ((rectangles c).length, (texts c).length)) =
      some (1, 1) ∧
    (drawTrackedBoxes dEnv [480, 640, 3] (some [dBox])).map
      (fun c => ((rectangles c).length, (texts c).length)) = some (1, 0) := by
  decide +kernel

/-- this box meets the hypothesis of `C79_boxes`; both functions for points draw its two points -/
example : (∀ d ∈ [dBox], ∃ x0 y0 x1 y1, d.points = [[x0, y0], [x1, y1]]) ∧
    (drawTrackedObjects dEnv [480, 640, 3] (some [dBox])).map (fun r => r.map fun c =>
      ((circles c).map (·.1), (texts c).length)) = some (some ([[10, 10], [30, 40]], 1)) := by
  refine ⟨?_, by decide +kernel⟩
  simp [dBox]

/-- C79_points_texts, C79_boxes_texts: with `id_size` 0 no ids, with 1 ids -/
example : (drawTrackedObjects dEnv [480, 640, 3] (some [dBox]) (idSize := some 0)).map (fun r => r.map fun c =>
      ((discs c).map fun x => (x.1, x.2.1, x.2.2.1), (texts c).length)) =
        some (some ([([10, 10], 2, -1), ([30, 40], 2, -1)], 0)) ∧
    (drawTrackedObjects dEnv [480, 640, 3] (some [dBox]) (idSize := some 1)).map (fun r => r.map fun c =>
      (texts c).map (·.1)) = some (some [List.replicate 7 'i']) ∧
    (drawTrackedBoxes dEnv [480, 640, 3] (some [dBox]) (idSize := some 1)).map (fun c => (texts c).map (·.1)) =
      some [List.replicate 7 'i'] := by
  refine ⟨?_, ?_, ?_⟩ <;> decide +kernel

end Norfair.Props
