import Verif.Props.TextSize
import Verif.Props.Deprecated

/-!
Place of the texts and size of the circles of `draw_points` (C90).
-/

set_option linter.unusedSectionVars false

namespace Norfair.Props

open Norfair Norfair.Spec

variable {K H : Type} [Field K] [LinearOrder K] [IsStrictOrderedRing K] [FloorRing K]

/-- the live points of an object -/
def livePoints (d : Drawable K H) : List (List K) :=
  (List.range d.points.length).filterMap fun i => if d.live[i]? = some true then d.points[i]? else none

/-- the text of the object is placed at the middle of its live points, moved by `r` to the left and up, in whole
pixels (towards 0); `none` (NaN) if there are no live points -/
def PlacedAtMiddle (r : ℤ) (d : Drawable K H) (pos : Option (List ℤ)) : Prop :=
  (livePoints d = [] → pos = none) ∧
  (livePoints d ≠ [] → ∃ p : List ℤ, pos = some p ∧ p.length = (d.points.headD []).length ∧
    ∀ j < p.length, ∃ x : K, p[j]? = some (truncInt (x - r)) ∧
      x * (livePoints d).length = ((livePoints d).map fun q => q.getD j 0).sum)

/-- the radius that is given, else the nearest integer to 2/1000 of the longest side of the frame, or to 1 -/
def RadiusOf (shape : List Nat) (radius : Option ℤ) (r : ℤ) : Prop :=
  radius = some r ∨ radius = none ∧ 1 ≤ r ∧
    |(r : K) - max (((shape.foldl max 0 : Nat) : K) / 500) 1| ≤ 1 / 2

theorem around_near (x : K) : |(around x : K) - x| ≤ 1 / 2 := by
  have h1 := Int.floor_add_fract x
  have h2 := Int.fract_nonneg x
  have h3 := Int.fract_lt_one x
  unfold around
  simp only
  rw [abs_le]
  split
  · constructor <;> push_cast <;> linarith
  · split
    · constructor <;> push_cast <;> linarith
    · split <;> constructor <;> push_cast <;> linarith

theorem livePoints_eq (d : Drawable K H) : maskRows d.points d.live = livePoints d := by
  have := zip_live (fun p : List K => p) d.points d.live
  unfold maskRows livePoints
  rw [this]
  apply List.filterMap_congr
  intro i _
  split <;> simp

theorem placed (r : ℤ) (d : Drawable K H) : PlacedAtMiddle r d
    ((meanRows ((d.points.headD []).length) (maskRows d.points d.live)).map
      fun p => p.map fun x => truncInt (x - (r : K))) := by
  rw [livePoints_eq]
  unfold meanRows
  constructor
  · intro h
    rw [h]
    rfl
  · intro h
    have hl : (livePoints d).length ≠ 0 := by simpa using h
    rw [if_neg hl]
    refine ⟨_, rfl, by simp, fun j hj => ?_⟩
    simp only [List.length_map, List.length_range] at hj
    refine ⟨((livePoints d).map fun q => q.getD j 0).sum / (livePoints d).length, ?_, ?_⟩
    · rw [List.getElem?_map, List.getElem?_map, List.getElem?_range hj]
      simp only [Option.map_some]
      rw [← List.sum_eq_foldl]
    · have : ((livePoints d).length : K) ≠ 0 := by exact_mod_cast hl
      field_simp

theorem discs_drawCircles (hide : Bool) (r t : ℤ) (col : Color) (ps : List (List K × Bool)) (c : Canvas K)
    (h : ∀ x ∈ discs c, x.2.1 = r ∧ x.2.2.1 = t) :
    ∀ x ∈ discs (drawCircles hide r t col ps c), x.2.1 = r ∧ x.2.2.1 = t := by
  unfold drawCircles
  induction ps generalizing c with
  | nil => exact h
  | cons p ps ih =>
    rw [List.foldl_cons]
    apply ih
    split
    · intro x hx
      simp only [discs, List.mem_append, List.mem_singleton] at hx
      rcases hx with hx | rfl
      · exact h x hx
      · exact ⟨rfl, rfl⟩
    · exact h

/-- C90: all circles of `draw_points` have the given radius (or one of about 2/1000 of the longest side of the frame,
but at least 1) and the given thickness (or are filled). If labels, ids or scores are to be drawn, there is one text
for each object that is drawn, at the middle of its live points, moved by the radius to the left and up. -/
theorem C90_points_place (env : DrawEnv K H) (shape : List Nat) (a : DrawPointsArgs K) (ds : List (Drawable K H))
    (c : Canvas K) (h : drawPoints env shape a (some ds) = some (some c)) :
    ∃ r : ℤ, RadiusOf (K := K) shape a.radius r ∧
      (∀ x ∈ discs c, x.2.1 = r ∧ (a.thickness = some x.2.2.1 ∨ a.thickness = none ∧ x.2.2.1 = -1)) ∧
      (a.drawLabels = true ∨ a.drawIds = true ∨ a.drawScores = true →
        List.Forall₂ (PlacedAtMiddle r)
          (ds.filter fun d => !a.hideDeadPoints || d.live.contains true) ((texts c).map fun t => t.2.1)) := by
  have key : ∀ color r t tc (ds : List (Drawable K H)) k (c0 c : Canvas K),
      drawPointsLoop env a color r t tc k ds c0 = some c →
      ((∀ x ∈ discs c0, x.2.1 = r ∧ x.2.2.1 = t) → ∀ x ∈ discs c, x.2.1 = r ∧ x.2.2.1 = t) ∧
      ((a.drawLabels || a.drawIds || a.drawScores) = true → ∃ l, (texts c).map (fun t => t.2.1) =
        (texts c0).map (fun t => t.2.1) ++ l ∧ List.Forall₂ (PlacedAtMiddle r)
          (ds.filter fun d => !a.hideDeadPoints || d.live.contains true) l) := by
    intro color r t tc ds
    induction ds with
    | nil =>
      intro k c0 c h
      cases h
      exact ⟨fun h => h, fun _ => ⟨[], by simp, .nil⟩⟩
    | cons d ds ih =>
      intro k c0 c h
      rw [drawPointsLoop] at h
      split at h
      · rename_i hd
        obtain ⟨i1, i2⟩ := ih _ _ _ h
        refine ⟨i1, fun hb => ?_⟩
        rw [List.filter_cons, if_neg]
        · exact i2 hb
        · simp only [Bool.and_eq_true, Bool.not_eq_true', List.any_eq_false] at hd
          rw [hd.1]
          simpa using fun hx : true ∈ d.live => hd.2 true hx
      · rename_i hd
        split at h
        · cases h
        · rename_i col _
          simp only at h
          obtain ⟨i1, i2⟩ := ih _ _ _ h
          constructor
          · intro h0
            apply i1
            have e1 : ∀ x ∈ discs (if a.drawPoints = true then
                drawCircles a.hideDeadPoints r t col (d.points.zip d.live) c0 else c0), x.2.1 = r ∧ x.2.2.1 = t := by
              split
              · exact discs_drawCircles _ r t col _ c0 h0
              · exact h0
            split
            · exact e1
            · exact e1
          · intro hb
            obtain ⟨l, hl, hF⟩ := i2 hb
            rw [if_pos hb] at hl
            refine ⟨((meanRows ((d.points.headD []).length) (maskRows d.points d.live)).map
              fun p => p.map fun x => truncInt (x - (r : K))) :: l, ?_, ?_⟩
            rotate_left
            · rw [List.filter_cons, if_pos]
              · exact .cons (placed r d) hF
              · simp only [Bool.and_eq_true, Bool.not_eq_true', not_and, Bool.not_eq_false] at hd
                cases hh : a.hideDeadPoints with
                | false => rfl
                | true => simpa using hd hh
            · rw [hl]
              cases a.drawPoints <;> simp [texts, texts_foldl]
  have hrad : RadiusOf (K := K) shape a.radius
      (a.radius.getD (around (max (((shape.foldl max 0 : Nat) : K) * (2 / 1000)) 1))) := by
    cases a.radius with
    | some r => exact .inl rfl
    | none =>
      right
      have := around_near (max (((shape.foldl max 0 : Nat) : K) * (2 / 1000)) 1)
      rw [show ((shape.foldl max 0 : Nat) : K) * (2 / 1000) = ((shape.foldl max 0 : Nat) : K) / 500 by ring] at this ⊢
      refine ⟨rfl, ?_, this⟩
      rw [Option.getD_none]
      by_contra hlt
      have h1 : around (max (((shape.foldl max 0 : Nat) : K) / 500) 1) ≤ 0 := by omega
      have h2 : ((around (max (((shape.foldl max 0 : Nat) : K) / 500) 1) : ℤ) : K) ≤ 0 := by exact_mod_cast h1
      have h3 := (abs_le.mp this).1
      have h4 := le_max_right (((shape.foldl max 0 : Nat) : K) / 500) 1
      linarith
  unfold drawPoints at h
  simp only at h
  split at h
  · cases h
  · rename_i tc _
    obtain ⟨c', h1, h2⟩ := Option.map_eq_some_iff.mp h
    cases h2
    obtain ⟨k1, k2⟩ := key _ _ _ _ ds 0 .base c h1
    refine ⟨_, hrad, fun x hx => ?_, fun hb => ?_⟩
    · obtain ⟨e1, e2⟩ := k1 (by intro x hx; cases hx) x hx
      refine ⟨e1, ?_⟩
      rw [e2]
      cases a.thickness with
      | none => exact .inr ⟨rfl, rfl⟩
      | some t => exact .inl rfl
    · obtain ⟨l, e1, e2⟩ := k2 (by simpa [or_assoc] using hb)
      rw [e1]
      exact e2

/-- C90_points_place: the middle of the two live points (10, 10) and (30, 40) of an object, moved by the radius 1; an
object without live points is not drawn -/
example :
    let d : Drawable ℚ Nat := ⟨[[10, 10], [500, 20], [30, 40]], some 1, none, none, [true, false, true]⟩
    let e : Drawable ℚ Nat := ⟨[[1, 1]], some 1, none, none, [false]⟩
    let env : DrawEnv ℚ Nat := ⟨fun i => (i : ℤ), fun i => List.replicate i 'i', fun _ => [], Palette.initial, fun _ => 0⟩
    ((drawPoints env [480, 640, 3] {} (some [e, d])).map fun c => c.map fun c =>
      ((texts c).map (fun t => t.2.1), (discs c).map fun x => (x.1, x.2.1))) =
        some (some ([some [19, 24]], [([10, 10], 1), ([30, 40], 1)])) := by decide +kernel

example : PlacedAtMiddle 1 (⟨[[10, 10], [500, 20], [30, 40]], some 1, none, none, [true, false, true]⟩ : Drawable ℚ Nat)
    (some [19, 24]) := by
  refine ⟨fun h => ?_, fun _ => ⟨_, rfl, rfl, fun j hj => ?_⟩⟩
  · revert h; decide +kernel
  · simp only [List.length_cons, List.length_nil] at hj
    interval_cases j
    · exact ⟨20, by decide +kernel, by decide +kernel⟩
    · exact ⟨25, by decide +kernel, by decide +kernel⟩

end Norfair.Props
