import Verif.Model.Video
import Verif.Props.FixedCamera
import Mathlib.Data.Rat.Floor

/-!
C63: `get_cutout`.
-/

namespace Norfair.Props

open Norfair

variable {K Px : Type}

section
variable [LinearOrder K]

theorem foldl_max_spec (xs : List K) (x : K) :
    (∀ y ∈ x :: xs, y ≤ xs.foldl max x) ∧ xs.foldl max x ∈ x :: xs := by
  induction xs generalizing x with
  | nil => simp
  | cons a xs ih =>
    obtain ⟨h1, h2⟩ := ih (max x a)
    rw [List.foldl_cons]
    refine ⟨?_, ?_⟩
    · intro y hy
      rcases List.mem_cons.mp hy with rfl | hy
      · exact (le_max_left _ _).trans (h1 _ (List.mem_cons_self ..))
      · rcases List.mem_cons.mp hy with rfl | hy
        · exact (le_max_right _ _).trans (h1 _ (List.mem_cons_self ..))
        · exact h1 y (List.mem_cons_of_mem _ hy)
    · rcases List.mem_cons.mp h2 with h | h
      · rw [h]
        rcases max_choice x a with h | h <;> rw [h] <;> simp
      · exact List.mem_cons_of_mem _ (List.mem_cons_of_mem _ h)

theorem listMax_spec {l : List K} (h : l ≠ []) : ∃ m, listMax l = some m ∧ m ∈ l ∧ ∀ y ∈ l, y ≤ m := by
  cases l with
  | nil => exact absurd rfl h
  | cons x xs => exact ⟨_, rfl, (foldl_max_spec xs x).2, (foldl_max_spec xs x).1⟩

theorem listMin_spec {l : List K} (h : l ≠ []) : ∃ m, listMin l = some m ∧ m ∈ l ∧ ∀ y ∈ l, m ≤ y := by
  cases l with
  | nil => exact absurd rfl h
  | cons x xs =>
    exact ⟨_, rfl, (foldl_max_spec (K := Kᵒᵈ) xs x).2, (foldl_max_spec (K := Kᵒᵈ) xs x).1⟩

end

theorem column_eq [Zero K] (k : Nat) (points : List (List K)) (h : ∀ p ∈ points, k < p.length) :
    column k points = some (points.map fun p => p.getD k 0) := by
  induction points with
  | nil => rfl
  | cons p ps ih =>
    have h1 : p[k]? = some (p.getD k 0) := by
      have hk := h p (List.mem_cons_self ..)
      rw [List.getD_eq_getElem?_getD, List.getElem?_eq_getElem hk]; rfl
    have h2 := ih fun q hq => h q (List.mem_cons_of_mem _ hq)
    unfold column at h2 ⊢
    rw [List.mapM_cons, h1, h2]
    rfl

section
variable [Field K] [LinearOrder K] [IsStrictOrderedRing K] [FloorRing K]

theorem truncInt_nonneg {x : K} (h : -1 < x) : 0 ≤ truncInt x := by
  unfold truncInt
  split
  · rename_i h0; exact Int.floor_nonneg.mpr h0
  · have : (-1 : ℤ) < ⌈x⌉ := Int.lt_ceil.mpr (by simpa using h)
    omega

theorem truncInt_le_iff {x : K} (y : Nat) : truncInt x ≤ (y : ℤ) ↔ x < y + 1 := by
  unfold truncInt
  split
  · rw [← Int.lt_add_one_iff, Int.floor_lt]; push_cast; rfl
  · rename_i h0
    have hx : x < 0 := not_le.mp h0
    constructor
    · intro _; exact lt_of_lt_of_le hx (by positivity)
    · intro _; exact Int.ceil_le.mpr (by push_cast; exact hx.le.trans (by positivity))

theorem lt_truncInt_iff {x : K} (y : Nat) : (y : ℤ) < truncInt x ↔ (y : K) + 1 ≤ x := by
  rw [← not_le, truncInt_le_iff, not_lt]

/-- one direction of the image: the slice between the smallest and the largest coordinate -/
theorem slice_range (n : Nat) (l : List K) (lo hi : K) (hlo : lo ∈ l) (hhi : hi ∈ l) (hmin : ∀ y ∈ l, lo ≤ y)
    (hmax : ∀ y ∈ l, y ≤ hi) (hneg : ∀ y ∈ l, -1 < y) (y : Nat) :
    (sliceLimit n (truncInt lo) ≤ y ∧
      y < sliceLimit n (truncInt lo) + (sliceLimit n (truncInt hi) - sliceLimit n (truncInt lo))) ↔
    (y < n ∧ (∃ a ∈ l, a < y + 1) ∧ ∃ b ∈ l, (y : K) + 1 ≤ b) := by
  have h1 : (∃ a ∈ l, a < (y : K) + 1) ↔ truncInt lo ≤ (y : ℤ) := by
    rw [truncInt_le_iff]
    exact ⟨fun ⟨a, ha, h⟩ => (hmin a ha).trans_lt h, fun h => ⟨lo, hlo, h⟩⟩
  have h2 : (∃ b ∈ l, (y : K) + 1 ≤ b) ↔ (y : ℤ) < truncInt hi := by
    rw [lt_truncInt_iff]
    exact ⟨fun ⟨a, ha, h⟩ => h.trans (hmax a ha), fun h => ⟨hi, hhi, h⟩⟩
  have p1 := truncInt_nonneg (hneg lo hlo)
  have p2 := truncInt_nonneg (hneg hi hhi)
  rw [h1, h2, sliceLimit_nonneg p1, sliceLimit_nonneg p2]
  omega

/-- C63: For points none of whose coordinates is -1 or less, `get_cutout` does not raise, and the result is a
rectangle of the image. A pixel, which takes the place from `x` to `x + 1` and from `y` to `y + 1`, is in it exactly
if some point is before its end and some point is at its end or after it, in both directions. Missing for the full
claim: negative coordinates, see `C63_negative`. -/
theorem C63_pixels_partial (points : List (List K)) (image : Image Px) (hne : points ≠ [])
    (hlen : ∀ p ∈ points, 2 ≤ p.length) (hx : ∀ p ∈ points, -1 < p.getD 0 0) (hy : ∀ p ∈ points, -1 < p.getD 1 0) :
    ∃ r y0 x0, getCutout points image = some r ∧ (∀ i j, r.px i j = image.px (y0 + i) (x0 + j)) ∧
      ∀ y x, ((y0 ≤ y ∧ y < y0 + r.h) ∧ (x0 ≤ x ∧ x < x0 + r.w)) ↔
        ((y < image.h ∧ (∃ p ∈ points, p.getD 1 0 < (y : K) + 1) ∧ ∃ p ∈ points, (y : K) + 1 ≤ p.getD 1 0) ∧
         (x < image.w ∧ (∃ p ∈ points, p.getD 0 0 < (x : K) + 1) ∧ ∃ p ∈ points, (x : K) + 1 ≤ p.getD 0 0)) := by
  have hcx := column_eq 0 points fun p hp => by have := hlen p hp; omega
  have hcy := column_eq 1 points fun p hp => by have := hlen p hp; omega
  have hnx : (points.map fun p => p.getD 0 0) ≠ [] := by simpa using hne
  have hny : (points.map fun p => p.getD 1 0) ≠ [] := by simpa using hne
  obtain ⟨ax, ha1, ha2, ha3⟩ := listMax_spec hnx
  obtain ⟨ix, hi1, hi2, hi3⟩ := listMin_spec hnx
  obtain ⟨ay, hb1, hb2, hb3⟩ := listMax_spec hny
  obtain ⟨iy, hj1, hj2, hj3⟩ := listMin_spec hny
  refine ⟨image.slice (truncInt iy) (truncInt ay) (truncInt ix) (truncInt ax), sliceLimit image.h (truncInt iy),
    sliceLimit image.w (truncInt ix), ?_, fun _ _ => rfl, ?_⟩
  · unfold getCutout
    rw [hcx, hcy]
    simp only [Option.bind_eq_bind, Option.bind_some, ha1, hi1, hb1, hj1]
    rfl
  · intro y x
    have ey := slice_range image.h _ iy ay hj2 hb2 hj3 hb3 (by simpa using hy) y
    have ex := slice_range image.w _ ix ax hi2 ha2 hi3 ha3 (by simpa using hx) x
    simp only [List.mem_map, exists_exists_and_eq_and] at ey ex
    exact and_congr ey ex

end

/-- C63: without points it raises -/
theorem C63_empty [Ring K] [LinearOrder K] [FloorRing K] (image : Image Px) :
    getCutout ([] : List (List K)) image = none := rfl

/-- the image with the pixel `(y, x)` at row `y` and column `x` -/
def coordImage (h w : Nat) : Image (Nat × Nat) := ⟨h, w, fun y x => (y, x)⟩

/-- C63: Negative coordinates count from the other end of the image: of a rectangle that lies outside the image, above
and to the left of it, the opposite corner is returned; of one that is half in the image nothing is returned. -/
theorem C63_negative :
    ((getCutout [[(-4 : ℚ), 0], [4, 4]] (coordImage 10 10)).map fun r => (r.h, r.w)) = some (4, 0) ∧
    ((getCutout [[(-3 : ℚ), -3], [-1, -1]] (coordImage 10 10)).map
      fun r => (r.h, r.w, r.px 0 0)) = some (2, 2, (7, 7)) := by
  refine ⟨?_, ?_⟩ <;> decide +kernel

/-- C63_pixels_partial: hypotheses hold and the rectangle is not empty -/
example : ((getCutout [[(3/2 : ℚ), 2], [5, 17]] (coordImage 10 10)).map fun r => (r.h, r.w, r.px 0 0)) =
    some (8, 4, (2, 1)) := by
  decide +kernel

end Norfair.Props
