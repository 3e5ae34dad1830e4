import Verif.Model.Grid
import Mathlib.Tactic.Ring
import Mathlib.Tactic.FieldSimp
import Mathlib.Tactic.Linarith
import Mathlib.Data.List.Range

/-! C77: the points of the absolute grid. -/

namespace Norfair

namespace Spec

/-- middle of the `i`-th of `size` equal parts of the half circle from `-pi/2` to `pi/2` -/
noncomputable def midAngle (size i : Nat) : ℝ := Real.pi * (2 * (i : ℝ) + 1 - (size : ℝ)) / (2 * (size : ℝ))

/-- The point `(x, y)` of an image of width `w` and height `h` is where one sees the point `(a, b, c)` of
the unit sphere, from its center, on a plane at distance `m` in front of it, with the image centered. -/
def SeenAt (w h : Nat) (m : ℝ) (a b c : ℝ) (p : ℝ × ℝ) : Prop :=
  a ^ 2 + b ^ 2 + c ^ 2 = 1 ∧ ∃ t : ℝ, 0 < t ∧
    p.1 - ((w / 2 : Nat) : ℝ) = t * a ∧ p.2 - ((h / 2 : Nat) : ℝ) = t * b ∧ m = t * c

end Spec

open Spec

theorem gridAngles_eq (size : Nat) (hs : 0 < size) :
    gridAngles size = (List.range size).map (midAngle size) := by
  have hpi := Real.pi_pos
  have hs' : (0 : ℝ) < size := by exact_mod_cast hs
  have hlen : (Real.pi / 2 - (-Real.pi / 2 + Real.pi / (size : ℝ) / 2)) / (Real.pi / (size : ℝ)) =
      (size : ℝ) - 1 / 2 := by
    field_simp
    ring
  have hceil : ⌈(size : ℝ) - 1 / 2⌉₊ = size := by
    rw [Nat.ceil_eq_iff (by omega)]
    constructor
    · rw [Nat.cast_sub (by omega : 1 ≤ size)]; push_cast; linarith
    · linarith
  unfold gridAngles mgridAxis
  simp only [hlen, hceil]
  refine List.map_congr_left fun i _ => ?_
  unfold midAngle
  field_simp
  ring

theorem midAngle_mem {size i : Nat} (h : i < size) :
    -(Real.pi / 2) < midAngle size i ∧ midAngle size i < Real.pi / 2 := by
  have hpi := Real.pi_pos
  have hs' : (0 : ℝ) < size := by exact_mod_cast (by omega : 0 < size)
  have hi : (i : ℝ) + 1 ≤ size := by exact_mod_cast h
  have hi0 : (0 : ℝ) ≤ i := Nat.cast_nonneg i
  unfold midAngle
  constructor
  · rw [lt_div_iff₀ (by positivity)]; nlinarith
  · rw [div_lt_iff₀ (by positivity)]; nlinarith

theorem midAngle_neg {size i : Nat} (h : i < size) : midAngle size (size - 1 - i) = -midAngle size i := by
  unfold midAngle
  have : ((size - 1 - i : Nat) : ℝ) = (size : ℝ) - 1 - i := by
    rw [Nat.cast_sub (by omega), Nat.cast_sub (by omega)]; push_cast; ring
  rw [this]
  ring

theorem midAngle_inj {size i j : Nat} (hs : 0 < size) (h : midAngle size i = midAngle size j) : i = j := by
  have hs' : (0 : ℝ) < size := by exact_mod_cast hs
  have hpi := Real.pi_pos
  unfold midAngle at h
  rw [div_left_inj' (by positivity)] at h
  have := mul_left_cancel₀ (ne_of_gt hpi) h
  have h2 : (i : ℝ) = j := by linarith
  exact_mod_cast h2

/-- a point of the grid, scaled and centered -/
noncomputable def gridAt (size w h : Nat) (polar : Bool) (i j : Nat) : ℝ × ℝ :=
  ((gridPoint polar (midAngle size i) (midAngle size j)).1 * ((max h w : Nat) : ℝ) + ((w / 2 : Nat) : ℝ),
    (gridPoint polar (midAngle size i) (midAngle size j)).2 * ((max h w : Nat) : ℝ) + ((h / 2 : Nat) : ℝ))

theorem getGrid_eq {size w h : Nat} {polar : Bool} (hs : 0 < size) :
    getGrid size w h polar = some ((List.range size).flatMap fun i => (List.range size).map fun j =>
      gridAt size w h polar i j) := by
  unfold getGrid
  rw [if_neg (by omega), gridAngles_eq size hs]
  simp only [List.flatMap_map, List.map_map]
  rfl

theorem flatMap_range_length {α : Type} (n m : Nat) (f : Nat → Nat → α) :
    ((List.range n).flatMap fun i => (List.range m).map (f i)).length = n * m := by
  induction n with
  | zero => simp
  | succ n ih => simp [List.range_succ, ih, Nat.add_mul]

theorem flatMap_range_get {α : Type} (n m : Nat) (f : Nat → Nat → α) {i j : Nat} (hi : i < n) (hj : j < m) :
    ((List.range n).flatMap fun i => (List.range m).map (f i))[i * m + j]? = some (f i j) := by
  induction n with
  | zero => omega
  | succ n ih =>
    rw [List.range_succ, List.flatMap_append]
    by_cases h : i < n
    · rw [List.getElem?_append_left, ih h]
      rw [flatMap_range_length]
      calc i * m + j < (i + 1) * m := by rw [Nat.add_mul]; omega
        _ ≤ n * m := Nat.mul_le_mul_right _ h
    · have : i = n := by omega
      subst this
      rw [List.getElem?_append_right (by rw [flatMap_range_length]; omega), flatMap_range_length]
      simp [hj]

theorem mem_grid {size w h : Nat} {polar : Bool} {g : List (ℝ × ℝ)} (hg : getGrid size w h polar = some g)
    (p : ℝ × ℝ) : p ∈ g ↔ ∃ i j, i < size ∧ j < size ∧ p = gridAt size w h polar i j := by
  by_cases hs : 0 < size
  · rw [getGrid_eq hs] at hg
    cases hg
    simp only [List.mem_flatMap, List.mem_map, List.mem_range]
    constructor
    · rintro ⟨i, hi, j, hj, rfl⟩; exact ⟨i, j, hi, hj, rfl⟩
    · rintro ⟨i, j, hi, hj, rfl⟩; exact ⟨i, hi, j, hj, rfl⟩
  · unfold getGrid at hg
    rw [if_pos (by omega)] at hg
    cases hg

namespace Props

/-- **C77**: for every size except 0 there are `size * size` points. Seen from the center of a sphere,
they are the crossings of `size` circles of latitude and `size` meridians, all in front of the observer:
the angles are the middles of `size` equal parts of the half circle. -/
theorem C77_sphere (size w h : Nat) (polar : Bool) (hs : 0 < size) (hm : 0 < max h w) :
    ∃ g, getGrid size w h polar = some g ∧ g.length = size * size ∧
      ∀ i j, i < size → j < size → ∃ p, g[i * size + j]? = some p ∧
        (polar = false → SeenAt w h ((max h w : Nat) : ℝ)
          (Real.cos (midAngle size i) * Real.sin (midAngle size j)) (Real.sin (midAngle size i))
          (Real.cos (midAngle size i) * Real.cos (midAngle size j)) p) ∧
        (polar = true → SeenAt w h ((max h w : Nat) : ℝ)
          (Real.sin (midAngle size i) * Real.cos (midAngle size j))
          (Real.sin (midAngle size i) * Real.sin (midAngle size j)) (Real.cos (midAngle size i)) p) := by
  refine ⟨_, getGrid_eq hs, flatMap_range_length _ _ _, fun i j hi hj =>
    ⟨_, flatMap_range_get _ _ _ hi hj, ?_, ?_⟩⟩
  all_goals
    intro hp
    subst hp
    have hm' : (0 : ℝ) < ((max h w : Nat) : ℝ) := by exact_mod_cast hm
    have hci := Real.cos_pos_of_mem_Ioo (midAngle_mem hi)
    have hcj := Real.cos_pos_of_mem_Ioo (midAngle_mem hj)
    have e1 := Real.sin_sq_add_cos_sq (midAngle size i)
    have e2 := Real.sin_sq_add_cos_sq (midAngle size j)
    generalize hM : ((max h w : Nat) : ℝ) = M at hm'
    generalize hx : midAngle size i = x at *
    generalize hy : midAngle size j = y at *
  · refine ⟨?_, M / (Real.cos x * Real.cos y), by positivity, ?_, ?_, ?_⟩
    · calc _ = Real.cos x ^ 2 * (Real.sin y ^ 2 + Real.cos y ^ 2) + Real.sin x ^ 2 := by ring
        _ = 1 := by rw [e2]; linarith
    all_goals
      try simp only [gridAt, gridPoint, hM, hx, hy, Real.tan_eq_sin_div_cos, Bool.false_eq_true, if_false]
      field_simp
      try ring
  · refine ⟨?_, M / Real.cos x, by positivity, ?_, ?_, ?_⟩
    · calc _ = Real.sin x ^ 2 * (Real.sin y ^ 2 + Real.cos y ^ 2) + Real.cos x ^ 2 := by ring
        _ = 1 := by rw [e2]; linarith
    all_goals
      try simp only [gridAt, gridPoint, hM, hx, hy, Real.tan_eq_sin_div_cos, if_true]
      field_simp
      try ring

/-- a grid of 20 by 20 points on a frame of 640 by 480 meets the hypotheses -/
example : ∃ g, getGrid 20 640 480 false = some g ∧ g.length = 400 :=
  let ⟨g, h, l, _⟩ := C77_sphere 20 640 480 false (by decide) (by decide)
  ⟨g, h, l⟩

/-- with size 0 the step is a division by zero -/
theorem C77_zero (w h : Nat) (polar : Bool) : getGrid 0 w h polar = none := rfl

/-- **C77**: the grid is symmetric with respect to the horizontal and to the vertical line through the
center of the image. -/
theorem C77_symmetric {size w h : Nat} {polar : Bool} {g : List (ℝ × ℝ)}
    (hg : getGrid size w h polar = some g) (a b : ℝ)
    (hp : (((w / 2 : Nat) : ℝ) + a, ((h / 2 : Nat) : ℝ) + b) ∈ g) :
    (((w / 2 : Nat) : ℝ) - a, ((h / 2 : Nat) : ℝ) + b) ∈ g ∧
    (((w / 2 : Nat) : ℝ) + a, ((h / 2 : Nat) : ℝ) - b) ∈ g := by
  rw [mem_grid hg] at hp
  obtain ⟨i, j, hi, hj, hp⟩ := hp
  have e := Prod.ext_iff.mp hp
  simp only [gridAt] at e
  cases polar
  · constructor
    · rw [mem_grid hg]
      refine ⟨i, size - 1 - j, hi, by omega, ?_⟩
      simp only [gridAt, gridPoint, Bool.false_eq_true, if_false, midAngle_neg hj, Real.tan_neg,
        Real.cos_neg] at e ⊢
      refine Prod.ext ?_ ?_
      · simp only; linarith [e.1]
      · simp only; linarith [e.2]
    · rw [mem_grid hg]
      refine ⟨size - 1 - i, j, by omega, hj, ?_⟩
      simp only [gridAt, gridPoint, Bool.false_eq_true, if_false, midAngle_neg hi, Real.tan_neg,
        neg_div] at e ⊢
      refine Prod.ext ?_ ?_
      · simp only; linarith [e.1]
      · simp only; linarith [e.2]
  · constructor
    · rw [mem_grid hg]
      refine ⟨size - 1 - i, size - 1 - j, by omega, by omega, ?_⟩
      simp only [gridAt, gridPoint, if_true, midAngle_neg hi, midAngle_neg hj, Real.tan_neg,
        Real.cos_neg, Real.sin_neg] at e ⊢
      refine Prod.ext ?_ ?_
      · simp only; linarith [e.1]
      · simp only; linarith [e.2]
    · rw [mem_grid hg]
      refine ⟨i, size - 1 - j, hi, by omega, ?_⟩
      simp only [gridAt, gridPoint, if_true, midAngle_neg hj, Real.cos_neg, Real.sin_neg] at e ⊢
      refine Prod.ext ?_ ?_
      · simp only; linarith [e.1]
      · simp only; linarith [e.2]

/-- every point of a grid that exists meets the hypothesis, for instance the only point of the grid of size 1,
which is the center of the image -/
example : ∃ g, getGrid 1 640 480 false = some g ∧ (((640 / 2 : Nat) : ℝ) + 0, ((480 / 2 : Nat) : ℝ) + 0) ∈ g := by
  refine ⟨_, getGrid_eq (by decide), ?_⟩
  simp [gridAt, gridPoint, midAngle]

/-- **C77**: seen from the equator (the default) all points of the grid are different.
Missing: the same with `polar=True`, where it is false for odd sizes, see `C77_polar_repeats`. -/
theorem C77_distinct_partial {size w h : Nat} {g : List (ℝ × ℝ)} (hm : 0 < max h w)
    (hg : getGrid size w h false = some g) (i j i' j' : Nat) (hi : i < size) (hj : j < size)
    (hi' : i' < size) (hj' : j' < size) (he : g[i * size + j]? = g[i' * size + j']?) : i = i' ∧ j = j' := by
  have hs : 0 < size := by omega
  have hm' : (0 : ℝ) < ((max h w : Nat) : ℝ) := by exact_mod_cast hm
  rw [getGrid_eq hs] at hg
  cases hg
  rw [flatMap_range_get _ _ _ hi hj, flatMap_range_get _ _ _ hi' hj'] at he
  have e := Prod.ext_iff.mp (Option.some.inj he)
  simp only [gridAt, gridPoint, Bool.false_eq_true, if_false, add_left_inj,
    mul_left_inj' (ne_of_gt hm')] at e
  have ej : j = j' := midAngle_inj hs
    (Real.injOn_tan (midAngle_mem hj) (midAngle_mem hj') e.1)
  subst ej
  have hcj := Real.cos_pos_of_mem_Ioo (midAngle_mem hj)
  rw [div_left_inj' (ne_of_gt hcj)] at e
  exact ⟨midAngle_inj hs (Real.injOn_tan (midAngle_mem hi) (midAngle_mem hi') e.2), rfl⟩

/-- a grid of size 20 meets the hypotheses -/
example : ∃ g, 0 < max 480 640 ∧ getGrid 20 640 480 false = some g :=
  ⟨_, by decide, getGrid_eq (by decide)⟩

/-- **C77**: with `polar=True` the only points that occur twice are those of the middle row of a grid of
odd size. -/
theorem C77_distinct_polar_partial {size w h : Nat} {g : List (ℝ × ℝ)} (hm : 0 < max h w)
    (hg : getGrid size w h true = some g) (i j i' j' : Nat) (hi : i < size) (hj : j < size)
    (hi' : i' < size) (hj' : j' < size) (he : g[i * size + j]? = g[i' * size + j']?) :
    (i = i' ∧ j = j') ∨ (size = 2 * i + 1 ∧ i = i') := by
  have hs : 0 < size := by omega
  have hs' : (0 : ℝ) < size := by exact_mod_cast hs
  have hpi := Real.pi_pos
  have hm' : (0 : ℝ) < ((max h w : Nat) : ℝ) := by exact_mod_cast hm
  rw [getGrid_eq hs] at hg
  cases hg
  rw [flatMap_range_get _ _ _ hi hj, flatMap_range_get _ _ _ hi' hj'] at he
  have e := Prod.ext_iff.mp (Option.some.inj he)
  simp only [gridAt, gridPoint, if_true, add_left_inj, mul_left_inj' (ne_of_gt hm')] at e
  have cpos : ∀ k, k < size → 0 < Real.cos (midAngle size k) := fun k hk =>
    Real.cos_pos_of_mem_Ioo (midAngle_mem hk)
  have tz : ∀ k, k < size → Real.tan (midAngle size k) = 0 → size = 2 * k + 1 := by
    intro k hk h0
    have : midAngle size k = 0 := Real.injOn_tan (midAngle_mem hk) ⟨by linarith, by linarith⟩
      (by rw [h0, Real.tan_zero])
    have h2 : midAngle size k = midAngle size (size - 1 - k) := by
      rw [midAngle_neg hk, this, neg_zero]
    have := midAngle_inj hs h2
    omega
  by_cases ht : Real.tan (midAngle size i) = 0
  · right
    have h1 := tz i hi ht
    refine ⟨h1, ?_⟩
    rw [ht, zero_mul] at e
    have h2 := tz i' hi' (by
      rcases mul_eq_zero.mp e.1.symm with h | h
      · exact h
      · exact absurd h (ne_of_gt (cpos j' hj')))
    omega
  · left
    have hc := cpos j hj
    have hc' := cpos j' hj'
    have ht' : Real.tan (midAngle size i') ≠ 0 := by
      intro h0
      rw [h0, zero_mul] at e
      rcases mul_eq_zero.mp e.1 with h | h
      · exact ht h
      · exact absurd h (ne_of_gt hc)
    have ej : j = j' := by
      refine midAngle_inj hs (Real.injOn_tan (midAngle_mem hj) (midAngle_mem hj') ?_)
      rw [Real.tan_eq_sin_div_cos (midAngle size j), Real.tan_eq_sin_div_cos (midAngle size j'),
        div_eq_div_iff (ne_of_gt hc) (ne_of_gt hc')]
      refine mul_left_cancel₀ (mul_ne_zero ht ht') ?_
      calc _ = (Real.tan (midAngle size i) * Real.sin (midAngle size j)) *
            (Real.tan (midAngle size i') * Real.cos (midAngle size j')) := by ring
        _ = (Real.tan (midAngle size i') * Real.sin (midAngle size j')) *
            (Real.tan (midAngle size i) * Real.cos (midAngle size j)) := by rw [e.2, e.1]
        _ = _ := by ring
    subst ej
    refine ⟨midAngle_inj hs (Real.injOn_tan (midAngle_mem hi) (midAngle_mem hi') ?_), rfl⟩
    exact mul_right_cancel₀ (ne_of_gt hc) e.1

/-- With `polar=True` and an odd size from 3 on, the middle row of the grid is one point, the center of the
image, `size` times. -/
theorem C77_polar_repeats {size w h : Nat} {g : List (ℝ × ℝ)} (k : Nat) (hk : size = 2 * k + 1)
    (hg : getGrid size w h true = some g) (j : Nat) (hj : j < size) :
    g[k * size + j]? = some (((w / 2 : Nat) : ℝ), ((h / 2 : Nat) : ℝ)) := by
  rw [getGrid_eq (by omega)] at hg
  cases hg
  rw [flatMap_range_get _ _ _ (by omega) hj]
  have : midAngle size k = 0 := by
    unfold midAngle
    have : (size : ℝ) = 2 * (k : ℝ) + 1 := by rw [hk]; push_cast; ring
    rw [this]; simp
  simp [gridAt, gridPoint, this]

/-- the grid of size 3 with `polar=True` has the same point three times -/
example : ∃ g, getGrid 3 640 480 true = some g ∧ g[3]? = g[4]? ∧ g[4]? = g[5]? := by
  refine ⟨_, getGrid_eq (by decide), ?_⟩
  have h := fun j hj => C77_polar_repeats (size := 3) (w := 640) (h := 480) 1 rfl
    (getGrid_eq (by decide)) j hj
  have h0 := h 0 (by decide)
  have h1 := h 1 (by decide)
  have h2 := h 2 (by decide)
  simp only [Nat.one_mul, Nat.add_zero, Nat.reduceAdd] at h0 h1 h2
  exact ⟨h0.trans h1.symm, h1.trans h2.symm⟩

end Props

end Norfair
