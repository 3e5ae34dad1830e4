import Verif.Model.Float32
import Mathlib.Tactic.Linarith
import Mathlib.Tactic.NormNum
import Mathlib.Tactic.FieldSimp
import Mathlib.Tactic.Ring
import Mathlib.Algebra.Order.Floor.Ring

namespace Norfair

theorem roundHalfEven_err (x : ℚ) : |(roundHalfEven x : ℚ) - x| ≤ 1 / 2 := by
  have h1 := Int.floor_le x
  have h2 := Int.lt_floor_add_one x
  unfold roundHalfEven
  rw [abs_le]
  split
  · constructor <;> linarith
  · split
    · push_cast; constructor <;> linarith
    · split
      · constructor <;> linarith
      · push_cast; constructor <;> linarith

theorem roundHalfEven_int (n : ℤ) : roundHalfEven (n : ℚ) = n := by
  unfold roundHalfEven
  simp

theorem roundHalfEven_mono {x y : ℚ} (h : x ≤ y) : roundHalfEven x ≤ roundHalfEven y := by
  have hf : ⌊x⌋ ≤ ⌊y⌋ := Int.floor_le_floor h
  rcases lt_or_eq_of_le hf with hlt | heq
  · -- x rounds to at most ⌊x⌋+1 ≤ ⌊y⌋
    have a : roundHalfEven x ≤ ⌊x⌋ + 1 := by
      unfold roundHalfEven; split_ifs <;> omega
    have b : ⌊y⌋ ≤ roundHalfEven y := by
      unfold roundHalfEven; split_ifs <;> omega
    omega
  · unfold roundHalfEven
    rw [← heq]
    split_ifs <;> first | omega | (exfalso; linarith)

theorem roundHalfEven_le_int {x : ℚ} {n : ℤ} (h : x ≤ n) : roundHalfEven x ≤ n := by
  have := roundHalfEven_mono h
  rwa [roundHalfEven_int] at this

theorem int_le_roundHalfEven {x : ℚ} {n : ℤ} (h : (n : ℚ) ≤ x) : n ≤ roundHalfEven x := by
  have := roundHalfEven_mono h
  rwa [roundHalfEven_int] at this

theorem roundHalfEven_neg (x : ℚ) : roundHalfEven (-x) = -roundHalfEven x := by
  by_cases hx : (⌊x⌋ : ℚ) = x
  · have e1 : roundHalfEven x = ⌊x⌋ := by conv_lhs => rw [← hx, roundHalfEven_int]
    have e2 : roundHalfEven (-x) = -⌊x⌋ := by
      have : (-x) = ((-⌊x⌋ : ℤ) : ℚ) := by push_cast; rw [hx]
      rw [this, roundHalfEven_int]
    rw [e1, e2]
  · have h1 := lt_of_le_of_ne (Int.floor_le x) hx
    have h2 := Int.lt_floor_add_one x
    have hfl : ⌊-x⌋ = -⌊x⌋ - 1 := by
      rw [Int.floor_eq_iff]; push_cast; constructor <;> linarith
    unfold roundHalfEven
    rw [hfl]
    push_cast
    have hev : Even (-⌊x⌋ - 1) ↔ ¬ Even ⌊x⌋ := by
      rw [Int.even_iff, Int.even_iff]; omega
    split_ifs <;> first | omega | (exfalso; linarith) | (exfalso; tauto)

theorem ulp_pos (p : ℕ) (q : ℚ) : 0 < ulp p q := by
  unfold ulp; exact zpow_pos (by norm_num) _

theorem ulp_neg (p : ℕ) (q : ℚ) : ulp p (-q) = ulp p q := by
  unfold ulp; rw [abs_neg]

theorem roundBits_neg (p : ℕ) (q : ℚ) : roundBits p (-q) = -roundBits p q := by
  unfold roundBits
  by_cases h : q = 0
  · simp [h]
  · rw [if_neg h, if_neg (by simpa using h), ulp_neg, neg_div, roundHalfEven_neg]
    push_cast; ring

theorem roundBits_err (p : ℕ) (q : ℚ) : |roundBits p q - q| ≤ ulp p q / 2 := by
  unfold roundBits
  have hu := ulp_pos p q
  split
  · rename_i h; subst h
    rw [sub_self, abs_zero]; linarith
  · have e : (roundHalfEven (q / ulp p q) : ℚ) * ulp p q - q
        = ((roundHalfEven (q / ulp p q) : ℚ) - q / ulp p q) * ulp p q := by
      field_simp
    rw [e, abs_mul, abs_of_pos hu]
    have := roundHalfEven_err (q / ulp p q)
    nlinarith

/-- bounds on a positive number from its binade -/
theorem log_bounds {q : ℚ} (hq : 0 < q) :
    (2 : ℚ) ^ (Int.log 2 q) ≤ q ∧ q < (2 : ℚ) ^ (Int.log 2 q + 1) := by
  constructor
  · exact_mod_cast Int.zpow_log_le_self (by norm_num) hq
  · exact_mod_cast Int.lt_zpow_succ_log_self (by norm_num) q

theorem ulp_le {p : ℕ} {q : ℚ} {n : ℤ} (hq : q ≠ 0) (h : |q| < (2 : ℚ) ^ n) :
    ulp p q ≤ (2 : ℚ) ^ (n - p) := by
  unfold ulp
  have hb := (log_bounds (abs_pos.mpr hq)).1
  have : Int.log 2 |q| < n := by
    have := lt_of_le_of_lt hb h
    exact (zpow_lt_zpow_iff_right₀ (by norm_num)).mp this
  exact zpow_le_zpow_right₀ (by norm_num) (by omega)

theorem two_zpow_split (a : ℤ) (p : ℕ) : (2 : ℚ) ^ a = ((2 ^ p : ℤ) : ℚ) * (2 : ℚ) ^ (a - p) := by
  push_cast
  rw [← zpow_natCast, ← zpow_add₀ (by norm_num)]
  congr 1; ring

/-- The rounded value of a positive number stays inside the closed binade (`1 ≤ p`). -/
theorem roundBits_binade {p : ℕ} (hp : 1 ≤ p) {q : ℚ} (hq : 0 < q) :
    (2 : ℚ) ^ (Int.log 2 q) ≤ roundBits p q ∧ roundBits p q ≤ (2 : ℚ) ^ (Int.log 2 q + 1) := by
  obtain ⟨h1, h2⟩ := log_bounds hq
  have hu := ulp_pos p q
  have hul : ulp p q = (2 : ℚ) ^ (Int.log 2 q + 1 - p) := by
    unfold ulp; rw [abs_of_pos hq]
  unfold roundBits
  rw [if_neg hq.ne']
  constructor
  · have e : (2 : ℚ) ^ (Int.log 2 q) = ((2 ^ (p - 1) : ℤ) : ℚ) * ulp p q := by
      rw [hul, two_zpow_split _ (p - 1)]
      congr 2
      have : ((p - 1 : ℕ) : ℤ) = (p : ℤ) - 1 := by omega
      omega
    rw [e]
    refine mul_le_mul_of_nonneg_right ?_ hu.le
    have : ((2 ^ (p - 1) : ℤ)) ≤ roundHalfEven (q / ulp p q) := by
      apply int_le_roundHalfEven
      rw [le_div_iff₀ hu, ← e]; exact h1
    exact_mod_cast this
  · have e : (2 : ℚ) ^ (Int.log 2 q + 1) = ((2 ^ p : ℤ) : ℚ) * ulp p q := by
      rw [hul]; exact two_zpow_split _ p
    rw [e]
    refine mul_le_mul_of_nonneg_right ?_ hu.le
    have : roundHalfEven (q / ulp p q) ≤ ((2 ^ p : ℤ)) := by
      apply roundHalfEven_le_int
      rw [div_le_iff₀ hu, ← e]; exact h2.le
    exact_mod_cast this

theorem roundBits_mono_pos {p : ℕ} (hp : 1 ≤ p) {x y : ℚ} (hx : 0 < x) (h : x ≤ y) :
    roundBits p x ≤ roundBits p y := by
  have hy : 0 < y := lt_of_lt_of_le hx h
  have hlog : Int.log 2 x ≤ Int.log 2 y := Int.log_mono_right hx h
  rcases lt_or_eq_of_le hlog with hlt | heq
  · calc roundBits p x ≤ (2 : ℚ) ^ (Int.log 2 x + 1) := (roundBits_binade hp hx).2
      _ ≤ (2 : ℚ) ^ (Int.log 2 y) := zpow_le_zpow_right₀ (by norm_num) (by omega)
      _ ≤ roundBits p y := (roundBits_binade hp hy).1
  · have hu : ulp p x = ulp p y := by
      unfold ulp; rw [abs_of_pos hx, abs_of_pos hy, heq]
    unfold roundBits
    rw [if_neg hx.ne', if_neg hy.ne', ← hu]
    have hpos := ulp_pos p x
    refine mul_le_mul_of_nonneg_right ?_ hpos.le
    have := roundHalfEven_mono (div_le_div_of_nonneg_right h hpos.le)
    exact_mod_cast this

theorem roundBits_pos {p : ℕ} (hp : 1 ≤ p) {x : ℚ} (hx : 0 < x) : 0 < roundBits p x :=
  lt_of_lt_of_le (zpow_pos (by norm_num) _) (roundBits_binade hp hx).1

theorem roundBits_zero (p : ℕ) : roundBits p 0 = 0 := by simp [roundBits]

theorem roundBits_mono {p : ℕ} (hp : 1 ≤ p) {x y : ℚ} (h : x ≤ y) :
    roundBits p x ≤ roundBits p y := by
  rcases lt_trichotomy x 0 with hx | hx | hx
  · rcases lt_trichotomy y 0 with hy | hy | hy
    · have := roundBits_mono_pos hp (by linarith : 0 < -y) (by linarith : -y ≤ -x)
      rw [roundBits_neg, roundBits_neg] at this; linarith
    · subst hy
      have := roundBits_pos hp (by linarith : 0 < -x)
      rw [roundBits_neg] at this; rw [roundBits_zero]; linarith
    · have h1 := roundBits_pos hp (by linarith : 0 < -x)
      rw [roundBits_neg] at h1
      have h2 := roundBits_pos hp hy
      linarith
  · subst hx
    rw [roundBits_zero]
    rcases lt_or_eq_of_le h with hy | hy
    · exact (roundBits_pos hp hy).le
    · rw [← hy, roundBits_zero]
  · exact roundBits_mono_pos hp hx h

/-- Thresholds of magnitude below about 16 million never round down. -/
theorem le_fillFloat32_of_small {thr : ℚ} (h1 : -(2 : ℚ) ^ 24 < thr + 1)
    (h2 : thr + 1 < (2 : ℚ) ^ 24) : thr ≤ fillFloat32 thr := by
  unfold fillFloat32 toFloat32 toFloat64
  set x := thr + 1 with hx
  have hthr : thr = x - 1 := by rw [hx]; ring
  rw [hthr]
  by_cases hx0 : x = 0
  · rw [hx0, roundBits_zero, roundBits_zero]; norm_num
  have habs : |x| < (2 : ℚ) ^ (24 : ℤ) := by
    rw [abs_lt]; constructor
    · exact_mod_cast h1
    · exact_mod_cast h2
  have e1 := roundBits_err 53 x
  have u1 := ulp_le (p := 53) hx0 habs
  set y := roundBits 53 x with hy
  by_cases hy0 : y = 0
  · rw [hy0, roundBits_zero]
    rw [hy0] at e1
    have : (2 : ℚ) ^ ((24 : ℤ) - (53 : ℕ)) ≤ 1 := by norm_num
    have := abs_le.mp e1
    linarith [this.1]
  · have hyabs : |y| < (2 : ℚ) ^ (25 : ℤ) := by
      have : (2 : ℚ) ^ ((24 : ℤ) - (53 : ℕ)) ≤ 1 := by norm_num
      have h3 : |y| ≤ |x| + |y - x| := by
        have := abs_add_le x (y - x)
        simpa using this
      have : (2 : ℚ) ^ (24 : ℤ) + 1 < (2 : ℚ) ^ (25 : ℤ) := by norm_num
      linarith
    -- sharper: the rounded value stays within 2^24 in magnitude
    have hyabs' : |y| ≤ (2 : ℚ) ^ (24 : ℤ) := by
      have hb : ∀ z : ℚ, 0 < z → z < (2 : ℚ) ^ (24 : ℤ) → roundBits 53 z ≤ (2 : ℚ) ^ (24 : ℤ) := by
        intro z hz hz2
        refine (roundBits_binade (by norm_num) hz).2.trans ?_
        apply zpow_le_zpow_right₀ (by norm_num)
        have := lt_of_le_of_lt (log_bounds hz).1 hz2
        have := (zpow_lt_zpow_iff_right₀ (by norm_num : (1 : ℚ) < 2)).mp this
        omega
      rcases lt_or_gt_of_ne hx0 with hneg | hpos
      · have hz : 0 < -x := by linarith
        have := hb (-x) hz (by rw [← abs_of_neg hneg]; exact habs)
        have hp := roundBits_pos (p := 53) (by norm_num) hz
        rw [roundBits_neg, ← hy] at this hp
        rw [abs_of_neg (by linarith)]; exact this
      · have := hb x hpos (by rw [← abs_of_pos hpos]; exact habs)
        have hp := roundBits_pos (p := 53) (by norm_num) hpos
        rw [← hy] at this hp
        rw [abs_of_pos hp]; exact this
    have e2 := roundBits_err 24 y
    rcases lt_or_eq_of_le hyabs' with hlt | heq
    · have u2 := ulp_le (p := 24) hy0 hlt
      have a1 : (2 : ℚ) ^ ((24 : ℤ) - (53 : ℕ)) ≤ 1 := by norm_num
      have a2 : (2 : ℚ) ^ ((24 : ℤ) - (24 : ℕ)) = 1 := by norm_num
      have := (abs_le.mp e1).1
      have := (abs_le.mp e2).1
      linarith
    · -- `|y| = 2^24` exactly: float32 rounding is exact there
      have hfix : roundBits 24 ((2 : ℚ) ^ (24 : ℤ)) = (2 : ℚ) ^ (24 : ℤ) := by
        have hpos : (0 : ℚ) < (2 : ℚ) ^ (24 : ℤ) := zpow_pos (by norm_num) _
        have hl : Int.log 2 ((2 : ℚ) ^ (24 : ℤ)) = 24 := by
          have := Int.log_zpow (R := ℚ) (b := 2) (by norm_num) 24
          exact_mod_cast this
        have hlow := (roundBits_binade (p := 24) (by norm_num) hpos).1
        rw [hl] at hlow
        apply le_antisymm _ hlow
        have herr := roundBits_err 24 ((2 : ℚ) ^ (24 : ℤ))
        have hu : ulp 24 ((2 : ℚ) ^ (24 : ℤ)) = 2 := by
          unfold ulp; rw [abs_of_pos hpos, hl]; norm_num
        unfold roundBits
        rw [if_neg hpos.ne', hu]
        have : ((2 : ℚ) ^ (24 : ℤ)) / 2 = ((2 ^ 23 : ℤ) : ℚ) := by norm_num
        rw [this, roundHalfEven_int]; norm_num
      have a1 : (2 : ℚ) ^ ((24 : ℤ) - (53 : ℕ)) ≤ 1 := by norm_num
      have hlow := (abs_le.mp e1).1
      rcases abs_choice y with hc | hc
      · rw [hc] at heq; rw [heq, hfix]; linarith
      · rw [hc] at heq
        have hyv : y = -(2 : ℚ) ^ (24 : ℤ) := by linarith
        rw [hyv, roundBits_neg, hfix, ← hyv]; linarith

/-- Thresholds that are float32 numbers never round down. -/
theorem le_fillFloat32_of_exact {thr : ℚ} (h64 : toFloat64 thr = thr) (h32 : toFloat32 thr = thr) :
    thr ≤ fillFloat32 thr := by
  unfold fillFloat32
  calc thr = toFloat32 (toFloat64 thr) := by rw [h64, h32]
    _ ≤ toFloat32 (toFloat64 (thr + 1)) :=
      roundBits_mono (by norm_num) (roundBits_mono (by norm_num) (by linarith))

end Norfair
