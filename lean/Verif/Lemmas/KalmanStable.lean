import Verif.Lemmas.Kalman
import Verif.Spec.Drift
import Mathlib.Tactic.FieldSimp
import Mathlib.Tactic.Ring
import Mathlib.Tactic.Linarith
import Mathlib.Tactic.Positivity

/-!
Stability of the constant velocity Kalman filter of a single coordinate: bounds of its covariance and a
Lyapunov function of its error.
-/

namespace Norfair

open Norfair.Spec

variable {K : Type} [Field K] [LinearOrder K] [IsStrictOrderedRing K]

/-- determinant of the covariance -/
def detP (s : KF2 K) : K := s.a * s.c - s.b ^ 2

/-- `detP` times the square of the Mahalanobis norm of the error `(x, y)` -/
def quadP (s : KF2 K) (x y : K) : K := s.c * x ^ 2 - 2 * s.b * x * y + s.a * y ^ 2

/-- one round: prediction and observed measurement -/
def kfRound (q₁ q₂ r z : K) (s : KF2 K) : KF2 K := (s.predict q₁ q₂).update r z true

/-- the covariance is positive definite -/
structure PosDef (s : KF2 K) : Prop where
  a : 0 < s.a
  c : 0 < s.c
  det : 0 < detP s

theorem quadP_nonneg {s : KF2 K} (h : PosDef s) (x y : K) : 0 ≤ quadP s x y := by
  have e : s.a * quadP s x y = (s.b * x - s.a * y) ^ 2 + detP s * x ^ 2 := by
    unfold quadP detP; ring
  have : 0 ≤ s.a * quadP s x y := by
    rw [e]; have := h.det; positivity
  exact nonneg_of_mul_nonneg_right this h.a

theorem pos_le_quad {s : KF2 K} (x y : K) : detP s * x ^ 2 ≤ s.a * quadP s x y := by
  have e : s.a * quadP s x y = (s.b * x - s.a * y) ^ 2 + detP s * x ^ 2 := by
    unfold quadP detP; ring
  nlinarith [sq_nonneg (s.b * x - s.a * y)]

theorem vel_le_quad {s : KF2 K} (x y : K) : detP s * y ^ 2 ≤ s.c * quadP s x y := by
  have e : s.c * quadP s x y = (s.b * y - s.c * x) ^ 2 + detP s * y ^ 2 := by
    unfold quadP detP; ring
  nlinarith [sq_nonneg (s.b * y - s.c * x)]

/-- the squared Mahalanobis norm of an error -/
def normP (s : KF2 K) (x y : K) : K := quadP s x y / detP s

theorem normP_nonneg {s : KF2 K} (h : PosDef s) (x y : K) : 0 ≤ normP s x y :=
  div_nonneg (quadP_nonneg h x y) h.det.le

theorem pos_le_norm {s : KF2 K} (h : PosDef s) (x y : K) : x ^ 2 ≤ s.a * normP s x y := by
  unfold normP
  rw [← mul_div_assoc, le_div_iff₀ h.det, mul_comm]
  exact pos_le_quad x y

theorem vel_le_norm {s : KF2 K} (h : PosDef s) (x y : K) : y ^ 2 ≤ s.c * normP s x y := by
  unfold normP
  rw [← mul_div_assoc, le_div_iff₀ h.det, mul_comm]
  exact vel_le_quad x y

/-! ### moving on -/

/-- prediction without noise -/
def move (s : KF2 K) : KF2 K := ⟨s.p + s.v, s.v, s.a + 2 * s.b + s.c, s.b + s.c, s.c⟩

theorem detP_move (s : KF2 K) : detP (move s) = detP s := by unfold detP move; ring

theorem normP_move (s : KF2 K) (x y : K) : normP (move s) (x + y) y = normP s x y := by
  unfold normP
  rw [detP_move]
  congr 1
  unfold quadP move; ring

theorem PosDef.move {s : KF2 K} (h : PosDef s) : PosDef (move s) := by
  have hd : 0 < detP (Norfair.move s) := by rw [detP_move]; exact h.det
  refine ⟨?_, h.c, hd⟩
  have h1 : 0 < (Norfair.move s).a * s.c := by
    have : (Norfair.move s).a * s.c = detP (Norfair.move s) + (s.b + s.c) ^ 2 := by
      unfold detP Norfair.move; ring
    rw [this]; positivity
  exact (mul_pos_iff_of_pos_right h.c).mp h1

/-- noise is added to the covariance -/
def blur (q₁ q₂ : K) (s : KF2 K) : KF2 K := { s with a := s.a + q₁, c := s.c + q₂ }

theorem predict_eq (q₁ q₂ : K) (s : KF2 K) : s.predict q₁ q₂ = blur q₁ q₂ (move s) := by
  unfold KF2.predict blur move; rfl

theorem PosDef.blur {s : KF2 K} (h : PosDef s) {q₁ q₂ : K} (h1 : 0 ≤ q₁) (h2 : 0 ≤ q₂) :
    PosDef (blur q₁ q₂ s) := by
  have ha := h.a
  have hc := h.c
  have hd := h.det
  refine ⟨by show 0 < s.a + q₁; positivity, by show 0 < s.c + q₂; positivity, ?_⟩
  have : detP (Norfair.blur q₁ q₂ s) = detP s + (s.a * q₂ + q₁ * s.c + q₁ * q₂) := by
    unfold detP Norfair.blur; ring
  rw [this]; positivity

/-- noise does not make the norm larger -/
theorem normP_blur_le {s : KF2 K} (h : PosDef s) {q₁ q₂ : K} (h1 : 0 ≤ q₁) (h2 : 0 ≤ q₂) (x y : K) :
    normP (blur q₁ q₂ s) x y ≤ normP s x y := by
  have hN := quadP_nonneg h x y
  have h3 := pos_le_quad (s := s) x y
  have h4 := vel_le_quad (s := s) x y
  unfold normP
  rw [div_le_div_iff₀ (h.blur h1 h2).det h.det]
  have e1 : quadP (blur q₁ q₂ s) x y = quadP s x y + q₂ * x ^ 2 + q₁ * y ^ 2 := by
    unfold quadP blur; ring
  have e2 : detP (blur q₁ q₂ s) = detP s + (s.a * q₂ + q₁ * s.c + q₁ * q₂) := by
    unfold detP blur; ring
  rw [e1, e2]
  nlinarith [mul_le_mul_of_nonneg_left h3 h2, mul_le_mul_of_nonneg_left h4 h1,
    mul_nonneg (mul_nonneg h1 h2) hN]

/-- the same noise `q` in both entries shrinks the norm by a factor -/
theorem normP_blur_eq {s : KF2 K} (h : PosDef s) {q T : K} (hq : 0 ≤ q) (hT : s.a + s.c ≤ T) (x y : K) :
    (T + q) * normP (blur q q s) x y ≤ T * normP s x y := by
  have ha := h.a
  have hc := h.c
  have hd := h.det
  have hN := quadP_nonneg h x y
  have hd' := (h.blur hq hq).det
  unfold normP
  rw [← mul_div_assoc, ← mul_div_assoc, div_le_div_iff₀ hd' hd]
  have e1 : quadP (blur q q s) x y = quadP s x y + q * x ^ 2 + q * y ^ 2 := by
    unfold quadP blur; ring
  have e2 : detP (blur q q s) = detP s + (s.a * q + q * s.c + q * q) := by
    unfold detP blur; ring
  rw [e1, e2]
  have hadj : 0 ≤ (s.c * x - s.b * y) ^ 2 + (s.a * y - s.b * x) ^ 2 := by positivity
  set u := s.c * x - s.b * y with hu
  set v := s.a * y - s.b * x with hv
  have hcub : detP s * quadP s x y ≤ (s.a + s.c) * (u ^ 2 + v ^ 2) := by
    have e : detP s * quadP s x y = s.a * u ^ 2 + 2 * s.b * u * v + s.c * v ^ 2 := by
      rw [hu, hv]; unfold detP quadP; ring
    have e' := quadP_nonneg h u v
    unfold quadP at e'
    rw [e]; nlinarith
  have htr : (s.a + s.c) * quadP s x y - detP s * (x ^ 2 + y ^ 2) = u ^ 2 + v ^ 2 := by
    rw [hu, hv]; unfold quadP detP; ring
  have e : T * quadP s x y * (detP s + (s.a * q + q * s.c + q * q)) -
      (T + q) * (quadP s x y + q * x ^ 2 + q * y ^ 2) * detP s =
      q * ((T + q) * ((s.a + s.c) * quadP s x y - detP s * (x ^ 2 + y ^ 2)) - detP s * quadP s x y
        + q * (T - (s.a + s.c)) * quadP s x y) := by ring
  have e3 : 0 ≤ (T + q) * ((s.a + s.c) * quadP s x y - detP s * (x ^ 2 + y ^ 2)) - detP s * quadP s x y
        + q * (T - (s.a + s.c)) * quadP s x y := by
    rw [htr]
    have h5 : (s.a + s.c) * (u ^ 2 + v ^ 2) ≤ (T + q) * (u ^ 2 + v ^ 2) :=
      mul_le_mul_of_nonneg_right (by linarith) hadj
    have h6 : 0 ≤ q * (T - (s.a + s.c)) * quadP s x y := by
      have : 0 ≤ T - (s.a + s.c) := by linarith
      positivity
    linarith
  have h8 := mul_nonneg hq e3
  rw [← e] at h8
  linarith

/-- noise of at least `q` in both entries shrinks the norm by a factor -/
theorem normP_blur {s : KF2 K} (h : PosDef s) {q q₁ q₂ T : K} (hq : 0 ≤ q) (h1 : q ≤ q₁) (h2 : q ≤ q₂)
    (hT : s.a + s.c ≤ T) (x y : K) :
    (T + q) * normP (blur q₁ q₂ s) x y ≤ T * normP s x y := by
  have e : blur q₁ q₂ s = blur (q₁ - q) (q₂ - q) (blur q q s) := by
    unfold blur; simp
  have hT0 : 0 ≤ T + q := by have := h.a; have := h.c; linarith
  rw [e]
  exact (mul_le_mul_of_nonneg_left (normP_blur_le (h.blur hq hq) (by linarith) (by linarith) x y) hT0).trans
    (normP_blur_eq h hq hT x y)

/-! ### corrections -/

theorem update_true (r z : K) (s : KF2 K) : s.update r z true =
    ⟨s.p + s.a / (s.a + r) * (z - s.p), s.v + s.b / (s.a + r) * (z - s.p), s.a - s.a ^ 2 / (s.a + r),
      s.b - s.a * s.b / (s.a + r), s.c - s.b ^ 2 / (s.a + r)⟩ := by
  simp [KF2.update]

theorem PosDef.update {s : KF2 K} (h : PosDef s) {r : K} (hr : 0 < r) (z : K) :
    PosDef (s.update r z true) ∧ detP (s.update r z true) = detP s * r / (s.a + r) := by
  have ha := h.a
  have hd := h.det
  have hn : 0 < s.a + r := by positivity
  rw [update_true]
  have e1 : s.a - s.a ^ 2 / (s.a + r) = s.a * r / (s.a + r) := by field_simp; ring
  have e3 : s.c - s.b ^ 2 / (s.a + r) = (detP s + s.c * r) / (s.a + r) := by
    unfold detP; field_simp; ring
  have e4 : detP (⟨s.p + s.a / (s.a + r) * (z - s.p), s.v + s.b / (s.a + r) * (z - s.p),
      s.a - s.a ^ 2 / (s.a + r), s.b - s.a * s.b / (s.a + r), s.c - s.b ^ 2 / (s.a + r)⟩ : KF2 K) =
      detP s * r / (s.a + r) := by
    unfold detP; field_simp; ring
  refine ⟨⟨?_, ?_, ?_⟩, e4⟩
  · simp only; rw [e1]; positivity
  · simp only; rw [e3]; have := h.c; positivity
  · rw [e4]; positivity

/-- what a correction does to the norm of the error: the target is at `t` with velocity `u`, the measurement
is off by `w` -/
theorem normP_update {s : KF2 K} (h : PosDef s) {r : K} (hr : 0 < r) (t u w : K) :
    let s' := s.update r (t + w) true
    normP s' (s'.p - t) (s'.v - u) =
      normP s (s.p - t) (s.v - u) - (s.p - t - w) ^ 2 / (s.a + r) + w ^ 2 / r := by
  intro s'
  have ha := h.a
  have hn : s.a + r ≠ 0 := by positivity
  have hd := h.det.ne'
  have hdet := (h.update hr (t + w)).2
  unfold normP
  rw [show detP s' = _ from hdet]
  have hs' : s' = _ := update_true r (t + w) s
  rw [hs']
  unfold quadP
  simp only
  have hd2 : detP s = s.a * s.c - s.b ^ 2 := rfl
  have hr' := hr.ne'
  field_simp
  rw [hd2]
  ring

/-- the variance of an observed position is at most the noise of the measurement -/
theorem update_a_le {s : KF2 K} (ha : 0 ≤ s.a) {r : K} (hr : 0 < r) (z : K) :
    (s.update r z true).a ≤ r := by
  rw [update_true]
  have hn : 0 < s.a + r := by positivity
  have e1 : s.a - s.a ^ 2 / (s.a + r) = s.a * r / (s.a + r) := by field_simp; ring
  simp only
  rw [e1, div_le_iff₀ hn]
  nlinarith [mul_pos hr hr]

/-- the variance of the velocity after a round is bounded by the one of the position before -/
theorem round_c_le {s : KF2 K} (h : s.Psd) {q₁ q₂ r : K} (h1 : 0 ≤ q₁) (h2 : 0 ≤ q₂) (hr : 0 < r) (z : K) :
    (kfRound q₁ q₂ r z s).c ≤ s.a + r + q₁ + q₂ := by
  have hp := (h.predict h1 h2).1
  simp only [KF2.predict] at hp
  unfold kfRound
  rw [update_true]
  simp only [KF2.predict]
  have hn : 0 < s.a + 2 * s.b + s.c + q₁ + r := by linarith
  have key : s.c - (s.a + r + q₁) ≤ (s.b + s.c) ^ 2 / (s.a + 2 * s.b + s.c + q₁ + r) := by
    rw [le_div_iff₀ hn]
    nlinarith [sq_nonneg ((s.b + s.c) - (s.c - (s.a + r + q₁)))]
  linarith

/-! ### many rounds -/

theorem PosDef.psd {s : KF2 K} (h : PosDef s) : s.Psd :=
  ⟨h.a.le, h.c.le, by have := h.det; unfold detP at this; linarith⟩

theorem PosDef.round {s : KF2 K} (h : PosDef s) {q₁ q₂ r : K} (h1 : 0 ≤ q₁) (h2 : 0 ≤ q₂) (hr : 0 < r)
    (z : K) : PosDef (kfRound q₁ q₂ r z s) := by
  unfold kfRound
  rw [predict_eq]
  exact ((h.move.blur h1 h2).update hr z).1

theorem PosDef.two_b_le {s : KF2 K} (h : PosDef s) : 2 * s.b ≤ s.a + s.c := by
  have ha := h.a
  have hc := h.c
  have hd := h.det
  unfold detP at hd
  have : (2 * s.b) ^ 2 ≤ (s.a + s.c) ^ 2 := by nlinarith [sq_nonneg (s.a - s.c)]
  exact le_of_sq_le_sq this (by positivity)
where
  le_of_sq_le_sq {x y : K} (h : x ^ 2 ≤ y ^ 2) (hy : 0 ≤ y) : x ≤ y :=
    (le_abs_self x).trans (abs_le_of_sq_le_sq h hy)
  abs_le_of_sq_le_sq {x y : K} (h : x ^ 2 ≤ y ^ 2) (hy : 0 ≤ y) : |x| ≤ y := by
    rw [← abs_of_nonneg hy]; exact sq_le_sq.mp h

theorem Noise.Valid.facts {n : Noise K} (h : n.Valid) : 0 < n.posVar ∧ 0 < n.velVar ∧ 0 < n.trace ∧
    0 < n.q ∧ 0 < n.rate ∧ n.rate < 1 := by
  have h1 : 0 < n.posVar := lt_of_lt_of_le h.a (le_max_left _ _)
  have h2 : 0 < n.velVar := lt_of_lt_of_le h.c (le_max_left _ _)
  have h3 : 0 < n.trace := by unfold Noise.trace; positivity
  have h4 : 0 < n.q := lt_min h.q₁ h.q₂
  refine ⟨h1, h2, h3, h4, by unfold Noise.rate; positivity, ?_⟩
  unfold Noise.rate
  rw [div_lt_one (by positivity)]
  linarith

/-- what holds of the state of a coordinate after `k` observed rounds: the target is at `t` with velocity
`u` -/
structure Close (n : Noise K) (E t u : K) (s : KF2 K) : Prop where
  pd : PosDef s
  a : s.a ≤ n.posVar
  c : s.c ≤ n.velVar
  norm : normP s (s.p - t) (s.v - u) ≤ E

theorem Close.round {n : Noise K} (hn : n.Valid) {E t u : K} {s : KF2 K} (h : Close n E t u s) {w W : K}
    (hw : |w| ≤ W) :
    Close n (n.rate * E + W ^ 2 / n.r) (t + u) u (kfRound n.q₁ n.q₂ n.r (t + u + w) s) := by
  obtain ⟨f1, f2, f3, f4, f5, f6⟩ := Noise.Valid.facts hn
  have hpd := h.pd
  have hb := hpd.move.blur hn.q₁.le hn.q₂.le
  refine ⟨hpd.round hn.q₁.le hn.q₂.le hn.r _, ?_, ?_, ?_⟩
  · unfold kfRound
    exact (update_a_le ((hpd.psd.predict hn.q₁.le hn.q₂.le).1) hn.r _).trans (le_max_right _ _)
  · refine (round_c_le hpd.psd hn.q₁.le hn.q₂.le hn.r _).trans (le_trans ?_ (le_max_right _ _))
    linarith [h.a]
  · have e := normP_update hb hn.r (t + u) u w
    simp only at e
    unfold kfRound
    rw [predict_eq, e]
    have e1 : (blur n.q₁ n.q₂ (move s)).p - (t + u) = (s.p - t) + (s.v - u) := by
      show s.p + s.v - (t + u) = _
      ring
    have e2 : (blur n.q₁ n.q₂ (move s)).v = s.v := rfl
    rw [e1, e2]
    have htr : (move s).a + (move s).c ≤ n.trace := by
      show s.a + 2 * s.b + s.c + s.c ≤ _
      have := hpd.two_b_le
      unfold Noise.trace
      linarith [h.a, h.c]
    have h1 := normP_blur hpd.move f4.le (min_le_left n.q₁ n.q₂) (min_le_right n.q₁ n.q₂) htr
      ((s.p - t) + (s.v - u)) (s.v - u)
    rw [normP_move] at h1
    change (n.trace + n.q) * normP (blur n.q₁ n.q₂ (move s)) _ _ ≤ _ at h1
    have h2 : normP (blur n.q₁ n.q₂ (move s)) ((s.p - t) + (s.v - u)) (s.v - u) ≤
        n.rate * normP s (s.p - t) (s.v - u) := by
      unfold Noise.rate
      rw [div_mul_eq_mul_div, le_div_iff₀ (by positivity), mul_comm]
      exact h1
    have h3 : n.rate * normP s (s.p - t) (s.v - u) ≤ n.rate * E := mul_le_mul_of_nonneg_left h.norm f5.le
    have h4 : w ^ 2 / n.r ≤ W ^ 2 / n.r := by
      have : w ^ 2 ≤ W ^ 2 := by
        rw [← sq_abs w]
        exact pow_le_pow_left₀ (abs_nonneg _) hw 2
      exact div_le_div_of_nonneg_right this hn.r.le
    have h5 : 0 ≤ (s.p - t + (s.v - u) - w) ^ 2 / ((blur n.q₁ n.q₂ (move s)).a + n.r) := by
      have := hb.a
      have := hn.r
      positivity
    linarith

theorem Close.mono {n : Noise K} {E E' t u : K} {s : KF2 K} (h : Close n E t u s) (hE : E ≤ E') :
    Close n E' t u s := ⟨h.pd, h.a, h.c, h.norm.trans hE⟩

/-- the bound of the next round -/
theorem bound_succ {n : Noise K} (hn : n.Valid) (W x y : K) (k : Nat) :
    n.rate * n.bound W x y k + W ^ 2 / n.r = n.bound W x y (k + 1) := by
  obtain ⟨f1, f2, f3, f4, f5, f6⟩ := Noise.Valid.facts hn
  have e : n.rate * ((n.trace + n.q) / n.q) + 1 = (n.trace + n.q) / n.q := by
    unfold Noise.rate; field_simp
  unfold Noise.bound
  calc _ = n.rate ^ (k + 1) * n.start x y + W ^ 2 / n.r * (n.rate * ((n.trace + n.q) / n.q) + 1) := by ring
    _ = _ := by rw [e]

theorem Close.start {n : Noise K} (hn : n.Valid) (z t u W : K) :
    Close n (n.bound W (z - t) (0 - u) 0) t u ⟨z, 0, n.a, n.b, n.c⟩ := by
  obtain ⟨f1, f2, f3, f4, f5, f6⟩ := Noise.Valid.facts hn
  have hr := hn.r
  refine ⟨⟨hn.a, hn.c, by have := hn.det; simp only [detP]; linarith⟩, le_max_left _ _, le_max_left _ _, ?_⟩
  have : 0 ≤ W ^ 2 / n.r * ((n.trace + n.q) / n.q) := by positivity
  unfold Noise.bound
  simp only [pow_zero, one_mul]
  refine le_add_of_le_of_nonneg (le_of_eq ?_) this
  rfl

theorem Close.errors {n : Noise K} {E t u : K} {s : KF2 K} (h : Close n E t u s) :
    (s.p - t) ^ 2 ≤ n.posVar * E ∧ (s.v - u) ^ 2 ≤ n.velVar * E := by
  have h0 := normP_nonneg h.pd (s.p - t) (s.v - u)
  have ha := h.pd.a
  have hc := h.pd.c
  have hE : 0 ≤ E := h0.trans h.norm
  exact ⟨(pos_le_norm h.pd _ _).trans (mul_le_mul h.a h.norm h0 (ha.le.trans h.a)),
    (vel_le_norm h.pd _ _).trans (mul_le_mul h.c h.norm h0 (hc.le.trans h.c))⟩

/-! ### targets that change their velocity -/

/-- the norm of a sum, by squares -/
theorem normP_add {s : KF2 K} (h : PosDef s) {η : K} (hη : 0 < η) (x y x' y' : K) :
    normP s (x + x') (y + y') ≤ (1 + η) * normP s x y + (1 + 1 / η) * normP s x' y' := by
  have e : (1 + η) * normP s x y + (1 + 1 / η) * normP s x' y' - normP s (x + x') (y + y') =
      1 / η * normP s (η * x - x') (η * y - y') := by
    have hd := h.det.ne'
    unfold normP quadP
    field_simp
    ring
  have := normP_nonneg h (η * x - x') (η * y - y')
  have : 0 ≤ 1 / η * normP s (η * x - x') (η * y - y') := by positivity
  linarith

/-- after a round the velocity is not known better than by the noise of a frame, even if the position were known -/
theorem round_det {s : KF2 K} (h : PosDef s) {q₁ q₂ r : K} (h1 : 0 ≤ q₁) (h2 : 0 ≤ q₂) (hr : 0 < r) (z : K) :
    q₂ * (kfRound q₁ q₂ r z s).a ≤ detP (kfRound q₁ q₂ r z s) := by
  have hm := h.move
  have hb := hm.blur h1 h2
  unfold kfRound
  rw [predict_eq, (hb.update hr z).2, update_true]
  have ha := hb.a
  set b := blur q₁ q₂ (move s) with hbd
  have e : b.a - b.a ^ 2 / (b.a + r) = b.a * r / (b.a + r) := by field_simp; ring
  simp only
  rw [e, ← mul_div_assoc]
  refine div_le_div_of_nonneg_right ?_ (by positivity)
  have hd : q₂ * b.a ≤ detP b := by
    have e2 : detP b - q₂ * b.a = detP (move s) + q₁ * (move s).c := by
      rw [hbd]
      unfold detP blur
      simp only
      ring
    have := hm.det
    have := hm.c
    have : 0 ≤ q₁ * (move s).c := by positivity
    linarith
  calc q₂ * (b.a * r) = (q₂ * b.a) * r := by ring
    _ ≤ detP b * r := mul_le_mul_of_nonneg_right hd hr.le

/-- the target takes up another velocity -/
theorem Close.swerve {n : Noise K} (hn : n.Valid) {E t u u' A η : K} {s : KF2 K} (h : Close n E t u s)
    (hdet : n.q₂ * s.a ≤ detP s) (hM : n.Margin η A) (hA : |u' - u| ≤ A) :
    Close n ((1 + η) * E + (1 + 1 / η) * (A ^ 2 / n.q₂)) t u' s := by
  have hE : 0 ≤ E := (normP_nonneg h.pd _ _).trans h.norm
  have hq := hn.q₂
  refine ⟨h.pd, h.a, h.c, ?_⟩
  rcases hM.change with h0 | h0
  · subst h0
    have : u' = u := by
      have := abs_nonpos_iff.mp hA
      linarith
    subst this
    have : 0 ≤ η * E := mul_nonneg hM.nonneg hE
    have := h.norm
    simp only [ne_eq, OfNat.ofNat_ne_zero, not_false_eq_true, zero_pow, zero_div, mul_zero, add_zero]
    linarith
  · have h1 := normP_add h.pd h0 (s.p - t) (s.v - u) 0 (u - u')
    rw [add_zero, sub_add_sub_cancel] at h1
    have h2 : normP s 0 (u - u') ≤ A ^ 2 / n.q₂ := by
      unfold normP quadP
      have e : s.c * 0 ^ 2 - 2 * s.b * 0 * (u - u') + s.a * (u - u') ^ 2 = s.a * (u - u') ^ 2 := by ring
      rw [e, div_le_div_iff₀ h.pd.det hq]
      have h3 : (u - u') ^ 2 ≤ A ^ 2 := by
        rw [← sq_abs, abs_sub_comm]
        exact pow_le_pow_left₀ (abs_nonneg _) hA 2
      calc s.a * (u - u') ^ 2 * n.q₂ = (n.q₂ * s.a) * (u - u') ^ 2 := by ring
        _ ≤ detP s * A ^ 2 := mul_le_mul hdet h3 (sq_nonneg _) h.pd.det.le
        _ = A ^ 2 * detP s := mul_comm _ _
    have h4 : (1 + η) * normP s (s.p - t) (s.v - u) ≤ (1 + η) * E :=
      mul_le_mul_of_nonneg_left h.norm (by linarith)
    have h5 : (1 + 1 / η) * normP s 0 (u - u') ≤ (1 + 1 / η) * (A ^ 2 / n.q₂) :=
      mul_le_mul_of_nonneg_left h2 (by positivity)
    linarith

/-- a round, after which the target takes up another velocity -/
theorem Close.roundA {n : Noise K} (hn : n.Valid) {E t u u' A η : K} {s : KF2 K} (h : Close n E t u s)
    (hM : n.Margin η A) (hA : |u' - u| ≤ A) {w W : K} (hw : |w| ≤ W) :
    Close n (n.slow η * E + n.unrest η W A) (t + u) u' (kfRound n.q₁ n.q₂ n.r (t + u + w) s) := by
  have h1 := (h.round hn hw).swerve hn (round_det h.pd hn.q₁.le hn.q₂.le hn.r _) hM hA
  have e : (1 + η) * (n.rate * E + W ^ 2 / n.r) + (1 + 1 / η) * (A ^ 2 / n.q₂) = n.slow η * E + n.unrest η W A := by
    unfold Noise.slow Noise.unrest
    ring
  rwa [e] at h1

/-- the bound of the next round -/
theorem boundA_succ {n : Noise K} {η A : K} (hM : n.Margin η A) (W x y : K) (k : Nat) :
    n.slow η * n.boundA η W A x y k + n.unrest η W A = n.boundA η W A x y (k + 1) := by
  have h1 : 1 - n.slow η ≠ 0 := by have := hM.slow; linarith
  have e : n.slow η * (n.unrest η W A / (1 - n.slow η)) + n.unrest η W A = n.unrest η W A / (1 - n.slow η) := by
    field_simp
    ring
  unfold Noise.boundA
  calc _ = n.slow η ^ (k + 1) * n.start x y + (n.slow η * (n.unrest η W A / (1 - n.slow η)) + n.unrest η W A) := by ring
    _ = _ := by rw [e]

theorem unrest_nonneg {n : Noise K} (hn : n.Valid) {η A : K} (hM : n.Margin η A) (W : K) : 0 ≤ n.unrest η W A := by
  have := hn.r
  have := hn.q₂
  have h1 := hM.nonneg
  unfold Noise.unrest
  positivity

theorem start_nonneg {n : Noise K} (hn : n.Valid) (x y : K) : 0 ≤ n.start x y :=
  normP_nonneg (s := ⟨0, 0, n.a, n.b, n.c⟩) ⟨hn.a, hn.c, by have := hn.det; simp only [detP]; linarith⟩ x y

theorem Close.startA {n : Noise K} (hn : n.Valid) {η A : K} (hM : n.Margin η A) (z t u W : K) :
    Close n (n.boundA η W A (z - t) (0 - u) 0) t u ⟨z, 0, n.a, n.b, n.c⟩ := by
  have h1 := unrest_nonneg hn hM W
  have h2 : 0 < 1 - n.slow η := by have := hM.slow; linarith
  refine ⟨⟨hn.a, hn.c, by have := hn.det; simp only [detP]; linarith⟩, le_max_left _ _, le_max_left _ _, ?_⟩
  unfold Noise.boundA
  simp only [pow_zero, one_mul]
  exact le_add_of_le_of_nonneg (le_of_eq rfl) (by positivity)

/-- without changes of velocity -/
theorem margin_zero {n : Noise K} (hn : n.Valid) : n.Margin 0 0 := by
  obtain ⟨f1, f2, f3, f4, f5, f6⟩ := Noise.Valid.facts hn
  exact ⟨le_rfl, by unfold Noise.slow; simpa using f6, Or.inl rfl⟩

theorem boundA_zero {n : Noise K} (hn : n.Valid) (W x y : K) (k : Nat) : n.boundA 0 W 0 x y k = n.bound W x y k := by
  obtain ⟨f1, f2, f3, f4, f5, f6⟩ := Noise.Valid.facts hn
  have hr := hn.r
  have hq : n.q ≠ 0 := f4.ne'
  have ht : n.trace + n.q ≠ 0 := by positivity
  have e1 : 1 - n.trace / (n.trace + n.q) = n.q / (n.trace + n.q) := by field_simp; ring
  unfold Noise.boundA Noise.bound Noise.slow Noise.unrest Noise.rate
  simp only [add_zero, mul_one, one_mul, ne_eq, OfNat.ofNat_ne_zero, not_false_eq_true, zero_pow, zero_div, mul_zero]
  rw [e1, div_div_eq_mul_div, mul_div_assoc]

/-- the bound on the error only gets better -/
theorem boundA_le {n : Noise K} (hn : n.Valid) {η A : K} (hM : n.Margin η A) (W x y : K) (k : Nat) :
    n.boundA η W A x y k ≤ n.boundA η W A x y 0 := by
  obtain ⟨f1, f2, f3, f4, f5, f6⟩ := Noise.Valid.facts hn
  have hst := start_nonneg hn x y
  have h0 : 0 ≤ n.slow η := by
    have := hM.nonneg
    unfold Noise.slow
    positivity
  unfold Noise.boundA
  have : n.slow η ^ k * n.start x y ≤ n.start x y :=
    mul_le_of_le_one_left hst (pow_le_one₀ h0 hM.slow.le)
  simpa using this

end Norfair
