import Verif.Spec.Kalman
import Mathlib.Tactic.Ring
import Mathlib.Tactic.Linarith
import Mathlib.Tactic.FieldSimp
import Mathlib.Tactic.Positivity

/-! The textbook filter with independent coordinates decouples. -/

namespace Norfair

open Matrix Norfair.Spec

variable {K : Type} {d : Nat}

/-- the state with independent coordinates `s` -/
def dense [Field K] (s : Fin d → KF2 K) : Gauss K d :=
  ⟨Sum.elim (fun i => (s i).p) (fun i => (s i).v),
    fromBlocks (diagonal fun i => (s i).a) (diagonal fun i => (s i).b) (diagonal fun i => (s i).b)
      (diagonal fun i => (s i).c)⟩

theorem splits_dense [Field K] (s : Fin d → KF2 K) : (dense s).Splits s := by
  constructor <;> intros <;> simp [dense, diagonal_apply]

theorem Spec.Gauss.Splits.eq_dense [Field K] {g : Gauss K d} {s : Fin d → KF2 K} (h : g.Splits s) :
    g = dense s := by
  ext i j
  · rcases i with i | i
    · simp [dense, h.pos]
    · simp [dense, h.vel]
  · rcases i with i | i <;> rcases j with j | j
    · simp [dense, h.posPos, diagonal_apply]
    · simp [dense, h.posVel, diagonal_apply]
    · simp [dense, h.velPos, diagonal_apply]
    · simp [dense, h.velVel, diagonal_apply]

theorem splits_iff [Field K] {g : Gauss K d} {s : Fin d → KF2 K} : g.Splits s ↔ g = dense s :=
  ⟨Gauss.Splits.eq_dense, fun h => h ▸ splits_dense s⟩

/-- process noise with independent coordinates -/
def cvQ [Field K] (d : Nat) (q₁ q₂ : K) : Matrix (SIdx d) (SIdx d) K :=
  fromBlocks (diagonal fun _ => q₁) 0 0 (diagonal fun _ => q₂)

theorem dense_predict [Field K] (s : Fin d → KF2 K) (q₁ q₂ : K) :
    (dense s).predict (cvF K d) (cvQ d q₁ q₂) = dense fun i => (s i).predict q₁ q₂ := by
  apply Gauss.ext
  · funext i
    rcases i with i | i <;>
      simp [dense, Gauss.predict, cvF, KF2.predict, fromBlocks_mulVec]
  · simp only [dense, Gauss.predict, cvF, cvQ, fromBlocks_transpose, fromBlocks_multiply,
      fromBlocks_add, transpose_one, transpose_zero, Matrix.one_mul, Matrix.mul_one, Matrix.zero_mul,
      Matrix.mul_zero, zero_add, add_zero, diagonal_add, KF2.predict]
    congr 2
    funext i; ring

theorem obsH_eq [Field K] (m : Fin d → Bool) :
    obsH K m = fromCols (diagonal fun i => if m i then (1 : K) else 0) 0 := by
  ext i j
  rcases j with j | j
  · by_cases h : i = j
    · subst h; simp [obsH]
    · have h' : ¬ j = i := fun e => h e.symm
      simp [obsH, h, h']
  · simp [obsH]

theorem inv_diagonal' [Field K] (v : Fin d → K) (h : ∀ i, v i ≠ 0) :
    (diagonal v)⁻¹ = diagonal fun i => (v i)⁻¹ := by
  apply inv_eq_right_inv
  rw [diagonal_mul_diagonal]
  rw [← diagonal_one]; congr 1; funext i; exact mul_inv_cancel₀ (h i)

theorem dense_S [Field K] (s : Fin d → KF2 K) (m : Fin d → Bool) (r : Fin d → K) :
    obsH K m * (dense s).P * (obsH K m)ᵀ + diagonal r =
      diagonal fun i => (if m i then (s i).a else 0) + r i := by
  rw [obsH_eq]
  simp only [dense, transpose_fromCols, fromCols_mul_fromBlocks, fromCols_mul_fromRows,
    diagonal_transpose, transpose_zero, Matrix.zero_mul, Matrix.mul_zero, add_zero,
    diagonal_mul_diagonal, diagonal_add]
  congr 1; funext i; split <;> simp

/-- the gain -/
theorem dense_G [Field K] (s : Fin d → KF2 K) (m : Fin d → Bool) (r : Fin d → K)
    (h : ∀ i, (if m i then (s i).a else 0) + r i ≠ 0) :
    (dense s).P * (obsH K m)ᵀ * (obsH K m * (dense s).P * (obsH K m)ᵀ + diagonal r)⁻¹ =
      fromRows (diagonal fun i => if m i then (s i).a / ((s i).a + r i) else 0)
        (diagonal fun i => if m i then (s i).b / ((s i).a + r i) else 0) := by
  rw [dense_S, inv_diagonal' _ h, obsH_eq]
  simp only [dense, transpose_fromCols, fromBlocks_mul_fromRows, fromRows_mul,
    diagonal_transpose, transpose_zero, Matrix.mul_zero, add_zero, diagonal_mul_diagonal]
  congr 2 <;> funext i <;> split <;> simp [div_eq_mul_inv]

theorem dense_update [Field K] (s : Fin d → KF2 K) (m : Fin d → Bool) (r z : Fin d → K)
    (h : ∀ i, (if m i then (s i).a else 0) + r i ≠ 0) :
    (dense s).update (obsH K m) (diagonal r) z = dense fun i => (s i).update (r i) (z i) (m i) := by
  simp only [Gauss.update]
  rw [dense_G s m r h, obsH_eq]
  apply Gauss.ext
  · funext i
    rcases i with i | i <;>
      simp [dense, KF2.update, fromRows_mulVec, fromCols_mulVec, mulVec_diagonal] <;>
      cases m i <;> simp [mul_comm]
  · rw [Matrix.sub_mul, Matrix.one_mul]
    simp only [dense, fromRows_mul_fromCols, Matrix.mul_zero,
      diagonal_mul_diagonal, fromBlocks_multiply, Matrix.zero_mul, add_zero, sub_eq_add_neg,
      fromBlocks_neg, fromBlocks_add, diagonal_neg, diagonal_add]
    congr 2 <;> funext i <;> cases hm : m i <;> simp [KF2.update, hm] <;> ring

theorem Spec.KF2.Psd.predict [Field K] [LinearOrder K] [IsStrictOrderedRing K] {s : KF2 K} (h : s.Psd)
    {q₁ q₂ : K} (h₁ : 0 ≤ q₁) (h₂ : 0 ≤ q₂) : (s.predict q₁ q₂).Psd := by
  obtain ⟨ha, hc, hb⟩ := h
  have key : 0 ≤ s.a + 2 * s.b + s.c := by
    by_contra hneg
    push_neg at hneg
    have h1 : (s.a + s.c) < -(2 * s.b) := by linarith
    have h2 : (s.a + s.c) ^ 2 < (2 * s.b) ^ 2 := by
      rw [← neg_sq (2 * s.b)]
      exact pow_lt_pow_left₀ h1 (by linarith) (by norm_num)
    nlinarith [sq_nonneg (s.a - s.c)]
  refine ⟨by simp only [KF2.predict]; linarith, by simp only [KF2.predict]; linarith, ?_⟩
  simp only [KF2.predict]
  nlinarith [mul_nonneg key h₂, mul_nonneg h₁ hc, mul_nonneg h₁ h₂]

theorem Spec.KF2.Psd.update [Field K] [LinearOrder K] [IsStrictOrderedRing K] {s : KF2 K} (h : s.Psd)
    {r : K} (hr : 0 < r) (z : K) (m : Bool) : (s.update r z m).Psd := by
  obtain ⟨ha, hc, hb⟩ := h
  cases m
  · exact ⟨ha, hc, hb⟩
  have hn : 0 < s.a + r := by linarith
  have e1 : s.a - s.a ^ 2 / (s.a + r) = s.a * r / (s.a + r) := by field_simp; ring
  have e2 : s.b - s.a * s.b / (s.a + r) = s.b * r / (s.a + r) := by field_simp; ring
  have e3 : s.c - s.b ^ 2 / (s.a + r) = (s.a * s.c - s.b ^ 2 + s.c * r) / (s.a + r) := by
    field_simp; ring
  refine ⟨?_, ?_, ?_⟩ <;> simp only [KF2.update, if_true]
  · rw [e1]; positivity
  · rw [e3]; apply div_nonneg _ hn.le; nlinarith
  · rw [e1, e2, e3, div_pow, div_mul_div_comm, ← pow_two]
    apply div_le_div_of_nonneg_right _ (by positivity)
    nlinarith [mul_nonneg (sub_nonneg.2 hb) (mul_nonneg hr.le hn.le), mul_nonneg ha hr.le,
      mul_nonneg (mul_nonneg (sub_nonneg.2 hb) ha) hr.le,
      mul_nonneg (mul_nonneg (sub_nonneg.2 hb) hr.le) hr.le]

end Norfair
