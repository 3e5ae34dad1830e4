import Verif.Model.FilterPy
import Verif.Lemmas.Kalman
import Verif.Spec.Points
import Mathlib.Tactic.NoncommRing

/-! The filters of `FilterPyKalmanFilterFactory`: the Joseph form, the laws the tracker relies on. -/

namespace Norfair

open Matrix Norfair.Spec

variable {K : Type} {d : Nat}

theorem joseph [Field K] (P : Matrix (SIdx d) (SIdx d) K) (H : Matrix (Fin d) (SIdx d) K)
    (R : Matrix (Fin d) (Fin d) K) (h : IsUnit (H * P * Hᵀ + R).det) :
    let G := P * Hᵀ * (H * P * Hᵀ + R)⁻¹
    (1 - G * H) * P * (1 - G * H)ᵀ + G * R * Gᵀ = (1 - G * H) * P := by
  intro G
  have e1 : G * (H * P * Hᵀ + R) = P * Hᵀ := by
    show P * Hᵀ * _ * _ = _
    rw [Matrix.mul_assoc, nonsing_inv_mul _ h, Matrix.mul_one]
  have e2 : (1 - G * H) * P * Hᵀ = G * R := by
    rw [Matrix.sub_mul, Matrix.sub_mul, Matrix.one_mul, ← e1, Matrix.mul_add]
    simp only [Matrix.mul_assoc]
    abel
  rw [transpose_sub, transpose_one, transpose_mul, Matrix.mul_sub, Matrix.mul_one,
    ← Matrix.mul_assoc, e2]
  abel

/-- the part of a filter that the equations talk about -/
def FPKalman.gauss (f : FPKalman K d) : Gauss K d := ⟨f.x, f.P⟩

theorem FPKalman.gauss_predict [Field K] (f : FPKalman K d) :
    f.predict.gauss = f.gauss.predict f.F f.Q := rfl

theorem FPKalman.gauss_update [Field K] (f : FPKalman K d) (z : Fin d → K)
    (R : Option (Matrix (Fin d) (Fin d) K)) (H : Option (Matrix (Fin d) (SIdx d) K))
    (h : IsUnit (H.getD f.H * f.P * (H.getD f.H)ᵀ + R.getD f.R).det) :
    (f.update z R H).gauss = f.gauss.update (H.getD f.H) (R.getD f.R) z := by
  have hj := joseph f.P (H.getD f.H) (R.getD f.R) h
  simp only [FPKalman.update, FPKalman.gauss, Gauss.update, ← Matrix.mul_assoc]
  simp only at hj
  rw [hj]

/-- constant velocity filters with independent coordinates, valid covariances -/
structure FPKalman.Good [Field K] [LinearOrder K] (f : FPKalman K d) : Prop where
  F : f.F = cvF K d
  H : f.H = obsH K (fun _ => true)
  Q : ∃ q₁ q₂ : K, 0 ≤ q₁ ∧ 0 ≤ q₂ ∧ f.Q = cvQ d q₁ q₂
  R : ∃ r : K, 0 < r ∧ f.R = diagonal fun _ => r
  s : ∃ s : Fin d → KF2 K, (∀ i, (s i).Psd) ∧ f.gauss = dense s

theorem hitH_eq [Field K] (mask : List Bool) :
    hitH K d mask = obsH K (fun i => mask.getD i false) := (obsH_eq _).symm

theorem create_F [Field K] (pr : FPParams K) (p : Pts K) :
    (FPKalman.create pr p).F = cvF K (p.dim * p.n) := by
  ext i j
  rcases i with i | i <;> rcases j with j | j <;>
    simp [FPKalman.create, cvF, Matrix.one_apply]

theorem create_H [Field K] (pr : FPParams K) (p : Pts K) :
    (FPKalman.create pr p).H = obsH K (fun _ => true) := by
  ext i j
  simp [FPKalman.create, obsH]

theorem create_Q [Field K] (pr : FPParams K) (p : Pts K) :
    (FPKalman.create pr p).Q = cvQ (p.dim * p.n) 1 pr.Q := by
  ext i j
  rcases i with i | i <;> rcases j with j | j <;>
    simp [FPKalman.create, FPKalman.init, cvQ, mulVelVel, Matrix.one_apply, diagonal_apply]

theorem create_R [Field K] (pr : FPParams K) (p : Pts K) :
    (FPKalman.create pr p).R = diagonal fun _ => pr.R := by
  ext i j
  simp [FPKalman.create, FPKalman.init, Matrix.one_apply, diagonal_apply]

theorem create_gauss [Field K] (pr : FPParams K) (p : Pts K) :
    (FPKalman.create pr p).gauss = dense fun i => ⟨p.vec _ i, 0, 1, 0, pr.P⟩ := by
  apply Gauss.ext
  · rfl
  · ext i j
    rcases i with i | i <;> rcases j with j | j <;>
      simp [FPKalman.create, FPKalman.init, FPKalman.gauss, dense, mulVelVel, Matrix.one_apply,
        diagonal_apply]

theorem FPKalman.Good.predict [Field K] [LinearOrder K] [IsStrictOrderedRing K] {f : FPKalman K d}
    (h : f.Good) : f.predict.Good := by
  obtain ⟨q₁, q₂, h₁, h₂, hq⟩ := h.Q
  obtain ⟨s, hs, hg⟩ := h.s
  refine ⟨h.F, h.H, h.Q, h.R, fun i => (s i).predict q₁ q₂, fun i => (hs i).predict h₁ h₂, ?_⟩
  rw [gauss_predict, h.F, hq, hg, dense_predict]

/-- the matrix that is inverted in `update` -/
theorem good_S [Field K] [LinearOrder K] [IsStrictOrderedRing K] {s : Fin d → KF2 K}
    (hs : ∀ i, (s i).Psd) (m : Fin d → Bool) {r : Fin d → K} (hr : ∀ i, 0 < r i) (i : Fin d) :
    0 < (if m i then (s i).a else 0) + r i := by
  have := (hs i).1
  have := hr i
  split <;> linarith

theorem FPKalman.Good.unit [Field K] [LinearOrder K] [IsStrictOrderedRing K] {f : FPKalman K d}
    (h : f.Good) (m : Fin d → Bool) :
    IsUnit (obsH K m * f.P * (obsH K m)ᵀ + f.R).det := by
  obtain ⟨r, hr, hR⟩ := h.R
  obtain ⟨s, hs, hg⟩ := h.s
  have hP : f.P = (dense s).P := by rw [← hg]; rfl
  rw [hP, hR, dense_S, det_diagonal, isUnit_iff_ne_zero, Finset.prod_ne_zero_iff]
  exact fun i _ => (good_S hs m (fun _ => hr) i).ne'

theorem FPKalman.Good.update [Field K] [LinearOrder K] [IsStrictOrderedRing K] {f : FPKalman K d}
    (h : f.Good) (m : Fin d → Bool) (z : Fin d → K) : (f.update z none (some (obsH K m))).Good := by
  obtain ⟨r, hr, hR⟩ := h.R
  obtain ⟨s, hs, hg⟩ := h.s
  refine ⟨h.F, h.H, h.Q, h.R, fun i => (s i).update r (z i) (m i),
    fun i => (hs i).update hr _ _, ?_⟩
  rw [gauss_update f z none (some (obsH K m)) (h.unit m), hg]
  simp only [Option.getD_some, Option.getD_none]
  rw [hR, dense_update _ _ _ _ (fun i => (good_S hs m (fun _ => hr) i).ne')]

theorem FPKalman.Good.create [Field K] [LinearOrder K] [IsStrictOrderedRing K] {pr : FPParams K}
    (hR : 0 < pr.R) (hQ : 0 ≤ pr.Q) (hP : 0 ≤ pr.P) (p : Pts K) : (FPKalman.create pr p).Good :=
  ⟨create_F pr p, create_H pr p, ⟨1, pr.Q, zero_le_one, hQ, create_Q pr p⟩, ⟨pr.R, hR, create_R pr p⟩,
    _, fun _ => ⟨zero_le_one, hP, by simpa using hP⟩, create_gauss pr p⟩

theorem FPKalman.Good.setX [Field K] [LinearOrder K] {f : FPKalman K d} (h : f.Good)
    (x : SIdx d → K) : ({ f with x := x } : FPKalman K d).Good := by
  obtain ⟨s, hs, hg⟩ := h.s
  refine ⟨h.F, h.H, h.Q, h.R,
    fun i => { s i with p := x (Sum.inl i), v := x (Sum.inr i) }, hs, ?_⟩
  apply Gauss.ext
  · funext i
    rcases i with i | i <;> rfl
  · have := congrArg Gauss.P hg
    exact this

theorem FPKalman.list_length (x : SIdx d → K) : (FPKalman.list x).length = 2 * d := by
  simp [FPKalman.list]; omega

theorem FPKalman.list_pos (x : SIdx d → K) (i : Fin d) : (FPKalman.list x)[i.val]? =
    some (x (Sum.inl i)) := by
  rw [FPKalman.list, List.getElem?_append_left (by simp)]
  simp

theorem FPKalman.list_vel (x : SIdx d → K) (i : Fin d) : (FPKalman.list x)[d + i.val]? =
    some (x (Sum.inr i)) := by
  rw [FPKalman.list, List.getElem?_append_right (by simp)]
  simp

theorem FPKalman.list_drop (x : SIdx d → K) :
    (FPKalman.list x).drop d = List.ofFn fun i => x (Sum.inr i) := by
  rw [FPKalman.list, List.drop_append]
  simp

theorem FPKalman.list_unlist [Zero K] (l : List K) (h : l.length = 2 * d) :
    FPKalman.list (FPKalman.unlist d l) = l := by
  apply List.ext_getElem?
  intro k
  by_cases h1 : k < d
  · rw [show k = (⟨k, h1⟩ : Fin d).val from rfl, FPKalman.list_pos]
    simp [FPKalman.unlist, List.getElem?_eq_getElem (show k < l.length by omega)]
  · by_cases h2 : k < 2 * d
    · obtain ⟨j, rfl⟩ : ∃ j, k = d + j := ⟨k - d, by omega⟩
      have hj : j < d := by omega
      have := FPKalman.list_vel (FPKalman.unlist d l) ⟨j, hj⟩
      simp only at this
      rw [this]
      simp [FPKalman.unlist, List.getElem?_eq_getElem (show d + j < l.length by omega)]
    · rw [List.getElem?_eq_none (by rw [FPKalman.list_length]; omega),
        List.getElem?_eq_none (by omega)]

theorem filterPy_laws [Field K] [LinearOrder K] [IsStrictOrderedRing K] (pr : FPParams K)
    (hR : 0 < pr.R) (hQ : 0 ≤ pr.Q) (hP : 0 ≤ pr.P) :
    FilterLaws (filterPyOps pr) (fun f => f.2.Good) where
  len := fun f _ => FPKalman.list_length f.2.x
  create := by
    intro p hp
    refine ⟨FPKalman.Good.create hR hQ hP p, rfl, ?_⟩
    show FPKalman.list (Sum.elim (p.vec (p.dim * p.n)) (fun _ => 0)) = _
    simp only [FPKalman.list, Sum.elim_inl, Sum.elim_inr]
    congr 1
    · apply List.ext_getElem?
      intro k
      by_cases hk : k < p.dim * p.n
      · simp [hk, Pts.vec, List.getElem?_eq_getElem (show k < p.data.length by omega)]
      · simp [hk, List.getElem?_eq_none (show p.data.length ≤ k by omega)]
    · simp
  predict := by
    intro f h
    refine ⟨h.predict, rfl, ?_⟩
    show (FPKalman.list f.2.predict.x).drop f.1 = (FPKalman.list f.2.x).drop f.1
    rw [FPKalman.list_drop, FPKalman.list_drop]
    congr 1
    funext i
    simp only [FPKalman.predict, h.F, cvF]
    rw [← Sum.elim_comp_inl_inr f.2.x, fromBlocks_mulVec]
    simp
  update := by
    intro f z mask h _ _
    refine ⟨?_, rfl⟩
    show (f.2.update _ none (some (hitH K f.1 mask))).Good
    rw [hitH_eq]
    exact h.update _ _
  unobserved := by
    intro f z mask h hz hm k hk
    change mask.length = f.1 at hm
    have hkl : k < f.1 := by rw [← hm]; exact (List.getElem?_eq_some_iff.mp hk).1
    obtain ⟨r, hr, hR⟩ := h.R
    obtain ⟨s, hs, hg⟩ := h.s
    have e := FPKalman.gauss_update f.2 (fun i => z.getD i 0) none (some (hitH K f.1 mask))
      (by rw [hitH_eq]; exact h.unit _)
    simp only [Option.getD_some, Option.getD_none] at e
    rw [hg, hR, hitH_eq,
      dense_update s (fun i => mask.getD i false) (fun _ => r) (fun i => z.getD i 0)
        (fun i => (good_S hs (fun i => mask.getD i false) (fun _ => hr) i).ne')] at e
    have hk' : mask.getD k false = false := by simp [List.getD, hk]
    have e1 : ∀ j, (f.2.update (fun i => z.getD i 0) none (some (hitH K f.1 mask))).x j =
        (dense fun i => (s i).update r (z.getD i 0) (mask.getD i false)).x j := by
      intro j; rw [hitH_eq]; exact congrFun (congrArg Gauss.x e) j
    have e0 : ∀ j, f.2.x j = (dense s).x j := fun j => congrFun (congrArg Gauss.x hg) j
    show (FPKalman.list (f.2.update (fun i => z.getD i 0) none (some (hitH K f.1 mask))).x)[k]? =
        (FPKalman.list f.2.x)[k]? ∧
      (FPKalman.list (f.2.update (fun i => z.getD i 0) none (some (hitH K f.1 mask))).x)[f.1 + k]? =
        (FPKalman.list f.2.x)[f.1 + k]?
    have p1 := FPKalman.list_pos (f.2.update (fun i => z.getD i 0) none (some (hitH K f.1 mask))).x
      ⟨k, hkl⟩
    have p2 := FPKalman.list_pos f.2.x ⟨k, hkl⟩
    have p3 := FPKalman.list_vel (f.2.update (fun i => z.getD i 0) none (some (hitH K f.1 mask))).x
      ⟨k, hkl⟩
    have p4 := FPKalman.list_vel f.2.x ⟨k, hkl⟩
    simp only at p1 p2 p3 p4
    rw [p1, p2, p3, p4, e1, e1, e0, e0]
    simp [dense, KF2.update, hk]
  setX := fun f x h hx => ⟨h.setX _, rfl, FPKalman.list_unlist x hx⟩

end Norfair
