import Verif.Lemmas.FilterLaws
import Verif.Lemmas.Kalman

/-! `OptimizedKalmanFilter` coordinate by coordinate. -/

namespace Norfair

open Norfair.Spec

variable {K : Type}

theorem getD_vmul [Field K] {a b : List K} {i : Nat} (ha : i < a.length) (hb : i < b.length) :
    (vmul a b).getD i 0 = a.getD i 0 * b.getD i 0 := by
  simp [vmul, List.getElem?_zipWith, List.getElem?_eq_getElem ha, List.getElem?_eq_getElem hb]
theorem getD_vadd [Field K] {a b : List K} {i : Nat} (ha : i < a.length) (hb : i < b.length) :
    (vadd a b).getD i 0 = a.getD i 0 + b.getD i 0 := by
  simp [vadd, List.getElem?_zipWith, List.getElem?_eq_getElem ha, List.getElem?_eq_getElem hb]
theorem getD_vsub [Field K] {a b : List K} {i : Nat} (ha : i < a.length) (hb : i < b.length) :
    (vsub a b).getD i 0 = a.getD i 0 - b.getD i 0 := by
  simp [vsub, List.getElem?_zipWith, List.getElem?_eq_getElem ha, List.getElem?_eq_getElem hb]
theorem getD_vdiv [Field K] {a b : List K} {i : Nat} (ha : i < a.length) (hb : i < b.length) :
    (vdiv a b).getD i 0 = a.getD i 0 / b.getD i 0 := by
  simp [vdiv, List.getElem?_zipWith, List.getElem?_eq_getElem ha, List.getElem?_eq_getElem hb]
theorem getD_map [Field K] {a : List K} {i : Nat} (f : K → K) (ha : i < a.length) :
    (a.map f).getD i 0 = f (a.getD i 0) := by
  simp [List.getElem?_eq_getElem ha]
theorem getD_take [Field K] {a : List K} {i n : Nat} (h : i < n) :
    (a.take n).getD i 0 = a.getD i 0 := by
  simp [List.getElem?_take_of_lt h]
theorem getD_drop [Field K] {a : List K} {i n : Nat} :
    (a.drop n).getD i 0 = a.getD (n + i) 0 := by
  simp

theorem getD_append_left [Zero K] {a b : List K} {i : Nat} (h : i < a.length) :
    (a ++ b).getD i 0 = a.getD i 0 := by
  simp [List.getElem?_append_left h]
theorem getD_append_right [Zero K] {a b : List K} {i : Nat} (h : a.length ≤ i) :
    (a ++ b).getD i 0 = b.getD (i - a.length) 0 := by
  simp [List.getElem?_append_right h]

/-- coordinate `i` of a filter -/
def OKF.coord [Zero K] (f : OKF K) (i : Nat) : KF2 K :=
  ⟨f.x.getD i 0, f.x.getD (f.dimZ + i) 0, f.posVar.getD i 0, f.posVel.getD i 0, f.velVar.getD i 0⟩

theorem OKF.coord_predict [Field K] {f : OKF K} (h : f.Ok) {i : Nat} (hi : i < f.dimZ) :
    f.predict.coord i = { f.coord i with p := (f.coord i).p + (f.coord i).v } := by
  have hx := h.x
  have hl : (vadd (f.x.take f.dimZ) (f.x.drop f.dimZ)).length = f.dimZ := by simp [hx]; omega
  simp only [OKF.coord, OKF.predict, KF2.mk.injEq, and_true, true_and]
  constructor
  · rw [getD_append_left (by rw [hl]; exact hi), getD_vadd (by simp [hx]; omega)
      (by simp [hx]; omega), getD_take hi, getD_drop]
  · rw [getD_append_right (by rw [hl]; omega), hl, Nat.add_sub_cancel_left, getD_drop]

/-- what `update` does with a single coordinate -/
def okfStep [Field K] (q r z h : K) (s : KF2 K) : KF2 K :=
  let e := (z - s.p) * h
  let n := s.a + s.b + (s.b + s.c) + q + r
  ⟨s.p + h * ((1 - r / n) * e), s.v + h * ((s.b + s.c) / n * e),
    (1 - r / n) * (n * (1 - h) + r * h), (s.b + s.c) / n * (n * (1 - h) + r * h),
    s.c + (q - h * ((s.b + s.c) / n * ((s.b + s.c) / n) * n))⟩

/-- `OKF.update` with the arguments filled in -/
def OKF.updateWith [Field K] (f : OKF K) (z kalmanR diagonal : List K) : OKF K :=
  let pos := f.x.take f.dimZ
  let vel := f.x.drop f.dimZ
  let error := vmul (vsub z pos) diagonal
  let vp := vadd f.posVel f.velVar
  let added := vadd ((vadd (vadd f.posVar f.posVel) vp).map (fun a => a + f.q)) kalmanR
  let rOver := vdiv kalmanR added
  let vpOver := vdiv vp added
  let addedOrR := vadd (vmul added (diagonal.map (fun a => 1 - a))) (vmul kalmanR diagonal)
  { f with
    x := vadd pos (vmul diagonal (vmul (rOver.map (fun a => 1 - a)) error)) ++
      vadd vel (vmul diagonal (vmul vpOver error))
    posVar := vmul (rOver.map (fun a => 1 - a)) addedOrR
    posVel := vmul vpOver addedOrR
    velVar := vadd f.velVar
      ((vmul diagonal (vmul (vpOver.map (fun a => a * a)) added)).map (fun a => f.q - a)) }

theorem OKF.update_eq [Field K] (f : OKF K) (z : List K) (R H : Option (List K)) :
    f.update z R H = f.updateWith z (R.getD f.defaultR) (H.getD (List.replicate f.dimZ 1)) := by
  cases R <;> cases H <;> simp [OKF.update, OKF.updateWith]

theorem OKF.coord_update [Field K] {f : OKF K} (h : f.Ok) {z : List K} (hz : z.length = f.dimZ)
    {R : Option (List K)} (hR : ∀ r, R = some r → r.length = f.dimZ)
    {H : Option (List K)} (hH : ∀ r, H = some r → r.length = f.dimZ) {i : Nat} (hi : i < f.dimZ) :
    (f.update z R H).coord i =
      okfStep f.q ((R.getD f.defaultR).getD i 0) (z.getD i 0)
        ((H.getD (List.replicate f.dimZ 1)).getD i 0) (f.coord i) := by
  have hR' : (R.getD f.defaultR).length = f.dimZ := by
    cases R with
    | none => exact h.defaultR
    | some r => exact hR r rfl
  have hH' : (H.getD (List.replicate f.dimZ 1)).length = f.dimZ := by
    cases H with
    | none => simp
    | some r => exact hH r rfl
  rw [OKF.update_eq]
  clear hR hH
  generalize H.getD (List.replicate f.dimZ 1) = dg at hH' ⊢
  generalize R.getD f.defaultR = kr at hR' ⊢
  have hx := h.x
  have h1 := h.posVar
  have h2 := h.posVel
  have h3 := h.velVar
  simp only [OKF.coord, OKF.updateWith]
  rw [getD_append_left (by simp [hx, h1, h2, h3, hz, hR', hH']; omega),
    getD_append_right (by simp [hx, h1, h2, h3, hz, hR', hH']),
    show ∀ n, n = f.dimZ → f.dimZ + i - n = i by intros; omega]
  swap
  · simp [hx, h1, h2, h3, hz, hR', hH']; omega
  have L : ∀ n, 2 * n - n = n := by intro n; omega
  simp (discharger := (simp [hx, h1, h2, h3, hz, hR', hH', L]; try omega)) only
    [getD_vadd, getD_vmul, getD_vsub, getD_vdiv, getD_map, getD_drop, okfStep]
  simp only [getD_take hi]

theorem okfStep_eq [Field K] {q r z : K} {s : KF2 K} (m : Bool)
    (hn : s.a + s.b + (s.b + s.c) + q + r ≠ 0) :
    okfStep q r z (if m then 1 else 0) s =
      KF2.update r z m ⟨s.p, s.v, s.a + 2 * s.b + s.c + q, s.b + s.c, s.c + q⟩ := by
  have e : s.a + s.b + (s.b + s.c) + q = s.a + 2 * s.b + s.c + q := by ring
  rw [e] at hn
  simp only [okfStep, KF2.update, e]
  generalize s.a + 2 * s.b + s.c + q = A at hn ⊢
  generalize s.b + s.c = B
  cases m
  · simp only [Bool.false_eq_true, if_false]
    ext <;> simp
    · field_simp; ring
    · field_simp
  · simp only [if_true]
    ext <;> simp only
    · field_simp; ring
    · field_simp
    · field_simp; ring
    · field_simp; ring
    · field_simp; ring

end Norfair
