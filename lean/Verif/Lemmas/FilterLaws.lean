import Verif.Model.Filter
import Verif.Spec.Points
import Mathlib.Tactic.Ring
import Mathlib.Tactic.Linarith

/-! Array sizes of the filters, and the laws the tracker relies on. -/

set_option linter.unusedSectionVars false

namespace Norfair

open Norfair.Spec

variable {K : Type}

@[simp] theorem vmul_length [Mul K] (a b : List K) : (vmul a b).length = min a.length b.length :=
  List.length_zipWith
@[simp] theorem vadd_length [Add K] (a b : List K) : (vadd a b).length = min a.length b.length :=
  List.length_zipWith
@[simp] theorem vsub_length [Sub K] (a b : List K) : (vsub a b).length = min a.length b.length :=
  List.length_zipWith
@[simp] theorem vdiv_length [Div K] (a b : List K) : (vdiv a b).length = min a.length b.length :=
  List.length_zipWith
@[simp] theorem diagOf_length [Zero K] [One K] (m : List Bool) :
    (diagOf m : List K).length = m.length := by simp [diagOf]

theorem diagOf_get [Zero K] [One K] (m : List Bool) (k : Nat) :
    (diagOf m : List K)[k]? = m[k]?.map (fun b => if b then 1 else 0) := by simp [diagOf]

/-- the array sizes of a `NoFilter` fit -/
def NoFilter.Ok (f : NoFilter K) : Prop := f.x.length = 2 * f.dimZ

theorem noFilter_laws [Ring K] : FilterLaws (noFilterOps (K := K)) NoFilter.Ok where
  len := fun _ h => h
  create := by
    intro p hp
    refine ⟨?_, rfl, rfl⟩
    show (p.data ++ List.replicate (p.dim * p.n) 0).length = 2 * (p.dim * p.n)
    simp [hp]; omega
  predict := fun f h => ⟨h, rfl, rfl⟩
  update := by
    intro f z mask h hz hm
    refine ⟨?_, rfl⟩
    change f.x.length = 2 * f.dimZ at h
    change z.length = f.dimZ at hz
    change mask.length = f.dimZ at hm
    show (f.update z (some (diagOf mask))).x.length = 2 * f.dimZ
    simp [NoFilter.update, hz, hm, h]; omega
  unobserved := by
    intro f z mask h hz hm k hk
    change f.x.length = 2 * f.dimZ at h
    change z.length = f.dimZ at hz
    change mask.length = f.dimZ at hm
    have hkl : k < f.dimZ := by rw [← hm]; exact (List.getElem?_eq_some_iff.mp hk).1
    have hzl : (vadd (vmul (diagOf mask) z)
        (vmul ((diagOf mask).map (fun a : K => 1 - a)) (f.x.take f.dimZ))).length = f.dimZ := by
      simp [hz, hm, h]; omega
    show (f.update z (some (diagOf mask))).x[k]? = f.x[k]? ∧
      (f.update z (some (diagOf mask))).x[f.dimZ + k]? = f.x[f.dimZ + k]?
    simp only [NoFilter.update]
    constructor
    · rw [List.getElem?_append_left (by rw [hzl]; exact hkl)]
      simp only [vadd, vmul, List.getElem?_zipWith, List.getElem?_map, diagOf_get, hk,
        Option.map_some, List.getElem?_take_of_lt hkl]
      rw [List.getElem?_eq_getElem (by omega : k < z.length),
        List.getElem?_eq_getElem (by omega : k < f.x.length)]
      simp
    · rw [List.getElem?_append_right (by rw [hzl]; omega), hzl, List.getElem?_drop]
      congr 1; omega
  setX := fun f x _ hx => ⟨hx, rfl, rfl⟩

/-- the array sizes of an `OptimizedKalmanFilter` fit -/
structure OKF.Ok (f : OKF K) : Prop where
  x : f.x.length = 2 * f.dimZ
  posVar : f.posVar.length = f.dimZ
  posVel : f.posVel.length = f.dimZ
  velVar : f.velVar.length = f.dimZ
  defaultR : f.defaultR.length = f.dimZ

theorem okf_laws [Field K] (pr : OKFParams K) : FilterLaws (okfOps pr) OKF.Ok where
  len := fun _ h => h.x
  create := by
    intro p hp
    refine ⟨⟨?_, ?_, ?_, ?_, ?_⟩, rfl, rfl⟩
    · show (p.data ++ List.replicate (p.dim * p.n) 0).length = 2 * (p.dim * p.n)
      simp [hp]; omega
    all_goals simp [okfOps, OKF.create]
  predict := by
    intro f h
    refine ⟨⟨?_, h.posVar, h.posVel, h.velVar, h.defaultR⟩, rfl, ?_⟩
    · show (f.predict).x.length = 2 * f.dimZ
      simp [OKF.predict, h.x]; omega
    · show ((f.predict).x).drop f.dimZ = f.x.drop f.dimZ
      have : (vadd (f.x.take f.dimZ) (f.x.drop f.dimZ)).length = f.dimZ := by
        simp [h.x]; omega
      simp only [OKF.predict]
      rw [List.drop_append_of_le_length (by rw [this]), ]
      conv_lhs => rw [show List.drop f.dimZ (vadd (f.x.take f.dimZ) (f.x.drop f.dimZ)) = [] by
        rw [List.drop_eq_nil_iff, this]]
      simp
  update := by
    intro f z mask h hz hm
    change z.length = f.dimZ at hz
    change mask.length = f.dimZ at hm
    refine ⟨⟨?_, ?_, ?_, ?_, h.defaultR⟩, rfl⟩
    all_goals
      simp [okfOps, OKF.update, hz, hm, h.x, h.posVar, h.posVel, h.velVar, h.defaultR]
    omega
  unobserved := by
    intro f z mask h hz hm k hk
    change z.length = f.dimZ at hz
    change mask.length = f.dimZ at hm
    have hx := h.x
    have hkl : k < f.dimZ := by rw [← hm]; exact (List.getElem?_eq_some_iff.mp hk).1
    have e1 : ∀ e : List K, (vmul (diagOf mask) e)[k]? = e[k]?.map (fun _ => 0) := by
      intro e
      simp only [vmul, List.getElem?_zipWith, diagOf_get, hk, Option.map_some]
      cases e[k]? <;> simp
    have e2 : ∀ a e : List K, k < e.length → (vadd a (vmul (diagOf mask) e))[k]? = a[k]? := by
      intro a e he
      simp only [vadd, List.getElem?_zipWith, e1, List.getElem?_eq_getElem he, Option.map_some]
      cases a[k]? <;> simp
    show (f.update z none (some (diagOf mask))).x[k]? = f.x[k]? ∧
      (f.update z none (some (diagOf mask))).x[f.dimZ + k]? = f.x[f.dimZ + k]?
    simp only [OKF.update]
    constructor
    · rw [List.getElem?_append_left (by
        simp [hz, hm, hx, h.posVar, h.posVel, h.velVar, h.defaultR]; omega), e2 _ _ (by
        simp [hz, hm, hx, h.posVar, h.posVel, h.velVar, h.defaultR]; omega),
        List.getElem?_take_of_lt hkl]
    · rw [List.getElem?_append_right (by
        simp [hz, hm, hx, h.posVar, h.posVel, h.velVar, h.defaultR])]
      have hlen : ∀ e : List K, e.length = f.dimZ →
          (vadd (f.x.take f.dimZ) (vmul (diagOf mask) e)).length = f.dimZ := by
        intro e he; simp [hm, hx, he]; omega
      rw [hlen _ (by simp [hz, hm, hx, h.posVar, h.posVel, h.velVar, h.defaultR]; omega),
        Nat.add_sub_cancel_left, e2 _ _ (by
        simp [hz, hm, hx, h.posVar, h.posVel, h.velVar, h.defaultR]; omega), List.getElem?_drop]
  setX := fun f x h hx => ⟨⟨hx, h.posVar, h.posVel, h.velVar, h.defaultR⟩, rfl, rfl⟩

end Norfair
