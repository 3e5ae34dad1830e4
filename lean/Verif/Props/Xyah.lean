import Verif.Spec.Demos
import Verif.Props.Iou

/-! C109: boxes given by center, ratio of sides and height. -/

namespace Norfair.Props

open Norfair Norfair.Spec

variable {K : Type} [Field K] [LinearOrder K] [IsStrictOrderedRing K]

/-- **C109** The conversions of boxes are inverse to each other, for boxes whose height is not 0. -/
theorem C109_conversion : (∀ b : Box K, b.y1 ≠ b.y2 → b.toXyah.toBox = b) ∧
    ∀ s : Xyah K, s.h ≠ 0 → s.toBox.toXyah = s := by
  refine ⟨fun b h => ?_, fun s h => ?_⟩
  · obtain ⟨x1, y1, x2, y2⟩ := b
    have h' : y2 - y1 ≠ 0 := sub_ne_zero.mpr (Ne.symm h)
    simp only [Box.toXyah, Xyah.toBox, Box.mk.injEq]
    refine ⟨?_, ?_, ?_, ?_⟩ <;> field_simp <;> ring
  · obtain ⟨cx, cy, a, t⟩ := s
    simp only at h
    have e : cy + t / 2 - (cy - t / 2) = t := by ring
    simp only [Box.toXyah, Xyah.toBox, Xyah.mk.injEq, e, and_true]
    refine ⟨by ring, by ring, ?_⟩
    rw [div_eq_iff h]
    ring

/-- **C109** `iou_xyah` is `iou` of the boxes, also where it is not a number. -/
theorem C109_iou (d o : Xyah K) : iouXyah d o = iouPair d.toBox o.toBox := by
  obtain ⟨cx, cy, a, h⟩ := d
  obtain ⟨cx', cy', a', h'⟩ := o
  have e1 : (Xyah.toBox ⟨cx, cy, a, h⟩).area = h * (a * h) := by simp only [Xyah.toBox, Box.area]; ring
  have e2 : (Xyah.toBox ⟨cx', cy', a', h'⟩).area = h' * (a' * h') := by simp only [Xyah.toBox, Box.area]; ring
  have e3 : max (min (cy + h / 2) (cy' + h' / 2) - max (cy' - h' / 2) (cy - h / 2)) 0 *
      max (min (cx + a * h / 2) (cx' + a' * h' / 2) - max (cx' - a' * h' / 2) (cx - a * h / 2)) 0 =
      (Xyah.toBox ⟨cx, cy, a, h⟩).inter (Xyah.toBox ⟨cx', cy', a', h'⟩) := by
    simp only [Box.inter, Xyah.toBox, mul_div_assoc]
    rw [mul_comm, max_comm (cy' - h' / 2), max_comm (cx' - a' * (h' / 2))]
  simp only [iouXyah, iouPair]
  rw [e3, e1, e2]

/-- **C109** The distance of two converted boxes is the one that the evaluation without conversion uses. -/
theorem C109_boxes {a b : Box K} (ha : a.y1 ≠ a.y2) (hb : b.y1 ≠ b.y2) : iouXyah a.toXyah b.toXyah = iouPair a b := by
  rw [C109_iou, C109_conversion.1 a ha, C109_conversion.1 b hb]

theorem toBox_wellFormed {s : Xyah K} : WellFormed s.toBox ↔ 0 < s.a ∧ 0 < s.h := by
  simp only [WellFormed, Xyah.toBox]
  constructor
  · rintro ⟨h1, h2⟩
    have hh : 0 < s.h := by linarith
    refine ⟨?_, hh⟩
    by_contra hc
    have := mul_nonneg (neg_nonneg.mpr (not_lt.mp hc)) (half_pos hh).le
    linarith [this, neg_mul s.a (s.h / 2)]
  · rintro ⟨h1, h2⟩
    have := mul_pos h1 (half_pos h2)
    constructor <;> linarith

/-- **C109** For a positive ratio and a positive height, `iou_xyah` is a number from 0 to 1, 0 exactly if all four
numbers agree. Otherwise, as can happen to estimates, it is 1 or not a number: then nothing is matched with such an
object for a threshold up to 1. -/
theorem C109_range (d o : Xyah K) :
    ((0 < d.a ∧ 0 < d.h) ∧ (0 < o.a ∧ 0 < o.h) →
      ∃ v, iouXyah d o = some v ∧ 0 ≤ v ∧ v ≤ 1 ∧ (v = 0 ↔ d = o)) ∧
    (¬ ((0 < d.a ∧ 0 < d.h) ∧ (0 < o.a ∧ 0 < o.h)) → iouXyah d o = some 1 ∨ iouXyah d o = none) := by
  rw [C109_iou]
  constructor
  · rintro ⟨h1, h2⟩
    obtain ⟨v, e, v0, v1⟩ := C37_range (toBox_wellFormed.mpr h1) (toBox_wellFormed.mpr h2)
    refine ⟨v, e, v0, v1, ?_⟩
    have hz := C37_zero_iff (toBox_wellFormed.mpr h1) (toBox_wellFormed.mpr h2)
    rw [e, Option.some.injEq] at hz
    rw [hz]
    constructor
    · intro h
      rw [← C109_conversion.2 d h1.2.ne', h, C109_conversion.2 o h2.2.ne']
    · exact fun h => h ▸ rfl
  · intro h
    have h' : ¬ WellFormed d.toBox ∨ ¬ WellFormed o.toBox := by
      rw [toBox_wellFormed, toBox_wellFormed]
      exact not_and_or.mp h
    rcases (C37_malformed h').2 with h | h
    · exact .inl h
    · exact .inr h.1

/-- C109: two boxes, converted and back, and their distance; an estimate with negative height -/
example : (⟨10, 20, 40, 80⟩ : Box ℚ).toXyah = ⟨25, 50, 1 / 2, 60⟩ ∧ (⟨25, 50, 1 / 2, 60⟩ : Xyah ℚ).toBox = ⟨10, 20, 40, 80⟩ ∧
    iouXyah (⟨25, 50, 1 / 2, 60⟩ : Xyah ℚ) ⟨40, 50, 1 / 2, 60⟩ = some (2 / 3) ∧
    iouXyah (⟨25, 50, 1 / 2, 60⟩ : Xyah ℚ) ⟨25, 50, -1 / 2, 60⟩ = none ∧
    iouXyah (⟨25, 50, 1 / 2, 60⟩ : Xyah ℚ) ⟨25, 50, 1 / 2, -60⟩ = some 1 := by decide +kernel

end Norfair.Props
