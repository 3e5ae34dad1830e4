import Verif.Model.Segment
import Verif.Lemmas.Float32

/-!
Property theorems C124: driving area and lane lines in the frames of the yolopv2 demo.
-/

namespace Norfair.Props

open Norfair

/-- blue, green, red -/
abbrev Bgr := Nat × Nat × Nat

/-- halfway (rounded down) from a color to another -/
def Halfway (a b c : Bgr) : Prop :=
  (2 * c.1 ≤ a.1 + b.1 ∧ a.1 + b.1 ≤ 2 * c.1 + 1) ∧ (2 * c.2.1 ≤ a.2.1 + b.2.1 ∧ a.2.1 + b.2.1 ≤ 2 * c.2.1 + 1) ∧
    (2 * c.2.2 ≤ a.2.2 + b.2.2 ∧ a.2.2 + b.2.2 ≤ 2 * c.2.2 + 1)

/-- **C124** The rows that are cut out begin where the frame begins in the image for the network: the point of the mask at a
point of the frame is the point at which the network saw this point of the frame. -/
theorem C124_place_partial (p : ℚ × ℚ) : maskPoint 12 p = (demoLetter 640).place 720 1280 p := by
  have h : (demoLetter 640).unpadW = 640 ∧ (demoLetter 640).unpadH = 360 ∧ (demoLetter 640).left = 0 ∧
      (demoLetter 640).top = 12 := by decide +kernel
  unfold maskPoint Letter.place
  rw [h.1, h.2.1, h.2.2.1, h.2.2.2]
  push_cast
  ext
  · simp only
    ring
  · simp only
    ring

/-- **C124** (the part that holds) With the default image size the area is mixed with green and the lines, which go over the
area, with red; other pixels keep their color. The area and the lines are where the network saw them: a pixel has the label
of the point at which the network saw its center. -/
theorem C124_shown_partial (img : Image Bgr) (hh : img.h = 720) (hw : img.w = 1280) (area line : ℚ × ℚ → ℤ) :
    ∃ out, segFrame 640 img area line = some out ∧ out.h = img.h ∧ out.w = img.w ∧
      ∀ i j : Nat, let p := (demoLetter 640).place 720 1280 ((j : ℚ) + 1 / 2, (i : ℚ) + 1 / 2)
        (line p = 1 → Halfway (img.px i j) (0, 0, 255) (out.px i j)) ∧
        (line p ≠ 1 → area p = 1 → Halfway (img.px i j) (0, 255, 0) (out.px i j)) ∧
        (line p ≠ 1 → area p ≠ 1 → out.px i j = img.px i j) := by
  have h1 : (demoLetter 640).outH = 384 ∧ (demoLetter 640).outW = 640 := by decide +kernel
  have h2 : sliceLimit (384 : ℤ).toNat 12 = 12 := by decide
  unfold segFrame showSegResult
  simp only [h1.1, h1.2]
  rw [if_neg (by simp [segMask, sliceLimit, hh, hw])]
  simp only [← C124_place_partial]
  refine ⟨_, rfl, rfl, rfl, fun i j => ⟨fun h => ?_, fun h h' => ?_, fun h h' => ?_⟩⟩
  · simp only [segMask, segColor, h2, h, if_true, Halfway, mixHalf]
    simp only [Nat.add_zero, ne_eq, OfNat.ofNat_ne_zero, not_false_eq_true, if_true, zero_add]
    omega
  · simp only [segMask, segColor, h2, h, h', if_true, if_false, Halfway, mixHalf]
    simp only [Nat.add_zero, ne_eq, OfNat.ofNat_ne_zero, not_false_eq_true, if_true, zero_add]
    omega
  · simp only [segMask, segColor, h2, h, h', if_false]
    simp

/-- **C124** With the default image size a corner of a box that the network saw exactly comes back within half a pixel of
its place in the frame. -/
theorem C124_boxes_partial {p : ℚ × ℚ} (hp : 0 ≤ p.1 ∧ p.1 ≤ 1280 ∧ 0 ≤ p.2 ∧ p.2 ≤ 720) :
    let c := demoCorner 640 ((demoLetter 640).place 720 1280 p)
    |(c.1 : ℚ) - p.1| ≤ 1 / 2 ∧ |(c.2 : ℚ) - p.2| ≤ 1 / 2 := by
  have h1 : (demoLetter 640).outH = 384 ∧ (demoLetter 640).outW = 640 := by decide +kernel
  have hq : scalePoint 384 640 720 1280 none (maskPoint 12 p) = p := by
    have hg : min ((384 : ℚ) / ((720 : Nat) : ℚ)) (640 / ((1280 : Nat) : ℚ)) = 1 / 2 := by norm_num
    unfold scalePoint maskPoint
    simp only [hg]
    push_cast
    ext
    · simp only
      rw [show ((p.1 / 2 - (640 - 1280 * (1 / 2)) / 2) / (1 / 2) : ℚ) = p.1 by ring, max_eq_left hp.1, min_eq_left hp.2.1]
    · simp only
      rw [show ((p.2 / 2 + 12 - (384 - 720 * (1 / 2)) / 2) / (1 / 2) : ℚ) = p.2 by ring, max_eq_left hp.2.2.1,
        min_eq_left hp.2.2.2]
  intro c
  have hc : c = (roundHalfEven p.1, roundHalfEven p.2) := by
    show demoCorner 640 _ = _
    unfold demoCorner
    simp only [h1.1, h1.2, ← C124_place_partial p]
    push_cast
    rw [hq]
  rw [hc]
  exact ⟨roundHalfEven_err _, roundHalfEven_err _⟩

example : (0 : ℚ) ≤ (7 / 2, 5).1 ∧ ((7 / 2, 5) : ℚ × ℚ).1 ≤ 1280 ∧ (0 : ℚ) ≤ (7 / 2, 5).2 ∧ ((7 / 2, 5) : ℚ × ℚ).2 ≤ 720 := by
  norm_num

theorem demoLetter_outW {s : Nat} : (demoLetter s).outW = s := by
  have hr : letterRatio ⟨s, s, true, false, true, 32⟩ 720 1280 = (s : ℚ) / 1280 := by
    unfold letterRatio
    simp only [if_true]
    apply min_eq_right
    push_cast
    have : (0 : ℚ) ≤ s := Nat.cast_nonneg _
    linarith
  have hp : letterPad ⟨s, s, true, false, true, 32⟩ 720 1280 =
      ((↑s, (letterPad ⟨s, s, true, false, true, 32⟩ 720 1280).1.2), 0, (letterPad ⟨s, s, true, false, true, 32⟩ 720 1280).2.2) := by
    have e : (1280 : ℚ) * ((s : ℚ) / 1280) = ((s : ℤ) : ℚ) := by push_cast; ring
    unfold letterPad
    simp only [hr, if_true]
    have : roundHalfEven (((1280 : Nat) : ℚ) * ((s : ℚ) / 1280)) = s := by
      rw [show (((1280 : Nat) : ℚ) = 1280) by norm_num, e, roundHalfEven_int]
    rw [this]
    simp
  have hb : borders 0 = (0, 0, 0) := by decide +kernel
  unfold Letter.outW demoLetter letterbox
  simp only
  rw [hp]
  simp only [Int.cast_zero, hb]
  simp

/-- **C124** is false for every other image size: showing the area raises. -/
theorem C124_false_size {s : Nat} (hs : s ≠ 640) (img : Image Bgr) (hw : img.w = 1280) (area line : ℚ × ℚ → ℤ) :
    segFrame s img area line = none := by
  unfold segFrame showSegResult
  simp only
  rw [if_pos]
  right
  intro h
  have h2 := congrArg Prod.snd h
  simp only [segMask, demoLetter_outW, hw, Int.toNat_natCast] at h2
  omega

/-- C124: a gray frame with a line in the first column and the area below row 700 of the frame, which is row 362 for the network -/
example : (segFrame 640 ⟨720, 1280, fun _ _ => (100, 101, 102)⟩ (fun p => if 362 ≤ p.2 then 1 else 0)
    (fun p => if p.1 ≤ 1 / 2 then 1 else 0)).map (fun o => (o.px 710 0, o.px 700 5, o.px 699 5)) =
    some ((50, 50, 178), (50, 178, 51), (100, 101, 102)) := by decide +kernel

/-- C124: another image size -/
example : segFrame 320 ⟨720, 1280, fun _ _ => (0, 0, 0)⟩ (fun _ => 0) (fun _ => 0) = none :=
  C124_false_size (by decide) _ rfl _ _

end Norfair.Props
