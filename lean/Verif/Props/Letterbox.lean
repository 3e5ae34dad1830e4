import Verif.Model.Letterbox
import Verif.Lemmas.Float32
import Mathlib.Tactic.Linarith
import Mathlib.Tactic.Positivity
import Mathlib.Tactic.FieldSimp
import Mathlib.Tactic.Ring
import Mathlib.Tactic.NormNum

/-!
Property theorems C119: boxes come back from the letterboxed image to their place.
-/

namespace Norfair.Props

open Norfair

theorem roundHalfEven_near {x : ℚ} {k : ℤ} (h : |x - k| < 1 / 2) : roundHalfEven x = k := by
  have h1 := roundHalfEven_err x
  rw [abs_le] at h1
  rw [abs_lt] at h
  have h2 : |(roundHalfEven x : ℚ) - k| < 1 := by
    rw [abs_lt]
    constructor <;> linarith
  have h3 : |roundHalfEven x - k| < 1 := by exact_mod_cast h2
  have := Int.abs_lt_one_iff.mp h3
  omega

/-- the borders of an integer padding: they add up to it, and the first one is at most half a pixel off its middle -/
theorem borders_int (D : ℤ) : (borders D).1 = (D : ℚ) / 2 ∧ (borders D).2.1 + (borders D).2.2 = D ∧
    |((borders D).2.1 : ℚ) - (D : ℚ) / 2| ≤ 1 / 2 := by
  refine ⟨rfl, ?_⟩
  unfold borders
  simp only
  rcases Int.even_or_odd' D with ⟨k, rfl | rfl⟩
  · rw [roundHalfEven_near (k := k) (by push_cast; rw [abs_lt]; constructor <;> linarith),
      roundHalfEven_near (k := k) (by push_cast; rw [abs_lt]; constructor <;> linarith)]
    refine ⟨by ring, ?_⟩
    push_cast
    rw [abs_le]
    constructor <;> linarith
  · rw [roundHalfEven_near (k := k) (by push_cast; rw [abs_lt]; constructor <;> linarith),
      roundHalfEven_near (k := k + 1) (by push_cast; rw [abs_lt]; constructor <;> linarith)]
    refine ⟨by ring, ?_⟩
    push_cast
    rw [abs_le]
    constructor <;> linarith

/-- the way back in one direction, before clipping -/
theorem back_error {x u w left D g : ℚ} (hw : 0 < w) (hg : 0 < g) (hx0 : 0 ≤ x) (hxw : x ≤ w) {b : ℚ}
    (hb : |u - w * g| / 2 + |left - D / 2| ≤ b) :
    |(x * u / w + left - (u + D - w * g) / 2) / g - x| ≤ b / g := by
  have e : (x * u / w + left - (u + D - w * g) / 2) / g - x = ((u - w * g) * (x / w - 1 / 2) + (left - D / 2)) / g := by
    field_simp
    ring
  rw [e, abs_div, abs_of_pos hg]
  refine div_le_div_of_nonneg_right (le_trans (abs_add_le _ _) (le_trans ?_ hb)) hg.le
  refine add_le_add_left ?_ _
  rw [abs_mul, div_eq_mul_one_div |u - w * g|]
  refine mul_le_mul_of_nonneg_left ?_ (abs_nonneg _)
  have h1 : 0 ≤ x / w := by positivity
  have h2 : x / w ≤ 1 := (div_le_one hw).mpr hxw
  rw [abs_le]
  constructor <;> linarith

/-- clipping to the image does no harm to a point of the image -/
theorem clip_error {x y w : ℚ} (hx0 : 0 ≤ x) (hxw : x ≤ w) : |min (max y 0) w - x| ≤ |y - x| := by
  rcases le_total y 0 with h | h
  · rw [max_eq_right h, min_eq_left (by linarith)]
    rw [abs_of_nonpos (by linarith), abs_of_nonpos (by linarith)]
    linarith
  · rw [max_eq_left h]
    rcases le_total y w with h' | h'
    · rw [min_eq_left h']
    · rw [min_eq_right h', abs_of_nonneg (by linarith), abs_of_nonneg (by linarith)]
      linarith

/-- the side that decides about the ratio: it is filled exactly; the other side `u` is rounded, and padded with `D ≥ 0` -/
theorem side_error {w h nw : ℚ} (hw : 0 < w) (hh : 0 < h) (hnw : 0 < nw) {u D g : ℚ}
    (hu : |u - h * (nw / w)| ≤ 1 / 2) (hD : 0 ≤ D) (hg : g = min ((u + D) / h) (nw / w)) :
    |nw - w * g| ≤ w / h / 2 ∧ |u - h * g| ≤ 1 / 2 := by
  rw [abs_le] at hu
  have hwr : w * (nw / w) = nw := by field_simp
  rcases le_total ((u + D) / h) (nw / w) with hc | hc
  · rw [min_eq_left hc] at hg
    have hhg : h * g = u + D := by rw [hg]; field_simp
    have hle : h * g ≤ h * (nw / w) := by
      rw [hg]
      exact mul_le_mul_of_nonneg_left hc hh.le
    constructor
    · have h1 : nw - w * g = w / h * (h * (nw / w) - h * g) := by
        field_simp
      rw [h1, abs_of_nonneg (mul_nonneg (by positivity) (by linarith)), div_eq_mul_one_div (w / h) 2]
      exact mul_le_mul_of_nonneg_left (by linarith) (by positivity)
    · rw [abs_le]
      constructor <;> linarith
  · rw [min_eq_right hc] at hg
    rw [hg, hwr]
    refine ⟨?_, by rw [abs_le]; exact hu⟩
    simp only [sub_self, abs_zero]
    positivity

/-- how elongated an image is -/
def aspect (h w : Nat) : ℚ := max ((w : ℚ) / h) ((h : ℚ) / w)

theorem aspect_ge_one {h w : Nat} (hh : 0 < h) (hw : 0 < w) : 1 ≤ aspect h w := by
  have hh' : (0 : ℚ) < h := Nat.cast_pos.mpr hh
  have hw' : (0 : ℚ) < w := Nat.cast_pos.mpr hw
  unfold aspect
  rcases le_total (w : ℚ) h with hc | hc
  · exact le_max_of_le_right ((one_le_div hw').mpr hc)
  · exact le_max_of_le_left ((one_le_div hh').mpr hc)

/-- the padding in one direction is an integer, and not negative -/
theorem pad_nonneg {auto : Bool} {n u : ℤ} (stride : Nat) (hs : 0 < stride) (hu : u ≤ n) :
    0 ≤ (if auto then (n - u) % stride else n - u) := by
  cases auto
  · simpa using hu
  · exact Int.emod_nonneg _ (by omega)

/-- the two sides of the result of `letterbox` when the image is not stretched -/
theorem letterbox_sides (o : LetterOpts) {h w : Nat} (hs : 0 < o.stride) (hh : 0 < h) (hw : 0 < w)
    (hfill : (!o.auto && o.scaleFill) = false) :
    ∃ DW DH : ℤ, 0 ≤ DW ∧ 0 ≤ DH ∧
      (letterbox o h w).unpadW = roundHalfEven (w * letterRatio o h w) ∧
      (letterbox o h w).unpadH = roundHalfEven (h * letterRatio o h w) ∧
      (letterbox o h w).outW = (letterbox o h w).unpadW + DW ∧ (letterbox o h w).outH = (letterbox o h w).unpadH + DH ∧
      |((letterbox o h w).left : ℚ) - (DW : ℚ) / 2| ≤ 1 / 2 ∧ |((letterbox o h w).top : ℚ) - (DH : ℚ) / 2| ≤ 1 / 2 ∧
      (letterbox o h w).dw = (DW : ℚ) / 2 ∧ (letterbox o h w).dh = (DH : ℚ) / 2 ∧
      ((o.newW : ℚ) = w * letterRatio o h w → DW = 0) ∧ ((o.newH : ℚ) = h * letterRatio o h w → DH = 0) ∧
      (o.auto = false → (letterbox o h w).outW = o.newW ∧ (letterbox o h w).outH = o.newH) := by
  have hh' : (0 : ℚ) < h := Nat.cast_pos.mpr hh
  have hw' : (0 : ℚ) < w := Nat.cast_pos.mpr hw
  have hr : letterRatio o h w ≤ min ((o.newH : ℚ) / h) ((o.newW : ℚ) / w) := by
    unfold letterRatio
    simp only
    split
    · exact le_rfl
    · exact min_le_left _ _
  have hrw : w * letterRatio o h w ≤ o.newW := by
    have := mul_le_mul_of_nonneg_left (le_trans hr (min_le_right _ _)) hw'.le
    rwa [mul_div_cancel₀ _ hw'.ne'] at this
  have hrh : h * letterRatio o h w ≤ o.newH := by
    have := mul_le_mul_of_nonneg_left (le_trans hr (min_le_left _ _)) hh'.le
    rwa [mul_div_cancel₀ _ hh'.ne'] at this
  have hint : ∀ n : Nat, roundHalfEven (n : ℚ) = (n : ℤ) := fun n => by
    have := roundHalfEven_int (n : ℤ)
    simpa using this
  have huw : roundHalfEven (w * letterRatio o h w) ≤ o.newW := by
    rw [← hint]
    exact roundHalfEven_mono hrw
  have huh : roundHalfEven (h * letterRatio o h w) ≤ o.newH := by
    rw [← hint]
    exact roundHalfEven_mono hrh
  have hp : letterPad o h w = ((roundHalfEven (w * letterRatio o h w), roundHalfEven (h * letterRatio o h w)),
      (if o.auto then (o.newW - roundHalfEven (w * letterRatio o h w)) % o.stride
        else o.newW - roundHalfEven (w * letterRatio o h w)),
      (if o.auto then (o.newH - roundHalfEven (h * letterRatio o h w)) % o.stride
        else o.newH - roundHalfEven (h * letterRatio o h w))) := by
    unfold letterPad
    simp only
    cases ha : o.auto
    · rw [ha] at hfill
      simp only [Bool.not_false, Bool.true_and] at hfill
      simp [hfill]
    · simp
  have hW := pad_nonneg (auto := o.auto) o.stride hs huw
  have hH := pad_nonneg (auto := o.auto) o.stride hs huh
  obtain ⟨bw1, bw2, bw3⟩ := borders_int (letterPad o h w).2.1
  obtain ⟨bh1, bh2, bh3⟩ := borders_int (letterPad o h w).2.2
  refine ⟨(letterPad o h w).2.1, (letterPad o h w).2.2, by rw [hp]; exact hW, by rw [hp]; exact hH,
    by simp only [letterbox, hp], by simp only [letterbox, hp], ?_, ?_, bw3, bh3, bw1, bh1, ?_, ?_, ?_⟩
  · simp only [Letter.outW, letterbox]
    omega
  · simp only [Letter.outH, letterbox]
    omega
  · intro e
    rw [hp]
    simp only [← e, hint]
    split <;> simp
  · intro e
    rw [hp]
    simp only [← e, hint]
    split <;> simp
  · intro ha
    have e1 : (letterPad o h w).1.1 + (letterPad o h w).2.1 = o.newW := by
      rw [hp]
      simp [ha]
    have e2 : (letterPad o h w).1.2 + (letterPad o h w).2.2 = o.newH := by
      rw [hp]
      simp [ha]
    simp only [Letter.outW, Letter.outH, letterbox]
    omega

/-- the gain `scale_coords` finds from the shapes alone -/
def shapesGain (h1 w1 : ℚ) (h0 w0 : Nat) : ℚ := min (h1 / h0) (w1 / w0)

/-- **C119 (partial: images that may be scaled up).** An image that `letterbox` fits into any shape (padded to the shape or to
a multiple of the stride, not stretched): every point of it comes back with `scale_coords`, from the two shapes alone, to at
most `(1/2 + a/4) / gain` from its place in each direction, `a` being how elongated the image is; and it is in the image. -/
theorem C119_back_partial (o : LetterOpts) {h w : Nat} (hs : 0 < o.stride) (hh : 0 < h) (hw : 0 < w) (hnh : 0 < o.newH)
    (hnw : 0 < o.newW) (hfill : (!o.auto && o.scaleFill) = false) (hup : o.scaleup = true)
    (hout : 0 < (letterbox o h w).outH ∧ 0 < (letterbox o h w).outW) {p : ℚ × ℚ}
    (hp : 0 ≤ p.1 ∧ p.1 ≤ w ∧ 0 ≤ p.2 ∧ p.2 ≤ h) :
    let l := letterbox o h w
    let q := scalePoint l.outH l.outW h w none (l.place h w p)
    let bound := (1 / 2 + aspect h w / 4) / shapesGain l.outH l.outW h w
    (|q.1 - p.1| ≤ bound ∧ |q.2 - p.2| ≤ bound) ∧ 0 ≤ q.1 ∧ q.1 ≤ w ∧ 0 ≤ q.2 ∧ q.2 ≤ h := by
  have hh' : (0 : ℚ) < h := Nat.cast_pos.mpr hh
  have hw' : (0 : ℚ) < w := Nat.cast_pos.mpr hw
  have hnh' : (0 : ℚ) < o.newH := Nat.cast_pos.mpr hnh
  have hnw' : (0 : ℚ) < o.newW := Nat.cast_pos.mpr hnw
  obtain ⟨DW, DH, hDW, hDH, huw, huh, hoW, hoH, hl, ht, -, -, hzW, hzH, -⟩ := letterbox_sides o hs hh hw hfill
  have hDW' : (0 : ℚ) ≤ DW := by exact_mod_cast hDW
  have hDH' : (0 : ℚ) ≤ DH := by exact_mod_cast hDH
  have hoH' : (0 : ℚ) < (letterbox o h w).outH := by exact_mod_cast hout.1
  have hoW' : (0 : ℚ) < (letterbox o h w).outW := by exact_mod_cast hout.2
  intro l q bound
  have hgpos : 0 < shapesGain l.outH l.outW h w := lt_min (div_pos hoH' hh') (div_pos hoW' hw')
  have ha := aspect_ge_one hh hw
  have ha1 : (w : ℚ) / h ≤ aspect h w := le_max_left _ _
  have ha2 : (h : ℚ) / w ≤ aspect h w := le_max_right _ _
  have hcW : (l.outW : ℚ) = l.unpadW + DW := by exact_mod_cast hoW
  have hcH : (l.outH : ℚ) = l.unpadH + DH := by exact_mod_cast hoH
  have key : |(l.unpadW : ℚ) - w * shapesGain l.outH l.outW h w| / 2 + |(l.left : ℚ) - DW / 2| ≤ 1 / 2 + aspect h w / 4 ∧
      |(l.unpadH : ℚ) - h * shapesGain l.outH l.outW h w| / 2 + |(l.top : ℚ) - DH / 2| ≤ 1 / 2 + aspect h w / 4 := by
    have hratio : letterRatio o h w = min ((o.newH : ℚ) / h) ((o.newW : ℚ) / w) := by
      unfold letterRatio
      simp [hup]
    have errW : |(l.unpadW : ℚ) - w * letterRatio o h w| ≤ 1 / 2 := by
      have := roundHalfEven_err (w * letterRatio o h w)
      rwa [← huw] at this
    have errH : |(l.unpadH : ℚ) - h * letterRatio o h w| ≤ 1 / 2 := by
      have := roundHalfEven_err (h * letterRatio o h w)
      rwa [← huh] at this
    rcases le_total ((o.newW : ℚ) / w) ((o.newH : ℚ) / h) with hc | hc
    · rw [min_eq_right hc] at hratio
      have hwr : (o.newW : ℚ) = w * letterRatio o h w := by
        rw [hratio]
        field_simp
      have hz := hzW hwr
      have huwn : (l.unpadW : ℚ) = o.newW := by
        have : l.unpadW = roundHalfEven (o.newW : ℚ) := by rw [hwr]; exact huw
        rw [this]
        have := roundHalfEven_int (o.newW : ℤ)
        simp only [Int.cast_natCast] at this
        rw [this]
        simp
      have hl0 : |(l.left : ℚ) - (DW : ℚ) / 2| = 0 := by
        have h1 : |(l.left : ℚ) - (DW : ℚ) / 2| ≤ 1 / 2 := hl
        rw [hz] at h1 ⊢
        simp only [Int.cast_zero, zero_div, sub_zero] at h1 ⊢
        have h2 : |l.left| < 1 := by
          have : |(l.left : ℚ)| < 1 := by linarith
          exact_mod_cast this
        rw [Int.abs_lt_one_iff.mp h2]
        simp
      rw [hratio] at errH
      have hse := side_error (u := l.unpadH) (D := DH) (g := shapesGain l.outH l.outW h w) hw' hh' hnw' errH hDH'
        (by rw [shapesGain, hcH, hcW, hz, huwn]; simp)
      rw [hl0, huwn]
      refine ⟨by linarith [hse.1], ?_⟩
      have : |(l.top : ℚ) - DH / 2| ≤ 1 / 2 := ht
      linarith [hse.2]
    · rw [min_eq_left hc] at hratio
      have hhr : (o.newH : ℚ) = h * letterRatio o h w := by
        rw [hratio]
        field_simp
      have hz := hzH hhr
      have huhn : (l.unpadH : ℚ) = o.newH := by
        have : l.unpadH = roundHalfEven (o.newH : ℚ) := by rw [hhr]; exact huh
        rw [this]
        have := roundHalfEven_int (o.newH : ℤ)
        simp only [Int.cast_natCast] at this
        rw [this]
        simp
      have ht0 : |(l.top : ℚ) - (DH : ℚ) / 2| = 0 := by
        have h1 : |(l.top : ℚ) - (DH : ℚ) / 2| ≤ 1 / 2 := ht
        rw [hz] at h1 ⊢
        simp only [Int.cast_zero, zero_div, sub_zero] at h1 ⊢
        have h2 : |l.top| < 1 := by
          have : |(l.top : ℚ)| < 1 := by linarith
          exact_mod_cast this
        rw [Int.abs_lt_one_iff.mp h2]
        simp
      rw [hratio] at errW
      have hse := side_error (u := l.unpadW) (D := DW) (g := shapesGain l.outH l.outW h w) hh' hw' hnh' errW hDW'
        (by rw [shapesGain, hcH, hcW, hz, huhn, min_comm]; simp)
      rw [ht0, huhn]
      refine ⟨?_, by linarith [hse.1]⟩
      have : |(l.left : ℚ) - DW / 2| ≤ 1 / 2 := hl
      linarith [hse.2]
  have e1 := back_error hw' hgpos hp.1 hp.2.1 key.1
  have e2 := back_error hh' hgpos hp.2.2.1 hp.2.2.2 key.2
  refine ⟨⟨le_trans (clip_error hp.1 hp.2.1) ?_, le_trans (clip_error hp.2.2.1 hp.2.2.2) ?_⟩, ?_, ?_, ?_, ?_⟩
  · rw [← hcW] at e1
    exact e1
  · rw [← hcH] at e2
    exact e2
  · exact le_min (le_max_right _ _) hw'.le
  · exact min_le_right _ _
  · exact le_min (le_max_right _ _) hh'.le
  · exact min_le_right _ _

/-- **C119 (partial: not stretched).** With the ratio and the padding `letterbox` returned given to `scale_coords`, whatever the
options but stretching, every point comes back to at most one pixel of the small image from its place. -/
theorem C119_ratio_pad_partial (o : LetterOpts) {h w : Nat} (hs : 0 < o.stride) (hh : 0 < h) (hw : 0 < w) (hnh : 0 < o.newH)
    (hnw : 0 < o.newW) (hfill : (!o.auto && o.scaleFill) = false) (h1 w1 : ℚ) {p : ℚ × ℚ}
    (hp : 0 ≤ p.1 ∧ p.1 ≤ w ∧ 0 ≤ p.2 ∧ p.2 ≤ h) :
    let l := letterbox o h w
    let q := scalePoint h1 w1 h w (some (l.ratioW, l.dw, l.dh)) (l.place h w p)
    |q.1 - p.1| ≤ 1 / l.ratioW ∧ |q.2 - p.2| ≤ 1 / l.ratioW := by
  have hh' : (0 : ℚ) < h := Nat.cast_pos.mpr hh
  have hw' : (0 : ℚ) < w := Nat.cast_pos.mpr hw
  have hnh' : (0 : ℚ) < o.newH := Nat.cast_pos.mpr hnh
  have hnw' : (0 : ℚ) < o.newW := Nat.cast_pos.mpr hnw
  obtain ⟨DW, DH, hDW, hDH, huw, huh, hoW, hoH, hl, ht, hdw, hdh, -, -, -⟩ := letterbox_sides o hs hh hw hfill
  have hr : (letterbox o h w).ratioW = letterRatio o h w := by
    simp only [letterbox, hfill]
    rfl
  have hrpos : 0 < letterRatio o h w := by
    have : 0 < min ((o.newH : ℚ) / h) ((o.newW : ℚ) / w) := lt_min (by positivity) (by positivity)
    unfold letterRatio
    simp only
    split
    · exact this
    · exact lt_min this one_pos
  have one : ∀ {x s : ℚ} {u : ℤ} {left D : ℚ}, 0 < s → 0 ≤ x → x ≤ s → |(u : ℚ) - s * letterRatio o h w| ≤ 1 / 2 →
      |left - D| ≤ 1 / 2 → |(x * u / s + left - D) / letterRatio o h w - x| ≤ 1 / letterRatio o h w := by
    intro x s u left D hs0 hx0 hxs hu hlD
    have e : (x * u / s + left - D) / letterRatio o h w - x =
        (x / s * (u - s * letterRatio o h w) + (left - D)) / letterRatio o h w := by
      field_simp
      ring
    rw [e, abs_div, abs_of_pos hrpos]
    refine div_le_div_of_nonneg_right (le_trans (abs_add_le _ _) ?_) hrpos.le
    have h2 : |x / s * (u - s * letterRatio o h w)| ≤ 1 / 2 := by
      rw [abs_mul, abs_of_nonneg (by positivity)]
      calc x / s * |(u : ℚ) - s * letterRatio o h w| ≤ 1 * (1 / 2) :=
            mul_le_mul ((div_le_one hs0).mpr hxs) hu (abs_nonneg _) zero_le_one
        _ = 1 / 2 := by ring
    linarith
  intro l q
  have hq : l.ratioW = letterRatio o h w := hr
  have e1 := one (u := l.unpadW) (left := l.left) (D := l.dw) hw' hp.1 hp.2.1
    (by have := roundHalfEven_err (w * letterRatio o h w); rwa [← huw] at this) (by rw [show l.dw = _ from hdw]; exact hl)
  have e2 := one (u := l.unpadH) (left := l.top) (D := l.dh) hh' hp.2.2.1 hp.2.2.2
    (by have := roundHalfEven_err (h * letterRatio o h w); rwa [← huh] at this) (by rw [show l.dh = _ from hdh]; exact ht)
  rw [← hq] at e1 e2
  exact ⟨le_trans (clip_error hp.1 hp.2.1) e1, le_trans (clip_error hp.2.2.1 hp.2.2.2) e2⟩

/-- **C119.** The ratios returned are how much each side was scaled: exactly if the image is stretched, and up to half a pixel
otherwise; then both are the same. -/
theorem C119_ratio (o : LetterOpts) {h w : Nat} (hh : 0 < h) (hw : 0 < w) :
    let l := letterbox o h w
    ((!o.auto && o.scaleFill) = true → l.ratioW * w = l.unpadW ∧ l.ratioH * h = l.unpadH) ∧
    ((!o.auto && o.scaleFill) = false → l.ratioW = l.ratioH ∧
      |(l.unpadW : ℚ) - l.ratioW * w| ≤ 1 / 2 ∧ |(l.unpadH : ℚ) - l.ratioH * h| ≤ 1 / 2) := by
  have h0 : (h : ℚ) ≠ 0 := by positivity
  have w0 : (w : ℚ) ≠ 0 := by positivity
  intro l
  constructor
  · intro hf
    obtain ⟨ha, hf'⟩ : o.auto = false ∧ o.scaleFill = true := by simpa using hf
    simp [l, letterbox, letterPad, ha, hf', h0, w0]
  · intro hf
    have e1 : l.ratioW = letterRatio o h w := by simp only [l, letterbox, hf]; rfl
    have e2 : l.ratioH = letterRatio o h w := by simp only [l, letterbox, hf]; rfl
    have e3 : l.unpadW = roundHalfEven (w * letterRatio o h w) ∧ l.unpadH = roundHalfEven (h * letterRatio o h w) := by
      cases ha : o.auto
      · have hf' : o.scaleFill = false := by simpa [ha] using hf
        simp [l, letterbox, letterPad, ha, hf']
      · simp [l, letterbox, letterPad, ha]
    rw [e1, e2, e3.1, e3.2, mul_comm (letterRatio o h w), mul_comm (letterRatio o h w)]
    exact ⟨rfl, roundHalfEven_err _, roundHalfEven_err _⟩

/-- **C119.** The shape of the result: exactly the new shape if not `auto`, stretched or not; and in any case sizes that differ
from the new ones by a multiple of the stride or not at all. Borders are never negative. -/
theorem C119_shape (o : LetterOpts) {h w : Nat} (hs : 0 < o.stride) (hh : 0 < h) (hw : 0 < w) :
    let l := letterbox o h w
    (o.auto = false → l.outW = o.newW ∧ l.outH = o.newH) ∧
    ((o.stride : ℤ) ∣ o.newW - l.outW ∧ (o.stride : ℤ) ∣ o.newH - l.outH) ∧
    (0 ≤ l.left ∧ 0 ≤ l.right ∧ 0 ≤ l.top ∧ 0 ≤ l.bottom) ∧
    ((l.right = l.left ∨ l.right = l.left + 1) ∧ (l.bottom = l.top ∨ l.bottom = l.top + 1)) := by
  intro l
  have hD : 0 ≤ (letterPad o h w).2.1 ∧ 0 ≤ (letterPad o h w).2.2 ∧
      (o.auto = false → l.outW = o.newW ∧ l.outH = o.newH) ∧
      ((o.stride : ℤ) ∣ o.newW - l.outW ∧ (o.stride : ℤ) ∣ o.newH - l.outH) := by
    cases hfill : (!o.auto && o.scaleFill)
    · obtain ⟨DW, DH, hDW, hDH, huw, huh, hoW, hoH, -, -, hdw, hdh, -, -, hsh⟩ := letterbox_sides o hs hh hw hfill
      have e1 : (((letterPad o h w).2.1 : ℤ) : ℚ) = DW := by
        have : ((letterPad o h w).2.1 : ℚ) / 2 = (DW : ℚ) / 2 := hdw
        linarith
      have e2 : (((letterPad o h w).2.2 : ℤ) : ℚ) = DH := by
        have : ((letterPad o h w).2.2 : ℚ) / 2 = (DH : ℚ) / 2 := hdh
        linarith
      have e1' : (letterPad o h w).2.1 = DW := by exact_mod_cast e1
      have e2' : (letterPad o h w).2.2 = DH := by exact_mod_cast e2
      refine ⟨by omega, by omega, hsh, ?_⟩
      cases ha : o.auto
      · obtain ⟨h1, h2⟩ := hsh ha
        have h1' : l.outW = o.newW := h1
        have h2' : l.outH = o.newH := h2
        rw [h1', h2']
        simp
      · have f1 : (letterPad o h w).2.1 = (o.newW - (letterbox o h w).unpadW) % o.stride := by
          rw [huw]
          simp [letterPad, ha]
        have f2 : (letterPad o h w).2.2 = (o.newH - (letterbox o h w).unpadH) % o.stride := by
          rw [huh]
          simp [letterPad, ha]
        have g1 : l.outW = (letterbox o h w).unpadW + (o.newW - (letterbox o h w).unpadW) % o.stride := by
          rw [← f1, e1']
          exact hoW
        have g2 : l.outH = (letterbox o h w).unpadH + (o.newH - (letterbox o h w).unpadH) % o.stride := by
          rw [← f2, e2']
          exact hoH
        rw [g1, g2]
        refine ⟨?_, ?_⟩ <;> rw [← sub_sub] <;> exact Int.dvd_self_sub_emod
    · have ha : o.auto = false ∧ o.scaleFill = true := by simpa using hfill
      have hp : letterPad o h w = (((o.newW : ℤ), (o.newH : ℤ)), 0, 0) := by
        simp [letterPad, ha.1, ha.2]
      have hz : borders ((0 : ℤ) : ℚ) = (0, 0, 0) := by decide +kernel
      have e1 : l.outW = o.newW := by
        show (letterbox o h w).outW = _
        simp only [letterbox, Letter.outW, hp, hz]
        simp
      have e2 : l.outH = o.newH := by
        show (letterbox o h w).outH = _
        simp only [letterbox, Letter.outH, hp, hz]
        simp
      rw [hp, e1, e2]
      simp
  refine ⟨hD.2.2.1, hD.2.2.2, ?_⟩
  have one : ∀ D : ℤ, 0 ≤ D → 0 ≤ (borders D).2.1 ∧ 0 ≤ (borders D).2.2 ∧
      ((borders D).2.2 = (borders D).2.1 ∨ (borders D).2.2 = (borders D).2.1 + 1) := by
    intro D hD
    unfold borders
    simp only
    rcases Int.even_or_odd' D with ⟨k, rfl | rfl⟩
    · rw [roundHalfEven_near (k := k) (by push_cast; rw [abs_lt]; constructor <;> linarith),
        roundHalfEven_near (k := k) (by push_cast; rw [abs_lt]; constructor <;> linarith)]
      omega
    · rw [roundHalfEven_near (k := k) (by push_cast; rw [abs_lt]; constructor <;> linarith),
        roundHalfEven_near (k := k + 1) (by push_cast; rw [abs_lt]; constructor <;> linarith)]
      omega
  obtain ⟨a1, a2, a3⟩ := one _ hD.1
  obtain ⟨b1, b2, b3⟩ := one _ hD.2.1
  exact ⟨⟨a1, a2, b1, b2⟩, a3, b3⟩

/-- the default options of `letterbox`, for a square shape -/
def squareOpts (n : Nat) : LetterOpts := ⟨n, n, true, false, true, 32⟩

/-- what the demo does: frames of 1280 by 720 pixels into 640 by 640; the result is 640 by 384 -/
example : (letterbox (squareOpts 640) 720 1280).outW = 640 ∧ (letterbox (squareOpts 640) 720 1280).outH = 384 ∧
    (letterbox (squareOpts 640) 720 1280).top = 12 := by decide +kernel

/-- a frame whose size does not divide well: the hypotheses of `C119_back_partial` hold, and points really move -/
example : let o := squareOpts 640
    let l := letterbox o 333 517
    (0 < l.outH ∧ 0 < l.outW) ∧
    scalePoint l.outH l.outW 333 517 none (l.place 333 517 (100, 50)) ≠ (100, 50) := by decide +kernel

example : let l := letterbox (squareOpts 640) 333 517
    let q := scalePoint l.outH l.outW 333 517 none (l.place 333 517 (100, 50))
    (|q.1 - 100| ≤ (1 / 2 + aspect 333 517 / 4) / shapesGain l.outH l.outW 333 517 ∧
      |q.2 - 50| ≤ (1 / 2 + aspect 333 517 / 4) / shapesGain l.outH l.outW 333 517) ∧
    0 ≤ q.1 ∧ q.1 ≤ (517 : Nat) ∧ 0 ≤ q.2 ∧ q.2 ≤ (333 : Nat) :=
  C119_back_partial (squareOpts 640) (h := 333) (w := 517) (by decide) (by decide) (by decide) (by decide) (by decide) rfl rfl
    (by decide +kernel) (by norm_num)

/-- without `scaleup`, and the ratio and the padding given: the hypotheses of `C119_ratio_pad_partial` hold -/
example : let l := letterbox ⟨640, 640, true, false, false, 32⟩ 600 600
    let q := scalePoint 608 608 600 600 (some (l.ratioW, l.dw, l.dh)) (l.place 600 600 (0, 7))
    |q.1 - 0| ≤ 1 / l.ratioW ∧ |q.2 - 7| ≤ 1 / l.ratioW :=
  C119_ratio_pad_partial ⟨640, 640, true, false, false, 32⟩ (h := 600) (w := 600) (by decide) (by decide) (by decide) (by decide)
    (by decide) rfl 608 608 (p := (0, 7)) (by norm_num)

/-- the hypotheses of `C119_ratio`: stretched, by 2 and by 1 -/
example : (letterbox ⟨640, 640, false, true, true, 32⟩ 320 640).ratioH = 2 ∧
    (letterbox ⟨640, 640, false, true, true, 32⟩ 320 640).ratioW = 1 := by decide +kernel

/-- **C119 is false of images that are not scaled up**: an image of 600 by 600 is put into the middle of 640 by 640 (or of
608 by 608) as it is, and `scale_coords`, which knows the shapes only, brings the point `(10, 300)` back as `(225/8, 300)`
(or as `(525/38, 300)`), although the bound of `C119_back_partial` is below a pixel. -/
theorem C119_false_scaleup :
    (let l := letterbox ⟨640, 640, false, false, false, 32⟩ 600 600;
      scalePoint l.outH l.outW 600 600 none (l.place 600 600 (10, 300)) = (225 / 8, 300) ∧
      (1 / 2 + aspect 600 600 / 4) / shapesGain l.outH l.outW 600 600 < 1) ∧
    (let l := letterbox ⟨640, 640, true, false, false, 32⟩ 600 600;
      scalePoint l.outH l.outW 600 600 none (l.place 600 600 (10, 300)) = (525 / 38, 300) ∧
      (1 / 2 + aspect 600 600 / 4) / shapesGain l.outH l.outW 600 600 < 1) := by
  unfold aspect shapesGain
  decide +kernel

/-- **C119 is false of stretched images**: an image of 320 by 640 stretched to 640 by 640; the point `(100, 200)` comes back as
`(100, 240)` from the shapes, and as `(100, 320)` with the ratio `letterbox` returned, because only the ratio of the widths is
used. -/
theorem C119_false_stretched :
    let l := letterbox ⟨640, 640, false, true, true, 32⟩ 320 640
    scalePoint l.outH l.outW 320 640 none (l.place 320 640 (100, 200)) = (100, 240) ∧
    scalePoint l.outH l.outW 320 640 (some (l.ratioW, l.dw, l.dh)) (l.place 320 640 (100, 200)) = (100, 320) := by
  decide +kernel

end Norfair.Props
