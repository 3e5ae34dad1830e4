import Verif.Model.Decode
import Verif.Props.Nms

/-!
Property theorems C123: the predictions of the network of the yolopv2 demo.
-/

namespace Norfair.Props

open Norfair Norfair.Spec

theorem getElem?_flatMap_const {α β : Type} {n : Nat} {f : α → List β} : ∀ {l : List α}, (∀ a ∈ l, (f a).length = n) →
    ∀ {i j : Nat}, j < n → (l.flatMap f)[i * n + j]? = (l[i]?).bind fun a => (f a)[j]?
  | [], _, i, j, _ => by simp
  | a :: l, h, 0, j, hj => by
    rw [List.flatMap_cons, Nat.zero_mul, Nat.zero_add, List.getElem?_append_left (by rw [h a List.mem_cons_self]; exact hj)]
    simp
  | a :: l, h, i + 1, j, hj => by
    have ha := h a List.mem_cons_self
    rw [List.flatMap_cons, List.getElem?_append_right (by rw [ha]; nlinarith), ha]
    have : (i + 1) * n + j - n = i * n + j := by
      rw [Nat.add_mul, Nat.one_mul]
      omega
    rw [this, getElem?_flatMap_const (fun b hb => h b (List.mem_cons_of_mem _ hb)) hj]
    simp

/-- a prediction for a cell: its center is less than a cell away from the center of the cell, its size is less than four
times that of the anchor, and the confidences are between 0 and 1 -/
structure ForCell (st : ℝ) (anchor : ℝ × ℝ) (y x : Nat) (p : YoloPred ℝ) : Prop where
  cx : |p.cx - (x + 1 / 2) * st| < st
  cy : |p.cy - (y + 1 / 2) * st| < st
  w : 0 < p.w ∧ p.w < 4 * anchor.1
  h : 0 < p.h ∧ p.h < 4 * anchor.2
  obj : 0 < p.obj ∧ p.obj < 1
  classes : p.cls.length = 80 ∧ ∀ c ∈ p.cls, 0 < c ∧ c < 1

theorem YoloHead.rows_length (h : YoloHead) (st : Nat) : (h.rows st).length = 3 * (h.ny * h.nx) := by
  unfold YoloHead.rows
  simp [List.length_flatMap]
  ring

theorem YoloHead.rows_get (h : YoloHead) (st : Nat) {a y x : Nat} (ha : a < 3) (hy : y < h.ny) (hx : x < h.nx) :
    (h.rows st)[(a * h.ny + y) * h.nx + x]? = some (h.cell st a y x) := by
  unfold YoloHead.rows
  have e : (a * h.ny + y) * h.nx + x = a * (h.ny * h.nx) + (y * h.nx + x) := by ring
  have hlt : y * h.nx + x < h.ny * h.nx := by nlinarith
  rw [e, getElem?_flatMap_const (n := h.ny * h.nx) (by intro b _; simp [List.length_flatMap]) hlt,
    List.getElem?_range ha, Option.bind_some, getElem?_flatMap_const (n := h.nx) (by intro b _; simp) hx,
    List.getElem?_range hy, Option.bind_some, List.getElem?_map, List.getElem?_range hx]
  rfl

theorem cell_forCell (h : YoloHead) {st : Nat} (hst : 0 < st) {a : Nat} (ha : 0 < (h.anchor a).1 ∧ 0 < (h.anchor a).2)
    (y x : Nat) : ForCell st (h.anchor a) y x (h.cell st a y x) := by
  have hs : ∀ k, 0 < h.entry a y x k ∧ h.entry a y x k < 1 := fun k => ⟨Real.sigmoid_pos _, Real.sigmoid_lt_one _⟩
  have hst' : (0 : ℝ) < st := Nat.cast_pos.mpr hst
  have hctr : ∀ (e : ℝ) (n : Nat), 0 < e ∧ e < 1 → |(e * 2 - 1 / 2 + n) * st - (n + 1 / 2) * st| < st := by
    intro e n he
    have : (e * 2 - 1 / 2 + n) * st - (n + 1 / 2) * st = (e * 2 - 1) * st := by ring
    rw [this, abs_lt]
    constructor <;> nlinarith [he.1, he.2]
  have hsize : ∀ (e c : ℝ), 0 < e ∧ e < 1 → 0 < c → 0 < (e * 2) ^ 2 * c ∧ (e * 2) ^ 2 * c < 4 * c := by
    intro e c he hc
    constructor
    · have := he.1
      positivity
    · have : (e * 2) ^ 2 < 4 := by nlinarith [he.1, he.2]
      exact mul_lt_mul_of_pos_right this hc
  refine ⟨hctr _ x (hs 0), hctr _ y (hs 1), hsize _ _ (hs 2) ha.1, hsize _ _ (hs 3) ha.2, hs 4, ?_, ?_⟩
  · simp [YoloHead.cell]
  · intro c hc
    obtain ⟨k, -, rfl⟩ := List.mem_map.mp hc
    exact hs _

/-- positive sizes of the anchors -/
def AnchorsPos (heads : Fin 3 → YoloHead) : Prop :=
  ∀ i a, a < 3 → 0 < ((heads i).anchor a).1 ∧ 0 < ((heads i).anchor a).2

/-- the three strides -/
def strideOf (i : Fin 3) : Nat := 8 * 2 ^ (i : Nat)

/-- where the predictions of an output begin -/
def headStart (heads : Fin 3 → YoloHead) (i : Fin 3) : Nat :=
  ∑ j ∈ Finset.univ.filter (· < i), 3 * ((heads j).ny * (heads j).nx)

/-- **C123** There is one prediction for each output, anchor and cell, in the order output, anchor, row, column, and it is
one for this cell and anchor. -/
theorem C123_cells {heads : Fin 3 → YoloHead} (hpos : AnchorsPos heads) :
    (splitForTraceModel heads).length = ∑ i, 3 * ((heads i).ny * (heads i).nx) ∧
    ∀ i a y x, a < 3 → y < (heads i).ny → x < (heads i).nx →
      ∃ p, (splitForTraceModel heads)[headStart heads i + ((a * (heads i).ny + y) * (heads i).nx + x)]? = some p ∧
        ForCell (strideOf i) ((heads i).anchor a) y x p := by
  have hlen : ∀ i st, ((heads i).rows st).length = 3 * ((heads i).ny * (heads i).nx) := fun i st =>
    YoloHead.rows_length (heads i) st
  constructor
  · simp only [splitForTraceModel, List.length_append, hlen, Fin.sum_univ_three]
  · intro i a y x ha hy hx
    have hget := YoloHead.rows_get (heads i) (strideOf i) ha hy hx
    have hlt : (a * (heads i).ny + y) * (heads i).nx + x < 3 * ((heads i).ny * (heads i).nx) := by
      have h1 := (List.getElem?_eq_some_iff.mp hget).1
      rwa [hlen] at h1
    refine ⟨_, ?_, cell_forCell (heads i) (by unfold strideOf; positivity) (hpos i a ha) y x⟩
    rw [← hget]
    unfold splitForTraceModel headStart
    fin_cases i
    · simp only [Fin.zero_eta, Fin.isValue] at hlt ⊢
      rw [List.append_assoc, List.getElem?_append_left]
      · simp [strideOf]
      · rw [hlen]
        simpa using hlt
    · simp only [Fin.mk_one, Fin.isValue] at hlt ⊢
      have e : (Finset.univ.filter fun j : Fin 3 => j < 1) = {0} := by decide
      rw [e, Finset.sum_singleton, List.append_assoc, List.getElem?_append_right (by rw [hlen]; omega), hlen,
        Nat.add_sub_cancel_left, List.getElem?_append_left (by rw [hlen]; exact hlt)]
      rfl
    · simp only [Fin.reduceFinMk, Fin.isValue] at hlt ⊢
      have e : (Finset.univ.filter fun j : Fin 3 => j < 2) = {0, 1} := by decide
      rw [e, Finset.sum_pair (by decide), List.getElem?_append_right (by rw [List.length_append, hlen, hlen]; omega),
        List.length_append, hlen, hlen, Nat.add_sub_cancel_left]
      rfl

/-- **C123** All predictions are such predictions. -/
theorem C123_all {heads : Fin 3 → YoloHead} (hpos : AnchorsPos heads) {p : YoloPred ℝ} (hp : p ∈ splitForTraceModel heads) :
    ∃ i a y x, a < 3 ∧ y < (heads i).ny ∧ x < (heads i).nx ∧ ForCell (strideOf i) ((heads i).anchor a) y x p := by
  have key : ∀ i, p ∈ (heads i).rows (strideOf i) → ∃ i a y x, a < 3 ∧ y < (heads i).ny ∧ x < (heads i).nx ∧
      ForCell (strideOf i) ((heads i).anchor a) y x p := by
    intro i h
    unfold YoloHead.rows at h
    simp only [List.mem_flatMap, List.mem_map, List.mem_range] at h
    obtain ⟨a, ha, y, hy, x, hx, rfl⟩ := h
    exact ⟨i, a, y, x, ha, hy, hx, cell_forCell (heads i) (by unfold strideOf; positivity) (hpos i a ha) y x⟩
  unfold splitForTraceModel at hp
  rcases List.mem_append.mp hp with hp | hp
  · rcases List.mem_append.mp hp with hp | hp
    · exact key 0 hp
    · exact key 1 hp
  · exact key 2 hp

/-- the value whose sigmoid is given -/
theorem exists_sigmoid {v : ℝ} (h0 : 0 < v) (h1 : v < 1) : ∃ r, Real.sigmoid r = v := by
  have : v ∈ Set.range Real.sigmoid := by rw [Real.range_sigmoid]; exact ⟨h0, h1⟩
  exact this

/-- **C123** Each such prediction can be told: for every prediction for a cell there are outputs of the network that are
decoded to it. -/
theorem C123_expressible {st : Nat} (hst : 0 < st) (ny nx : Nat) (anchor : Nat → ℝ × ℝ) {a y x : Nat}
    (ha : 0 < (anchor a).1 ∧ 0 < (anchor a).2) {p : YoloPred ℝ} (hp : ForCell st (anchor a) y x p) :
    ∃ raw, (⟨ny, nx, raw, anchor⟩ : YoloHead).cell st a y x = p := by
  have hst' : (0 : ℝ) < st := Nat.cast_pos.mpr hst
  obtain ⟨a1, a2⟩ := abs_lt.mp hp.cx
  obtain ⟨b1, b2⟩ := abs_lt.mp hp.cy
  have hctr : ∀ (c : ℝ) (n : Nat), -(st : ℝ) < c - (n + 1 / 2) * st → c - (n + 1 / 2) * st < st →
      ∃ r, (Real.sigmoid r * 2 - 1 / 2 + n) * st = c := by
    intro c n h1 h2
    have e1 : ((c / st - n + 1 / 2) / 2) * (2 * st) = c - (n + 1 / 2) * st + st := by field_simp; ring
    obtain ⟨r, hr⟩ := exists_sigmoid (v := (c / st - n + 1 / 2) / 2) (by nlinarith) (by nlinarith)
    exact ⟨r, by rw [hr]; field_simp; ring⟩
  have hsize : ∀ (w A : ℝ), 0 < w → w < 4 * A → 0 < A → ∃ r, (Real.sigmoid r * 2) ^ 2 * A = w := by
    intro w A h0 h1 hA
    have hq : 0 < w / A := div_pos h0 hA
    have hs : √(w / A) ^ 2 = w / A := Real.sq_sqrt hq.le
    have hlt : w / A < 4 := (div_lt_iff₀ hA).mpr h1
    have hpos : 0 < √(w / A) := Real.sqrt_pos.mpr hq
    obtain ⟨r, hr⟩ := exists_sigmoid (v := √(w / A) / 2) (by positivity) (by nlinarith)
    refine ⟨r, ?_⟩
    rw [hr, div_mul_cancel₀ _ two_ne_zero, hs, div_mul_cancel₀ _ hA.ne']
  obtain ⟨r0, h0⟩ := hctr p.cx x a1 a2
  obtain ⟨r1, h1⟩ := hctr p.cy y b1 b2
  obtain ⟨r2, h2⟩ := hsize p.w _ hp.w.1 hp.w.2 ha.1
  obtain ⟨r3, h3⟩ := hsize p.h _ hp.h.1 hp.h.2 ha.2
  obtain ⟨r4, h4⟩ := exists_sigmoid hp.obj.1 hp.obj.2
  have hcls : ∀ k : Nat, ∃ r, ∀ c, p.cls[k]? = some c → Real.sigmoid r = c := by
    intro k
    cases hk : p.cls[k]? with
    | none => exact ⟨0, by simp⟩
    | some c =>
      obtain ⟨r, hr⟩ := exists_sigmoid (hp.classes.2 c (List.mem_of_getElem? hk)).1
        (hp.classes.2 c (List.mem_of_getElem? hk)).2
      exact ⟨r, by rintro d hd; cases hd; exact hr⟩
  choose rc hrc using hcls
  refine ⟨fun c _ _ => match c - a * 85 with
    | 0 => r0 | 1 => r1 | 2 => r2 | 3 => r3 | 4 => r4 | k + 5 => rc k, ?_⟩
  unfold YoloHead.cell YoloHead.entry makeGrid
  simp only [Nat.add_sub_cancel_left, h0, h1, h2, h3, h4]
  have : ((List.range 80).map fun k => Real.sigmoid (match 5 + k with
      | 0 => r0 | 1 => r1 | 2 => r2 | 3 => r3 | 4 => r4 | k + 5 => rc k)) = p.cls := by
    apply List.ext_getElem?
    intro k
    rw [List.getElem?_map]
    by_cases hk : k < 80
    · rw [List.getElem?_range hk, List.getElem?_eq_getElem (by rw [hp.classes.1]; exact hk), Option.map_some]
      rw [Nat.add_comm 5 k]
      exact congrArg some (hrc k _ (List.getElem?_eq_getElem _))
    · rw [List.getElem?_eq_none (by simpa using hk), List.getElem?_eq_none (by rw [hp.classes.1]; omega)]
      rfl
  rw [this]

/-- the outputs are for an image of this size -/
def ForImage (heads : Fin 3 → YoloHead) (height width : Nat) : Prop :=
  ∀ i, (heads i).ny * strideOf i = height ∧ (heads i).nx * strideOf i = width

/-- the boxes of the predictions are in a range around the image -/
theorem C123_range {heads : Fin 3 → YoloHead} (hpos : AnchorsPos heads) {height width : Nat}
    (him : ForImage heads height width) {A : ℝ} (hA : ∀ i a, a < 3 → ((heads i).anchor a).1 ≤ A) {p : YoloPred ℝ}
    (hp : p ∈ splitForTraceModel heads) :
    -(16 + 2 * A) ≤ p.cx - p.w / 2 ∧ p.cx + p.w / 2 ≤ width + (16 + 2 * A) := by
  obtain ⟨i, a, y, x, ha, hy, hx, hf⟩ := C123_all hpos hp
  obtain ⟨h1, h2⟩ := abs_lt.mp hf.cx
  have hst : ((strideOf i : Nat) : ℝ) ≤ 32 := by
    have : strideOf i ≤ 32 := by fin_cases i <;> decide
    exact_mod_cast this
  have hst0 : (0 : ℝ) ≤ strideOf i := Nat.cast_nonneg _
  have hw : ((heads i).nx : ℝ) * strideOf i = width := by exact_mod_cast (him i).2
  have hx' : (x : ℝ) + 1 ≤ (heads i).nx := by exact_mod_cast hx
  have hx0 : (0 : ℝ) ≤ x := Nat.cast_nonneg _
  have hA' := hA i a ha
  obtain ⟨h3, h4⟩ := hf.w
  constructor <;> nlinarith [mul_le_mul_of_nonneg_right hx' hst0, mul_nonneg hx0 hst0]

/-- **C123**, **C118** In the demo, suppression leaves nothing else out, if no anchor is wider than `A` and the image for
the network with this border is at most 4096 wide. -/
theorem C123_suppression {heads : Fin 3 → YoloHead} (hpos : AnchorsPos heads) {height width : Nat}
    (him : ForImage heads height width) {A : ℝ} (hA : ∀ i a, a < 3 → ((heads i).anchor a).1 ≤ A)
    (hsize : width + 2 * (16 + 2 * A) ≤ 4096) (hmany : (splitForTraceModel heads).length ≤ 30000) {confThr iouThr : ℝ}
    (hiou : 0 ≤ iouThr) (classes : Option (List Nat)) (agnostic : Bool) {r : YoloRow ℝ}
    (hr : Candidate confThr false classes (splitForTraceModel heads) r) :
    let left := nonMaxSuppression confThr iouThr classes agnostic false 80 (splitForTraceModel heads)
    r ∈ left ∨ (∃ s ∈ left, (agnostic = true ∨ s.cls = r.cls) ∧ r.conf ≤ s.conf ∧ iouThr < overlap s r) ∨
    (left.length = 300 ∧ ∀ s ∈ left, r.conf ≤ s.conf) := by
  intro left
  refine C118_complete_partial hiou classes agnostic false (nc := 80) (fun p hp => ?_) (by simpa using hmany)
    (-(16 + 2 * A)) (fun _ r hr => ?_) hr
  · obtain ⟨i, a, y, x, -, -, -, hf⟩ := C123_all hpos hp
    exact hf.classes.1
  · obtain ⟨p, hp, -, hrow, -⟩ := hr
    obtain ⟨h1, h2⟩ := C123_range hpos him hA hp
    obtain ⟨i, a, y, x, -, -, -, hf⟩ := C123_all hpos hp
    have hw := hf.w.1
    have e1 : r.x1 = p.cx - p.w / 2 := by linarith [hrow.1, hrow.2.2.1]
    have e2 : r.x2 = p.cx + p.w / 2 := by linarith [hrow.1, hrow.2.2.1]
    unfold InRange
    rw [e1, e2]
    exact ⟨⟨h1, by linarith⟩, by linarith, by linarith⟩

/-! ### Example -/

/-- a network for an image of 32 by 32, all of whose outputs are 0 -/
noncomputable def zeroHeads (i : Fin 3) : YoloHead := ⟨32 / strideOf i, 32 / strideOf i, fun _ _ _ => 0, fun _ => (10, 20)⟩

theorem zeroHeads_pos : AnchorsPos zeroHeads := fun i a _ => by simp [zeroHeads]

theorem zeroHeads_image : ForImage zeroHeads 32 32 := by
  intro i
  fin_cases i <;> simp [zeroHeads, strideOf]

/-- C123: the prediction for anchor 1 in row 1, column 0 of the second output -/
example : ∃ p, (splitForTraceModel zeroHeads)[48 + 6]? = some p ∧ ForCell 16 (10, 20) 1 0 p := by
  obtain ⟨p, h1, h2⟩ := (C123_cells zeroHeads_pos).2 1 1 1 0 (by decide) (by decide) (by decide)
  refine ⟨p, ?_, by simpa [strideOf, zeroHeads] using h2⟩
  rw [← h1]
  rfl

/-- C123: the hypotheses for suppression, and a candidate -/
example : (∀ i a, a < 3 → ((zeroHeads i).anchor a).1 ≤ 10) ∧ ((32 : Nat) : ℝ) + 2 * (16 + 2 * 10) ≤ 4096 ∧
    (splitForTraceModel zeroHeads).length ≤ 30000 ∧
    Candidate (1 / 5 : ℝ) false none (splitForTraceModel zeroHeads) ⟨-1, -6, 9, 14, 1 / 4, 0⟩ := by
  refine ⟨fun _ _ _ => le_refl _, by norm_num, ?_, (zeroHeads 0).cell 8 0 0 0, ?_, ?_, ?_, by norm_num, by simp, ?_⟩
  · rw [(C123_cells zeroHeads_pos).1]
    simp [zeroHeads, strideOf, Fin.sum_univ_three]
  · unfold splitForTraceModel YoloHead.rows
    refine List.mem_append_left _ (List.mem_append_left _ ?_)
    simp only [List.mem_flatMap, List.mem_map, List.mem_range]
    exact ⟨0, by decide, 0, by decide, 0, by decide, rfl⟩
  · simp [YoloHead.cell, YoloHead.entry, zeroHeads]
    norm_num
  · refine ⟨?_, ?_, ?_, ?_, 1 / 2, ?_, ?_⟩
    all_goals simp [YoloHead.cell, YoloHead.entry, zeroHeads, makeGrid]
    all_goals norm_num
  · intro _ j v hv
    simp only [YoloHead.cell, YoloHead.entry, zeroHeads, Real.sigmoid_zero] at hv ⊢
    have := List.mem_of_getElem? hv
    simp only [List.mem_map, List.mem_range] at this
    obtain ⟨_, _, rfl⟩ := this
    norm_num

/-- C123: a prediction to be expressed -/
example : ForCell 8 (10, 20) 0 0 ⟨5, 3, 30, 7, 1 / 3, List.replicate 80 (1 / 2)⟩ := by
  refine ⟨by norm_num [abs_lt], by norm_num [abs_lt], by norm_num, by norm_num, by norm_num, by simp, ?_⟩
  intro c hc
  rw [List.eq_of_mem_replicate hc]
  norm_num

end Norfair.Props
