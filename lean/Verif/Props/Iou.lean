import Verif.Spec.Distances
import Mathlib.Tactic.Linarith
import Mathlib.Tactic.Ring
import Mathlib.Tactic.FieldSimp
import Mathlib.Tactic.Positivity
import Mathlib.Algebra.Order.Field.Basic
import Mathlib.MeasureTheory.Measure.Lebesgue.Basic
import Mathlib.MeasureTheory.Measure.Real

/-! C37, C38: the `iou` distance. -/

set_option linter.unusedSectionVars false

namespace Norfair.Props

open Norfair Norfair.Spec

variable {K : Type}

section
variable [Field K] [LinearOrder K] [IsStrictOrderedRing K]

/-- overlap of two intervals -/
def overlap (a1 a2 b1 b2 : K) : K := max (min a2 b2 - max a1 b1) 0

theorem overlap_nonneg (a1 a2 b1 b2 : K) : 0 ≤ overlap a1 a2 b1 b2 := le_max_right _ _

theorem overlap_le_left {a1 a2 : K} (b1 b2 : K) (h : a1 < a2) : overlap a1 a2 b1 b2 ≤ a2 - a1 := by
  unfold overlap
  have h1 := min_le_left a2 b2
  have h2 := le_max_left a1 b1
  exact max_le (by linarith) (by linarith)

theorem overlap_comm (a1 a2 b1 b2 : K) : overlap a1 a2 b1 b2 = overlap b1 b2 a1 a2 := by
  unfold overlap
  rw [min_comm, max_comm a1]

theorem overlap_eq_left {a1 a2 b1 b2 : K} (h : a1 < a2) (e : overlap a1 a2 b1 b2 = a2 - a1) :
    b1 ≤ a1 ∧ a2 ≤ b2 := by
  unfold overlap at e
  rcases le_or_gt (min a2 b2 - max a1 b1) 0 with h0 | h0
  · rw [max_eq_right h0] at e
    linarith
  · rw [max_eq_left h0.le] at e
    have h1 := min_le_left a2 b2
    have h2 := le_max_left a1 b1
    have h3 := min_le_right a2 b2
    have h4 := le_max_right a1 b1
    constructor <;> linarith

theorem overlap_pos_iff {a1 a2 b1 b2 : K} :
    0 < overlap a1 a2 b1 b2 ↔ ∃ x, (a1 < x ∧ x < a2) ∧ (b1 < x ∧ x < b2) := by
  unfold overlap
  constructor
  · intro h
    have h0 : max a1 b1 < min a2 b2 := by
      rcases lt_max_iff.mp h with h | h
      · linarith
      · exact absurd h (lt_irrefl _)
    obtain ⟨x, hx1, hx2⟩ := exists_between h0
    exact ⟨x, ⟨lt_of_le_of_lt (le_max_left _ _) hx1, lt_of_lt_of_le hx2 (min_le_left _ _)⟩,
      lt_of_le_of_lt (le_max_right _ _) hx1, lt_of_lt_of_le hx2 (min_le_right _ _)⟩
  · rintro ⟨x, ⟨h1, h2⟩, h3, h4⟩
    have : max a1 b1 < min a2 b2 := lt_trans (max_lt h1 h3) (lt_min h2 h4)
    exact lt_max_of_lt_left (by linarith)

theorem inter_eq (a b : Box K) : a.inter b = overlap a.x1 a.x2 b.x1 b.x2 * overlap a.y1 a.y2 b.y1 b.y2 := rfl

theorem area_pos {a : Box K} (ha : WellFormed a) : 0 < a.area :=
  mul_pos (sub_pos.mpr ha.1) (sub_pos.mpr ha.2)

theorem inter_nonneg (a b : Box K) : 0 ≤ a.inter b :=
  mul_nonneg (overlap_nonneg ..) (overlap_nonneg ..)

theorem inter_comm (a b : Box K) : a.inter b = b.inter a := by
  rw [inter_eq, inter_eq, overlap_comm a.x1, overlap_comm a.y1]

theorem inter_le_area {a : Box K} (ha : WellFormed a) (b : Box K) : a.inter b ≤ a.area :=
  mul_le_mul (overlap_le_left _ _ ha.1) (overlap_le_left _ _ ha.2) (overlap_nonneg ..)
    (sub_pos.mpr ha.1).le

theorem inter_eq_area {a b : Box K} (ha : WellFormed a) (h : a.inter b = a.area) :
    (b.x1 ≤ a.x1 ∧ a.x2 ≤ b.x2) ∧ (b.y1 ≤ a.y1 ∧ a.y2 ≤ b.y2) := by
  have hx := overlap_le_left b.x1 b.x2 ha.1
  have hy := overlap_le_left b.y1 b.y2 ha.2
  have hx0 := overlap_nonneg a.x1 a.x2 b.x1 b.x2
  have hy0 := overlap_nonneg a.y1 a.y2 b.y1 b.y2
  have hpx := sub_pos.mpr ha.1
  have hpy := sub_pos.mpr ha.2
  rw [inter_eq, Box.area] at h
  have e1 : overlap a.x1 a.x2 b.x1 b.x2 = a.x2 - a.x1 := by
    refine le_antisymm hx ?_
    by_contra hlt
    have hlt := not_le.mp hlt
    have := mul_le_mul_of_nonneg_left hy hx0
    have := mul_lt_mul_of_pos_right hlt hpy
    linarith
  have e2 : overlap a.y1 a.y2 b.y1 b.y2 = a.y2 - a.y1 := by
    rw [e1] at h
    exact mul_left_cancel₀ hpx.ne' h
  exact ⟨overlap_eq_left ha.1 e1, overlap_eq_left ha.2 e2⟩

theorem denom_pos {a b : Box K} (ha : WellFormed a) (hb : WellFormed b) :
    0 < a.area + b.area - a.inter b := by
  have h1 := inter_le_area hb a
  rw [inter_comm] at h1
  have := area_pos ha
  linarith

theorem iouPair_eq {a b : Box K} (ha : WellFormed a) (hb : WellFormed b) :
    iouPair a b = some (1 - a.inter b / (a.area + b.area - a.inter b)) := by
  unfold iouPair
  simp only
  rw [if_neg (denom_pos ha hb).ne']

/-- **C37** For well-formed boxes `iou` is a number in `[0, 1]` (never NaN). -/
theorem C37_range {a b : Box K} (ha : WellFormed a) (hb : WellFormed b) :
    ∃ v, iouPair a b = some v ∧ 0 ≤ v ∧ v ≤ 1 := by
  refine ⟨_, iouPair_eq ha hb, ?_, ?_⟩
  · have hd := denom_pos ha hb
    have h1 := inter_le_area ha b
    have h2 := inter_le_area hb a
    rw [inter_comm] at h2
    rw [sub_nonneg, div_le_one hd]
    linarith
  · have := div_nonneg (inter_nonneg a b) (denom_pos ha hb).le
    linarith

/-- **C37** `iou` is symmetric. -/
theorem C37_symmetric (a b : Box K) : iouPair a b = iouPair b a := by
  unfold iouPair
  simp only [inter_comm b a, add_comm b.area]

/-- **C37** `iou` is 0 exactly for equal boxes. -/
theorem C37_zero_iff {a b : Box K} (ha : WellFormed a) (hb : WellFormed b) :
    iouPair a b = some 0 ↔ a = b := by
  rw [iouPair_eq ha hb, Option.some.injEq, sub_eq_zero, eq_comm, div_eq_one_iff_eq (denom_pos ha hb).ne']
  have h1 := inter_le_area ha b
  have h2 := inter_le_area hb a
  constructor
  · intro h
    have e1 : a.inter b = a.area := by rw [inter_comm] at h2; linarith
    have e2 : b.inter a = b.area := by rw [inter_comm] at h2 ⊢; linarith
    obtain ⟨⟨p1, p2⟩, p3, p4⟩ := inter_eq_area ha e1
    obtain ⟨⟨q1, q2⟩, q3, q4⟩ := inter_eq_area hb e2
    cases a; cases b
    simp only [Box.mk.injEq]
    exact ⟨le_antisymm q1 p1, le_antisymm q3 p3, le_antisymm p2 q2, le_antisymm p4 q4⟩
  · rintro rfl
    have : a.inter a = a.area := by
      simp only [Box.inter, Box.area, min_self, max_self]
      rw [max_eq_left (sub_pos.mpr ha.1).le, max_eq_left (sub_pos.mpr ha.2).le]
    rw [this]; ring

/-- **C37** `iou` is 1 exactly for boxes whose interiors do not overlap. -/
theorem C37_one_iff {a b : Box K} (ha : WellFormed a) (hb : WellFormed b) :
    iouPair a b = some 1 ↔ ¬ ∃ p : K × K, Inside a p ∧ Inside b p := by
  rw [iouPair_eq ha hb, Option.some.injEq, sub_eq_self, div_eq_zero_iff]
  simp only [(denom_pos ha hb).ne', or_false]
  have key : 0 < a.inter b ↔ ∃ p : K × K, Inside a p ∧ Inside b p := by
    constructor
    · intro h
      rw [inter_eq] at h
      have h1 : 0 < overlap a.x1 a.x2 b.x1 b.x2 := lt_of_le_of_ne (overlap_nonneg ..)
        fun e => by rw [← e, zero_mul] at h; exact lt_irrefl _ h
      have h2 : 0 < overlap a.y1 a.y2 b.y1 b.y2 := lt_of_le_of_ne (overlap_nonneg ..)
        fun e => by rw [← e, mul_zero] at h; exact lt_irrefl _ h
      obtain ⟨x, hx1, hx2⟩ := overlap_pos_iff.mp h1
      obtain ⟨y, hy1, hy2⟩ := overlap_pos_iff.mp h2
      exact ⟨(x, y), ⟨hx1, hy1⟩, hx2, hy2⟩
    · rintro ⟨⟨x, y⟩, ⟨hx1, hy1⟩, hx2, hy2⟩
      exact mul_pos (overlap_pos_iff.mpr ⟨x, hx1, hx2⟩) (overlap_pos_iff.mpr ⟨y, hy1, hy2⟩)
  rw [← key, not_lt]
  exact ⟨fun h => h.le, fun h => le_antisymm h (inter_nonneg a b)⟩

theorem inter_malformed {a b : Box K} (h : ¬ WellFormed a) : a.inter b = 0 := by
  unfold WellFormed at h
  rw [inter_eq]
  by_cases hx : a.x1 < a.x2
  · have hy : a.y2 ≤ a.y1 := not_lt.mp fun hy => h ⟨hx, hy⟩
    have : overlap a.y1 a.y2 b.y1 b.y2 = 0 := by
      have h1 := min_le_left a.y2 b.y2
      have h2 := le_max_left a.y1 b.y1
      exact max_eq_right (by linarith)
    rw [this, mul_zero]
  · have hx := not_lt.mp hx
    have : overlap a.x1 a.x2 b.x1 b.x2 = 0 := by
      have h1 := min_le_left a.x2 b.x2
      have h2 := le_max_left a.x1 b.x1
      exact max_eq_right (by linarith)
    rw [this, zero_mul]

/-- **C37** For boxes that are not well-formed the result is 1 or NaN (and NaN only comes from `0 / 0`). -/
theorem C37_malformed {a b : Box K} (h : ¬ WellFormed a ∨ ¬ WellFormed b) :
    a.inter b = 0 ∧ (iouPair a b = some 1 ∨ iouPair a b = none ∧ a.area + b.area = 0) := by
  have h0 : a.inter b = 0 := by
    rcases h with h | h
    · exact inter_malformed h
    · rw [inter_comm]; exact inter_malformed h
  refine ⟨h0, ?_⟩
  unfold iouPair
  simp only [h0, sub_zero, zero_div]
  by_cases hd : a.area + b.area = 0
  · right; exact ⟨if_pos hd, hd⟩
  · left; exact if_neg hd

theorem mapM_ofRow_length {l : List (List K)} {bs : List (Box K)} (h : l.mapM Box.ofRow = some bs) :
    bs.length = l.length ∧ ∀ (i : Nat) (b : Box K), bs[i]? = some b → l[i]? = some [b.x1, b.y1, b.x2, b.y2] := by
  induction l generalizing bs with
  | nil => simp at h; subst h; simp
  | cons r rs ih =>
    simp only [List.mapM_cons, Option.bind_eq_bind, Option.bind_eq_some_iff, Option.pure_def,
      Option.some.injEq] at h
    obtain ⟨b, hb, bs', hbs, rfl⟩ := h
    obtain ⟨h1, h2⟩ := ih hbs
    refine ⟨by simp [h1], ?_⟩
    intro i c hc
    cases i with
    | zero =>
      simp only [List.getElem?_cons_zero, Option.some.injEq] at hc ⊢
      subst hc
      unfold Box.ofRow at hb
      split at hb
      · cases hb; rfl
      · cases hb
    | succ i => simpa using h2 i c (by simpa using hc)

/-- **C37** `iou` computes one entry per pair of rows; it does not raise exactly if all rows have four
columns. -/
theorem C37_entries (cands objs : List (List K)) :
    ((∃ M, iou cands objs = some M) ↔ (∀ r ∈ cands, r.length = 4) ∧ ∀ r ∈ objs, r.length = 4) ∧
    ∀ M, iou cands objs = some M → M.rows = cands.length ∧ M.cols = objs.length ∧
      ∀ (i j : Nat) (a b : Box K), cands[i]? = some [a.x1, a.y1, a.x2, a.y2] →
        objs[j]? = some [b.x1, b.y1, b.x2, b.y2] → M.val i j = iouPair a b := by
  have hex : ∀ l : List (List K), (∃ bs, l.mapM Box.ofRow = some bs) ↔ ∀ r ∈ l, r.length = 4 := by
    intro l
    induction l with
    | nil => simp
    | cons r rs ih =>
      have h1 : (∃ b, Box.ofRow r = some b) ↔ r.length = 4 := by
        rcases r with _ | ⟨a, _ | ⟨b, _ | ⟨c, _ | ⟨d, _ | ⟨e, r⟩⟩⟩⟩⟩ <;> simp [Box.ofRow]
      simp only [List.mapM_cons, Option.bind_eq_bind, Option.bind_eq_some_iff, Option.pure_def,
        Option.some.injEq, List.forall_mem_cons, ← ih, ← h1]
      constructor
      · rintro ⟨bs, b, hb, bs', hbs, rfl⟩; exact ⟨⟨b, hb⟩, bs', hbs⟩
      · rintro ⟨⟨b, hb⟩, bs, hbs⟩; exact ⟨_, b, hb, bs, hbs, rfl⟩
  constructor
  · rw [← hex, ← hex]
    unfold iou
    cases cands.mapM Box.ofRow <;> cases objs.mapM Box.ofRow <;> simp
  · intro M hM
    unfold iou at hM
    cases hc : cands.mapM Box.ofRow with
    | none => rw [hc] at hM; cases hM
    | some cs =>
      cases ho : objs.mapM Box.ofRow with
      | none => rw [hc, ho] at hM; cases hM
      | some os =>
        rw [hc, ho] at hM
        obtain rfl := Option.some.inj hM
        obtain ⟨l1, g1⟩ := mapM_ofRow_length hc
        obtain ⟨l2, g2⟩ := mapM_ofRow_length ho
        refine ⟨l1, l2, ?_⟩
        intro i j a b ha hb
        have hi : i < cs.length := by rw [l1]; exact (List.getElem?_eq_some_iff.mp ha).1
        have hj : j < os.length := by rw [l2]; exact (List.getElem?_eq_some_iff.mp hb).1
        have e1 := g1 i cs[i] (List.getElem?_eq_getElem hi)
        have e2 := g2 j os[j] (List.getElem?_eq_getElem hj)
        rw [ha] at e1
        rw [hb] at e2
        simp only [Option.some.injEq, List.cons.injEq, and_true] at e1 e2
        have f1 : cs[i] = a := by
          obtain ⟨x1, x2, x3, x4⟩ := e1
          generalize cs[i] = z at *
          cases z; cases a; simp_all
        have f2 : os[j] = b := by
          obtain ⟨x1, x2, x3, x4⟩ := e2
          generalize os[j] = z at *
          cases z; cases b; simp_all
        simp only [List.getElem?_eq_getElem hi, List.getElem?_eq_getElem hj, f1, f2]

/-- the box scaled by `(s, t)` and then moved by `(u, v)` -/
def Box.affine (s t u v : K) (b : Box K) : Box K := ⟨s * b.x1 + u, t * b.y1 + v, s * b.x2 + u, t * b.y2 + v⟩

/-- the box with exchanged axes -/
def Box.swap (b : Box K) : Box K := ⟨b.y1, b.x1, b.y2, b.x2⟩

theorem overlap_affine {s : K} (hs : 0 < s) (u a1 a2 b1 b2 : K) :
    overlap (s * a1 + u) (s * a2 + u) (s * b1 + u) (s * b2 + u) = s * overlap a1 a2 b1 b2 := by
  unfold overlap
  rw [min_add_add_right, max_add_add_right, ← mul_min_of_nonneg _ _ hs.le, ← mul_max_of_nonneg _ _ hs.le,
    add_sub_add_right_eq_sub, ← mul_sub, mul_max_of_nonneg _ _ hs.le, mul_zero]

/-- **C38** `iou` does not change when both boxes are scaled per axis by positive factors and moved by the
same vector. -/
theorem C38_scale_translate {s t : K} (hs : 0 < s) (ht : 0 < t) (u v : K) (a b : Box K) :
    iouPair (Box.affine s t u v a) (Box.affine s t u v b) = iouPair a b := by
  have hi : (Box.affine s t u v a).inter (Box.affine s t u v b) = s * t * a.inter b := by
    simp only [inter_eq, Box.affine, overlap_affine hs, overlap_affine ht]; ring
  have hA : ∀ c : Box K, (Box.affine s t u v c).area = s * t * c.area := by
    intro c; simp only [Box.area, Box.affine]; ring
  unfold iouPair
  simp only
  rw [hi, hA, hA]
  have e : s * t * a.area + s * t * b.area - s * t * a.inter b = s * t * (a.area + b.area - a.inter b) := by ring
  rw [e, mul_div_mul_left _ _ (mul_pos hs ht).ne']
  simp [hs.ne', ht.ne']

/-- **C38** `iou` does not change when the axes are exchanged. -/
theorem C38_swap_axes (a b : Box K) : iouPair (Box.swap a) (Box.swap b) = iouPair a b := by
  have hi : (Box.swap a).inter (Box.swap b) = a.inter b := by
    simp only [inter_eq, Box.swap]; ring
  have hA : ∀ c : Box K, (Box.swap c).area = c.area := by
    intro c; simp only [Box.area, Box.swap]; ring
  unfold iouPair
  simp only [hi, hA]

end

/-! ### As a measure -/

open MeasureTheory

/-- the points of a box -/
def Box.set (b : Box ℝ) : Set (ℝ × ℝ) := Set.Icc b.x1 b.x2 ×ˢ Set.Icc b.y1 b.y2

theorem measureReal_box (x1 x2 y1 y2 : ℝ) :
    volume.real (Set.Icc x1 x2 ×ˢ Set.Icc y1 y2 : Set (ℝ × ℝ)) = max (x2 - x1) 0 * max (y2 - y1) 0 := by
  rw [Measure.real, Measure.volume_eq_prod, Measure.prod_prod, Real.volume_Icc, Real.volume_Icc, ENNReal.toReal_mul,
    ENNReal.toReal_ofReal', ENNReal.toReal_ofReal']

theorem box_finite (c : Box ℝ) : volume (Box.set c) ≠ ⊤ := by
  rw [Box.set, Measure.volume_eq_prod, Measure.prod_prod, Real.volume_Icc, Real.volume_Icc]
  exact ENNReal.mul_ne_top ENNReal.ofReal_ne_top ENNReal.ofReal_ne_top

/-- **C37** `iou` is one minus the area of the intersection over the area of the union. -/
theorem C37_intersection_over_union {a b : Box ℝ} (ha : WellFormed a) (hb : WellFormed b) :
    iouPair a b = some (1 - volume.real (Box.set a ∩ Box.set b) / volume.real (Box.set a ∪ Box.set b)) := by
  have hA : ∀ {c : Box ℝ}, WellFormed c → volume.real (Box.set c) = c.area := by
    intro c hc
    rw [Box.set, measureReal_box, max_eq_left (sub_pos.mpr hc.1).le, max_eq_left (sub_pos.mpr hc.2).le]
    rfl
  have hI : volume.real (Box.set a ∩ Box.set b) = a.inter b := by
    rw [Box.set, Box.set, Set.prod_inter_prod, Set.Icc_inter_Icc, Set.Icc_inter_Icc, measureReal_box]
    rfl
  have hfin := box_finite
  have hU := measureReal_union_add_inter (μ := volume) (s := Box.set a) (t := Box.set b)
    (measurableSet_Icc.prod measurableSet_Icc) (hfin a) (hfin b)
  rw [hI, hA ha, hA hb] at hU
  rw [iouPair_eq ha hb, hI]
  congr 3
  linarith

theorem symmDiff_area {a b : Box ℝ} (ha : WellFormed a) (hb : WellFormed b) :
    volume.real (symmDiff (Box.set a) (Box.set b)) = a.area + b.area - 2 * a.inter b := by
  have hA : ∀ {c : Box ℝ}, WellFormed c → volume.real (Box.set c) = c.area := by
    intro c hc
    rw [Box.set, measureReal_box, max_eq_left (sub_pos.mpr hc.1).le, max_eq_left (sub_pos.mpr hc.2).le]
    rfl
  have hI : volume.real (Box.set a ∩ Box.set b) = a.inter b := by
    rw [Box.set, Box.set, Set.prod_inter_prod, Set.Icc_inter_Icc, Set.Icc_inter_Icc, measureReal_box]
    rfl
  have hm : ∀ c : Box ℝ, MeasurableSet (Box.set c) := fun c => measurableSet_Icc.prod measurableSet_Icc
  have hfin := box_finite
  rw [measureReal_symmDiff_eq (hm a) (hm b) (hfin a) (hfin b)]
  have h1 := measureReal_inter_add_sdiff (μ := volume) (s := Box.set a) (hm b) (hfin a)
  have h2 := measureReal_inter_add_sdiff (μ := volume) (s := Box.set b) (hm a) (hfin b)
  rw [Set.inter_comm] at h2
  rw [hI, hA ha] at h1
  rw [hI, hA hb] at h2
  linarith

/-- **C68** `iou` satisfies the triangle inequality, so (with C37) it is a metric on well-formed boxes. -/
theorem C68_triangle {a b c : Box ℝ} (ha : WellFormed a) (hb : WellFormed b) (hc : WellFormed c) :
    ∃ u v t, iouPair a b = some u ∧ iouPair b c = some v ∧ iouPair a c = some t ∧ t ≤ u + v := by
  refine ⟨_, _, _, iouPair_eq ha hb, iouPair_eq hb hc, iouPair_eq ha hc, ?_⟩
  have hA := area_pos ha
  have hB := area_pos hb
  have hC := area_pos hc
  -- symmetric differences
  set p := a.area + b.area - 2 * a.inter b with hp
  set q := b.area + c.area - 2 * b.inter c with hq
  set x := a.area + c.area - 2 * a.inter c with hx
  have hp0 : 0 ≤ p := by rw [hp, ← symmDiff_area ha hb]; exact measureReal_nonneg
  have hq0 : 0 ≤ q := by rw [hq, ← symmDiff_area hb hc]; exact measureReal_nonneg
  have hx0 : 0 ≤ x := by rw [hx, ← symmDiff_area ha hc]; exact measureReal_nonneg
  have htri : x ≤ p + q := by
    rw [hp, hq, hx, ← symmDiff_area ha hb, ← symmDiff_area hb hc, ← symmDiff_area ha hc]
    exact measureReal_symmDiff_le _ (box_finite a) (box_finite b)
  have hbcq : b.area ≤ c.area + q := by
    have := inter_le_area hc b
    rw [inter_comm] at this
    have := inter_le_area hb c
    linarith
  have hbap : b.area ≤ a.area + p := by
    have := inter_le_area ha b
    linarith
  have e : ∀ {s r i : ℝ}, 0 < s + r - i → 1 - i / (s + r - i) = 2 * (s + r - 2 * i) / (s + r + (s + r - 2 * i)) := by
    intro s r i h
    have h2 : s + r + (s + r - 2 * i) = 2 * (s + r - i) := by ring
    rw [h2, mul_div_mul_left _ _ (by norm_num : (2 : ℝ) ≠ 0), eq_div_iff h.ne', sub_mul, div_mul_cancel₀ _ h.ne']
    ring
  rw [e (denom_pos ha hb), e (denom_pos hb hc), e (denom_pos ha hc), ← hp, ← hq, ← hx]
  have s1 : 2 * x / (a.area + c.area + x) ≤ 2 * (p + q) / (a.area + c.area + (p + q)) := by
    rw [div_le_div_iff₀ (by positivity) (by positivity)]
    have := mul_nonneg hx0 hA.le
    nlinarith
  have s2 : 2 * p / (a.area + c.area + (p + q)) ≤ 2 * p / (a.area + b.area + p) :=
    div_le_div_of_nonneg_left (by positivity) (by positivity) (by linarith)
  have s3 : 2 * q / (a.area + c.area + (p + q)) ≤ 2 * q / (b.area + c.area + q) :=
    div_le_div_of_nonneg_left (by positivity) (by positivity) (by linarith)
  have s4 : 2 * (p + q) / (a.area + c.area + (p + q)) =
      2 * p / (a.area + c.area + (p + q)) + 2 * q / (a.area + c.area + (p + q)) := by
    rw [← add_div]; ring
  linarith

/-! ### Examples -/

example : WellFormed (⟨0, 0, 2, 2⟩ : Box ℚ) ∧ WellFormed (⟨1, 1, 3, 3⟩ : Box ℚ) ∧
    iouPair (⟨0, 0, 2, 2⟩ : Box ℚ) ⟨1, 1, 3, 3⟩ = some (6 / 7) := by
  refine ⟨⟨by norm_num, by norm_num⟩, ⟨by norm_num, by norm_num⟩, ?_⟩
  decide +kernel

example : WellFormed (⟨0, 0, 2, 2⟩ : Box ℝ) := ⟨by norm_num, by norm_num⟩

/-- **C37** (well-formedness is needed to exclude NaN) Two boxes without area. -/
theorem C37_degenerate_nan : iouPair (⟨0, 0, 0, 2⟩ : Box ℚ) ⟨0, 0, 0, 2⟩ = none := by decide +kernel

example : iouPair (⟨2, 0, 0, 2⟩ : Box ℚ) ⟨0, 0, 2, 3⟩ = some 1 ∧ ¬ WellFormed (⟨2, 0, 0, 2⟩ : Box ℚ) :=
  ⟨by decide +kernel, fun h => absurd h.1 (by norm_num)⟩

end Norfair.Props
