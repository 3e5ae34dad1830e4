import Verif.Spec.Demos
import Verif.Props.Parametric

/-! C108: the projection and the distance of the 3D demo. -/

set_option linter.unusedSectionVars false

namespace Norfair.Props

open Norfair Norfair.Spec

variable {K L F X : Type}

section
variable [Field K] [LinearOrder K] [IsStrictOrderedRing K]

/-- **C108** Parameters in pixels and in NDC (normalized device coordinates, from -1 to 1) are two descriptions of the
same: a projecter made from one kind is the one made from the parameters of the other kind that it has computed. -/
theorem C108_parameters {size : K × K} (h1 : size.1 ≠ 0) (h2 : size.2 ≠ 0) (f p : K × K) :
    (∀ s, Projecter.init size (some f) (some p) none none = some s →
      s.focalNdc = f ∧ s.principalNdc = p ∧
      Projecter.init size none none (some s.focalPixel) (some s.principalPixel) = some s) ∧
    (∀ s, Projecter.init size none none (some f) (some p) = some s →
      s.focalPixel = f ∧ s.principalPixel = p ∧
      Projecter.init size (some s.focalNdc) (some s.principalNdc) none none = some s) := by
  obtain ⟨w, h⟩ := size
  obtain ⟨fx, fy⟩ := f
  obtain ⟨px, py⟩ := p
  simp only at h1 h2
  refine ⟨fun s hs => ?_, fun s hs => ?_⟩
  all_goals
    simp only [Projecter.init, Projecter.ofNdc, Projecter.ofPixel, Option.isNone_some, Option.isNone_none, Bool.and_self,
      Bool.and_false, Bool.not_true, Bool.not_false, Bool.and_true, Bool.false_eq_true, if_false, if_true,
      Option.some.injEq] at hs ⊢
    subst hs
    simp only [Projecter.mk.injEq, Prod.mk.injEq, true_and, and_true]
    refine ⟨⟨?_, ?_⟩, ?_, ?_⟩ <;> field_simp <;> ring

/-- **C108** A projecter can be made exactly from: no parameters, or both in NDC, or both in pixels. -/
theorem C108_init (size : K × K) (fn pn fp pp : Option (K × K)) :
    Projecter.init size fn pn fp pp ≠ none ↔
      (fn = none ∧ pn = none ∨ ∃ f p, fn = some f ∧ pn = some p) ∧ (fp = none ∧ pp = none ∨ ∃ f p, fp = some f ∧ pp = some p) ∧
      ¬ (fn ≠ none ∧ fp ≠ none) := by
  cases fn <;> cases pn <;> cases fp <;> cases pp <;> simp [Projecter.init]

/-- what a projecter looks like that the constructor makes -/
theorem init_pixel {size : K × K} (h1 : size.1 ≠ 0) (h2 : size.2 ≠ 0) {fn pn fp pp : Option (K × K)} {s : Projecter K}
    (hs : Projecter.init size fn pn fp pp = some s) :
    s.size = size ∧ s.focalPixel = (s.focalNdc.1 * size.1 / 2, s.focalNdc.2 * size.2 / 2) ∧
    s.principalPixel = ((1 - s.principalNdc.1) * size.1 / 2, (1 - s.principalNdc.2) * size.2 / 2) := by
  obtain ⟨w, h⟩ := size
  simp only at h1 h2
  rcases fn with _ | fn <;> rcases pn with _ | pn <;> rcases fp with _ | fp <;> rcases pp with _ | pp <;>
    simp [Projecter.init, Projecter.ofNdc, Projecter.ofPixel] at hs
  all_goals
    subst hs
    simp only [true_and]
    try simp
  obtain ⟨a, b⟩ := fp
  obtain ⟨c, d⟩ := pp
  simp only [Prod.mk.injEq]
  refine ⟨⟨?_, ?_⟩, ?_, ?_⟩ <;> field_simp

/-- **C108** (what is true of the two ways to pixels) Projecting a point to NDC and then to pixels gives the row that
`eye_2_pixel` gives, and a column that is too far to the right by the width of the image times the first coordinate of
the principal point in NDC. Missing: equal columns, which is false (`C108_false_column`) unless that coordinate is 0. -/
theorem C108_pixels_partial {size : K × K} (h1 : size.1 ≠ 0) (h2 : size.2 ≠ 0) {fn pn fp pp : Option (K × K)}
    {s : Projecter K} (hs : Projecter.init size fn pn fp pp = some s) (p : K × K × K) (hz : p.2.2 ≠ 0) :
    (s.ndcToPixel (s.eyeToNdc p)).2 = (s.eyeToPixel p).2 ∧
    (s.ndcToPixel (s.eyeToNdc p)).1 = (s.eyeToPixel p).1 + s.principalNdc.1 * size.1 ∧
    (s.principalNdc.1 = 0 → s.ndcToPixel (s.eyeToNdc p) = s.eyeToPixel p) := by
  obtain ⟨e1, e2, e3⟩ := init_pixel h1 h2 hs
  have a : (s.ndcToPixel (s.eyeToNdc p)).2 = (s.eyeToPixel p).2 := by
    simp only [Projecter.ndcToPixel, Projecter.eyeToNdc, Projecter.eyeToPixel, e1, e2, e3]
    field_simp
    ring
  have b : (s.ndcToPixel (s.eyeToNdc p)).1 = (s.eyeToPixel p).1 + s.principalNdc.1 * size.1 := by
    simp only [Projecter.ndcToPixel, Projecter.eyeToNdc, Projecter.eyeToPixel, e1, e2, e3]
    field_simp
    ring
  exact ⟨a, b, fun h => Prod.ext (by rw [b, h, zero_mul, add_zero]) a⟩

/-- **C108** (the negation) The two ways to pixels differ: the principal point is at a quarter of the width. -/
theorem C108_false_column : ∃ s : Projecter ℚ, Projecter.init (640, 480) none none (some (500, 500)) (some (160, 240)) = some s ∧
    s.eyeToPixel (0, 0, -1) = (160, 240) ∧ s.ndcToPixel (s.eyeToNdc (0, 0, -1)) = (480, 240) := by
  refine ⟨_, rfl, ?_, ?_⟩ <;> norm_num [Projecter.ndcToPixel, Projecter.eyeToNdc, Projecter.eyeToPixel, Projecter.ofPixel]

/-- **C108** Points on a line through the eye are projected to the same pixel, and points on different lines to
different pixels (if no focal length is 0). -/
theorem C108_lines (s : Projecter K) (h1 : s.focalPixel.1 ≠ 0) (h2 : s.focalPixel.2 ≠ 0) (p q : K × K × K)
    (hp : p.2.2 ≠ 0) (hq : q.2.2 ≠ 0) :
    s.eyeToPixel p = s.eyeToPixel q ↔ ∃ c, c ≠ 0 ∧ q = (c * p.1, c * p.2.1, c * p.2.2) := by
  obtain ⟨x, y, z⟩ := p
  obtain ⟨x', y', z'⟩ := q
  simp only at hp hq
  simp only [Projecter.eyeToPixel, Prod.mk.injEq, add_left_inj, mul_one]
  constructor
  · rintro ⟨a, b⟩
    have a' : x / z = x' / z' := mul_right_cancel₀ (by simpa using h1) a
    have b' : y / z = y' / z' := mul_right_cancel₀ h2 b
    refine ⟨z' / z, div_ne_zero hq hp, ?_, ?_, ?_⟩
    · rw [div_mul_eq_mul_div, mul_comm, mul_div_right_comm, a', div_mul_cancel₀ _ hq]
    · rw [div_mul_eq_mul_div, mul_comm, mul_div_right_comm, b', div_mul_cancel₀ _ hq]
    · rw [div_mul_cancel₀ _ hp]
  · rintro ⟨c, hc, rfl, rfl, rfl⟩
    rw [mul_div_mul_left _ _ hc, mul_div_mul_left _ _ hc]
    exact ⟨rfl, rfl⟩

/-- **C108** Without parameters, the points in the picture are those inside the pyramid with the picture's shape: as far
from the axis, in each direction, as from the eye or less. -/
theorem C108_visible {size : K × K} (h1 : 0 < size.1) (h2 : 0 < size.2) {s : Projecter K}
    (hs : Projecter.init size none none none none = some s) (p : K × K × K) (hz : p.2.2 ≠ 0) :
    ((0 ≤ (s.eyeToPixel p).1 ∧ (s.eyeToPixel p).1 ≤ size.1) ∧ 0 ≤ (s.eyeToPixel p).2 ∧ (s.eyeToPixel p).2 ≤ size.2) ↔
    |p.1| ≤ |p.2.2| ∧ |p.2.1| ≤ |p.2.2| := by
  obtain ⟨w, h⟩ := size
  obtain ⟨x, y, z⟩ := p
  simp only at h1 h2 hz
  simp [Projecter.init, Projecter.ofNdc] at hs
  subst hs
  have key : ∀ u n : K, 0 < n → ((0 ≤ u * (n / 2) + n / 2 ∧ u * (n / 2) + n / 2 ≤ n) ↔ |u| ≤ 1) := by
    intro u n hn
    rw [abs_le]
    constructor
    · rintro ⟨a, b⟩
      constructor
      · by_contra hc
        have := mul_pos (sub_pos.mpr (not_le.mp hc)) (half_pos hn)
        linarith [this, (by ring : (-1 - u) * (n / 2) = -(u * (n / 2) + n / 2))]
      · by_contra hc
        have := mul_pos (sub_pos.mpr (not_le.mp hc)) (half_pos hn)
        linarith [this, (by ring : (u - 1) * (n / 2) = u * (n / 2) + n / 2 - n)]
    · rintro ⟨a, b⟩
      have c1 := mul_nonneg (sub_nonneg.mpr a) (half_pos hn).le
      have c2 := mul_nonneg (sub_nonneg.mpr b) (half_pos hn).le
      constructor
      · linarith [c1, (by ring : (u - -1) * (n / 2) = u * (n / 2) + n / 2)]
      · linarith [c2, (by ring : (1 - u) * (n / 2) = n - (u * (n / 2) + n / 2))]
  simp only [Projecter.eyeToPixel, mul_one]
  have e : x / z * (w / 2 * -1) = -x / z * (w / 2) := by ring
  rw [e, key _ _ h1, key _ _ h2, abs_div, abs_div, abs_neg, div_le_one (abs_pos.mpr hz), div_le_one (abs_pos.mpr hz)]

/-- C108: a camera, what it makes of its parameters, and three points -/
example : ∃ s : Projecter ℚ, Projecter.init (640, 480) (some (2, 2)) (some (0, 1 / 2)) none none = some s ∧
    s.focalPixel = (640, 480) ∧ s.principalPixel = (320, 120) ∧
    s.eyeToPixel (1, 1, -4) = (480, 0) ∧ s.eyeToPixel (2, 2, -8) = (480, 0) ∧ s.eyeToPixel (2, 1, -8) = (480, 60) ∧
    s.ndcToPixel (s.eyeToNdc (1, 1, -4)) = (480, 0) := by
  refine ⟨_, rfl, ?_, ?_, ?_, ?_, ?_, ?_⟩ <;>
    norm_num [Projecter.ndcToPixel, Projecter.eyeToNdc, Projecter.eyeToPixel, Projecter.ofNdc]

end

/-! ### The distance -/

theorem rowDistance_aff {c : ℝ} {N : Nat} {β : Nat → ℝ} {q : Pts ℝ} (hq : q.dim = N) (lq : q.data.length = q.dim * q.n)
    {i j : Nat} (hi : i < q.n) (hj : j < q.n) :
    rowDistance (affPts (fun _ => c) (shiftAxis N β) q).mat i j = |c| * rowDistance q.mat i j := by
  unfold rowDistance
  have e : (affPts (fun _ => c) (shiftAxis N β) q).mat.cols = q.mat.cols := rfl
  rw [e, sum_sq_mul (c := c) (f := fun k => q.mat.val i k - q.mat.val j k) fun k hk => ?_, Real.sqrt_mul (sq_nonneg c),
    Real.sqrt_sq_eq_abs]
  have hk' : k < N := hq ▸ hk
  rw [mat_aff hq lq hi hk', mat_aff hq lq hj hk']
  ring

/-- **C108** `scaled_euclidean` does not depend on units: multiplying all coordinates by `c ≠ 0` and moving all points by
one vector changes nothing. -/
theorem C108_scaled {c : ℝ} (h0 : c ≠ 0) {N : Nat} (β : Nat → ℝ) (p q : Pts ℝ) (hp : p.dim = N) (hq : q.dim = N)
    (lp : p.data.length = p.dim * p.n) (lq : q.data.length = q.dim * q.n) :
    scaledEuclidean (affPts (fun _ => c) (shiftAxis N β) p) (affPts (fun _ => c) (shiftAxis N β) q) =
      scaledEuclidean p q := by
  unfold scaledEuclidean
  have e : (affPts (fun _ => c) (shiftAxis N β) q).n = q.n := rfl
  rw [e]
  split
  · rfl
  · rename_i hn
    rw [C80_scales.2.1 c N β p q hp hq lp lq, rowDistance_aff hq lq (by omega) (by omega)]
    rcases meanEuclidean p q with _ | _ | x
    · rfl
    · rfl
    · simp only [Option.map_some, Option.bind_some]
      have hc : |c| ≠ 0 := abs_ne_zero.mpr h0
      simp only [mul_eq_zero, hc, false_or]
      rw [mul_div_mul_left _ _ hc]

/-- `scaled_euclidean` as the tracker's distance function -/
noncomputable def scaledDistance (flt : FilterOps ℝ F) : DistFn ℝ L (WithTop ℝ) F X :=
  .scalar fun d v => scaledEuclidean d.points (v.obj.estimate flt)

/-- **C108** A tracker with `scaled_euclidean` makes the same decisions, with the same threshold, in any unit of length
and from any origin. -/
theorem C108_tracker [DecidableEq L] {cfg : Cfg ℝ L (WithTop ℝ) F X} {Ok : F → Prop} (hL : FilterLaws cfg.flt Ok)
    {c : ℝ} (h0 : c ≠ 0) {N : Nat} (β : Nat → ℝ) (hA : AffineLaws cfg.flt Ok (fun _ => c) (shiftAxis N β))
    (hdist : cfg.dist = scaledDistance cfg.flt) (hreid : cfg.reid = none) {shape : L → Nat × Nat}
    {w w' : World ℝ L (WithTop ℝ) F X}
    (h : Parallel (affCorr cfg.flt Ok (fun _ => c) (shiftAxis N β) (fun _ dim => dim = N) Eq) cfg cfg shape w w')
    (dets : Option (List Ref)) (period : Int) {ct ct' : Option (CoordTrans ℝ)}
    (hc : CallOk shape (dets.getD []) ct w.heap)
    (hct : Option.Rel (affCorr cfg.flt Ok (fun _ => c) (shiftAxis N β) (fun _ dim => dim = N)
      Eq : Corr ℝ ℝ L L (WithTop ℝ) (WithTop ℝ) F F X X).Trans ct ct') :
    Alike (Moved cfg.flt (fun _ => c) (shiftAxis N β) id) (update cfg w dets period ct).2
      (update cfg w' dets period ct').2 ∧
    List.Forall₂ (Moved cfg.flt (fun _ => c) (shiftAxis N β) id) (update cfg w dets period ct).1.objs
      (update cfg w' dets period ct').1.objs := by
  have hF := affine_filters (L := L) (L' := L) (X := X) (X' := X) hL hA
    (affCorr cfg.flt Ok (fun _ => c) (shiftAxis N β) (fun _ dim => dim = N) (Eq : WithTop ℝ → WithTop ℝ → Prop)) rfl rfl
  refine C80_units (cfg' := cfg) hL (fun _ _ e => e.symm) ?_ rfl (fun a b hab => ?_) h dets period hc hct
  · refine ⟨?_, ?_, rfl, ?_, ?_, ?_, rfl, .inl rfl, rfl, .inl rfl, hF, ?_, ?_,
      rfl, rfl, rfl, rfl, rfl, rfl⟩
    · rintro a b _ _ rfl rfl; rfl
    · rintro a b _ _ rfl rfl; rfl
    · rintro a _ rfl; rfl
    · rintro a _ rfl; rfl
    · rintro l _ rfl; exact aff_length _ _ _
    · rw [hdist]
      refine .scalar _ _ fun _ d e v u hde hvu => ?_
      have h1 := dets_points ⟨rfl, rfl⟩ hde
      have h2 := estimate_rel ⟨rfl, rfl⟩ hF hvu.obj hvu.sensors
      rw [affCorr_eq h1, affCorr_eq h2, C108_scaled h0 β _ _ h1.shape h2.shape h1.len h2.len]
      rcases scaledEuclidean d.points (v.obj.estimate cfg.flt) with _ | _ | x
      · exact .none
      · exact .some .none
      · exact .some (.some rfl)
    · rw [hreid]
      exact .none
  · unfold Compat at hab
    rw [hdist] at hab
    simp only [scaledDistance] at hab
    rw [hab]

/-- the center and the corners of a cube with side 2 -/
def cube (x : ℝ) : List ℝ :=
  [x, x, x, x - 1, x - 1, x - 1, x - 1, x - 1, x + 1, x - 1, x + 1, x - 1, x - 1, x + 1, x + 1,
    x + 1, x - 1, x - 1, x + 1, x - 1, x + 1, x + 1, x + 1, x - 1, x + 1, x + 1, x + 1]

theorem cube_rowDistance (x : ℝ) : rowDistance (⟨9, 3, cube x⟩ : Pts ℝ).mat 1 8 = √12 := by
  simp only [rowDistance, Pts.mat, cube, Finset.sum_range_succ, Finset.sum_range_zero]
  norm_num
  congr 1
  ring

/-- C108_scaled: the hypotheses hold for cubes, and the distance of cubes at opposite corners is 1 -/
example : (⟨9, 3, cube 0⟩ : Pts ℝ).data.length = 3 * 9 ∧
    scaledEuclidean ⟨9, 3, cube 0⟩ ⟨9, 3, cube 2⟩ = some (some ((1 : ℝ) : WithTop ℝ)) := by
  refine ⟨rfl, ?_⟩
  have h : meanEuclidean ⟨9, 3, cube 0⟩ ⟨9, 3, cube 2⟩ = some (some √12) := by
    simp only [meanEuclidean, Mat.sub, Pts.mat, bdim, if_true, Option.map_some, meanOf, Mat.rowNorm, cube,
      Finset.sum_range_succ, Finset.sum_range_zero, bidx]
    norm_num
    ring
  have h12 : √(12 : ℝ) ≠ 0 := by positivity
  unfold scaledEuclidean
  rw [h, cube_rowDistance]
  simp [h12]

/-- cube `r` is at `r` -/
noncomputable def cubeHeap : Ref → Det ℝ Nat Unit :=
  fun r => ⟨⟨9, 3, cube r⟩, none, 0, (), ⟨9, 3, cube r⟩, none⟩

/-- the same, five times as large and moved by `(7, 8, 8)` -/
noncomputable def cubeHeap' : Ref → Det ℝ Nat Unit :=
  fun r => ⟨⟨9, 3, aff (fun _ => 5) (shiftAxis 3 fun j => if j = 0 then 7 else 8) (cube r)⟩, none, 0, (),
    ⟨9, 3, aff (fun _ => 5) (shiftAxis 3 fun j => if j = 0 then 7 else 8) (cube r)⟩, none⟩

/-- the parameters of `okfDefaults` -/
noncomputable def realOkf : OKFParams ℝ := ⟨4, 1 / 10, 10, 0, 1⟩

noncomputable def cubeCfg : Cfg ℝ Nat (WithTop ℝ) (OKF ℝ) Unit where
  dist := scaledDistance (okfOps realOkf)
  thr := ((1 : ℝ) : WithTop ℝ)
  fill := ((1 : ℝ) : WithTop ℝ) + 1
  hitCounterMax := 4
  initDelay := 1
  pwMax := 4
  detThr := 0
  flt := okfOps realOkf
  pastLen := 2
  reid := none
  reidThr := 0
  reidFill := 0 + 1
  reidMax := none

/-- C108_tracker: after any calls with cubes -/
example (ls : List (List Ref)) (l : List Ref) :
    Alike (Moved cubeCfg.flt (fun _ => 5) (shiftAxis 3 fun j => if j = 0 then 7 else 8) id)
      (update cubeCfg (runs cubeCfg ⟨cubeHeap, 0, 0, 0, []⟩ ls) (some l) 1 none).2
      (update cubeCfg (runs cubeCfg ⟨cubeHeap', 0, 0, 0, []⟩ ls) (some l) 1 none).2 := by
  have hp := runs_parallel (cfg := cubeCfg) (cfg' := cubeCfg) (shape := fun _ => (9, 3))
    (R := affCorr cubeCfg.flt OKF.Ok (fun _ => 5) (shiftAxis 3 fun j => if j = 0 then 7 else 8)
      (fun _ dim => dim = 3) Eq)
    ls ⟨cubeHeap, 0, 0, 0, []⟩ ⟨cubeHeap', 0, 0, 0, []⟩
    (Inv.initial ⟨rfl, rfl, rfl⟩) (fun r => ⟨rfl, rfl, rfl, by intro s hs; cases hs⟩)
    (.start ⟨rfl, rfl, rfl⟩ ⟨rfl, rfl, rfl⟩
      (fun r => ⟨⟨rfl, rfl, rfl, rfl, rfl⟩, .none, rfl, rfl, ⟨rfl, rfl, rfl, rfl, rfl⟩, rfl⟩) rfl)
  exact (C108_tracker (cfg := cubeCfg) (okf_laws realOkf) (by norm_num) _ (okf_affine realOkf _ _) rfl rfl
    hp.1 (some l) 1 ⟨(by intro _ h; cases h), fun r _ => hp.2 r⟩ .none).1

end Norfair.Props
