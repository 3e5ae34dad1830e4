import Verif.Spec.Distances
import Mathlib.Analysis.MeanInequalities
import Mathlib.Tactic.Linarith
import Mathlib.Tactic.Ring
import Mathlib.Tactic.FieldSimp
import Mathlib.Tactic.Positivity

/-! C39, C40, C41: distances between the points of a detection and an estimate. -/

set_option linter.unusedSectionVars false

namespace Norfair.Spec

/-- coordinate `j` of point `i` -/
def coord (p : Pts ℝ) (i j : Nat) : ℝ := (p.data[i * p.dim + j]?).getD 0

/-- euclidean distance of the `i`-th points -/
noncomputable def euclid (p q : Pts ℝ) (i : Nat) : ℝ :=
  √(∑ j ∈ Finset.range p.dim, (coord p i j - coord q i j) ^ 2)

/-- manhattan distance of the `i`-th points -/
def manhattan (p q : Pts ℝ) (i : Nat) : ℝ := ∑ j ∈ Finset.range p.dim, |coord p i j - coord q i j|

/-- `d` is a metric on arrays of shape `(n, dim)`, and gives a number for them -/
def IsMetric (d : Pts ℝ → Pts ℝ → Option (Option ℝ)) (n dim : Nat) : Prop :=
  ∃ f : Pts ℝ → Pts ℝ → ℝ,
    (∀ p q, p.n = n → p.dim = dim → q.n = n → q.dim = dim → d p q = some (some (f p q))) ∧
    ∀ p q r : Pts ℝ, (p.n = n ∧ p.dim = dim ∧ ShapeOk p) → (q.n = n ∧ q.dim = dim ∧ ShapeOk q) →
      (r.n = n ∧ r.dim = dim ∧ ShapeOk r) →
      0 ≤ f p q ∧ f p q = f q p ∧ (f p q = 0 ↔ p = q) ∧ f p r ≤ f p q + f q r

/-- keypoint `i` votes: it is close, and over the threshold in both -/
def Votes (kthr dthr : ℝ) (p q : Pts ℝ) (s t : List ℝ) (i : Nat) : Prop :=
  euclid p q i < kthr ∧ dthr < (s[i]?).getD dthr ∧ dthr < (t[i]?).getD dthr

end Norfair.Spec

namespace Norfair.Props

open Norfair Norfair.Spec Finset

/-! ### Norms -/

theorem l2_add {ι : Type} (s : Finset ι) (f g : ι → ℝ) :
    √(∑ i ∈ s, (f i + g i) ^ 2) ≤ √(∑ i ∈ s, f i ^ 2) + √(∑ i ∈ s, g i ^ 2) := by
  have h := Real.Lp_add_le s f g (p := 2) (by norm_num)
  simp only [Real.rpow_two, sq_abs, ← Real.sqrt_eq_rpow] at h
  exact h

theorem l2_le_l1 {ι : Type} [DecidableEq ι] (s : Finset ι) (f : ι → ℝ) :
    √(∑ i ∈ s, f i ^ 2) ≤ ∑ i ∈ s, |f i| := by
  rw [Real.sqrt_le_left (Finset.sum_nonneg fun i _ => abs_nonneg _)]
  induction s using Finset.induction with
  | empty => simp
  | insert a s ha ih =>
    rw [Finset.sum_insert ha, Finset.sum_insert ha]
    have h1 : 0 ≤ ∑ i ∈ s, |f i| := Finset.sum_nonneg fun i _ => abs_nonneg _
    have h2 := mul_nonneg (abs_nonneg (f a)) h1
    have h3 := sq_abs (f a)
    nlinarith

/-! ### Formulas -/

theorem bidx_self {n i : Nat} (h : i < n) : bidx n i = i := by
  unfold bidx; split <;> omega

theorem mat_sub_same {p q : Pts ℝ} (h : SameShape p q) :
    ∃ x, p.mat.sub q.mat = some x ∧ x.rows = p.n ∧ x.cols = p.dim ∧
      ∀ i < p.n, ∀ j < p.dim, x.val i j = coord p i j - coord q i j := by
  unfold Mat.sub
  have e1 : bdim p.mat.rows q.mat.rows = some p.n := by
    show bdim p.n q.n = _
    rw [← h.1]; simp [bdim]
  have e2 : bdim p.mat.cols q.mat.cols = some p.dim := by
    show bdim p.dim q.dim = _
    rw [← h.2]; simp [bdim]
  rw [e1, e2]
  refine ⟨_, rfl, rfl, rfl, ?_⟩
  intro i hi j hj
  show p.mat.val (bidx p.n i) (bidx p.dim j) - q.mat.val (bidx q.n i) (bidx q.dim j) = _
  rw [← h.1, ← h.2, bidx_self hi, bidx_self hj]
  rfl

theorem frobenius_eq {p q : Pts ℝ} (h : SameShape p q) : frobenius p q =
    some (some (√(∑ i ∈ range p.n, ∑ j ∈ range p.dim, (coord p i j - coord q i j) ^ 2))) := by
  obtain ⟨x, e, e1, e2, e3⟩ := mat_sub_same h
  unfold frobenius
  rw [e, Option.map_some, e1, e2]
  congr 3
  refine Finset.sum_congr rfl fun i hi => Finset.sum_congr rfl fun j hj => ?_
  rw [e3 i (mem_range.mp hi) j (mem_range.mp hj)]

theorem rowNorm_eq {p q : Pts ℝ} {x : Mat ℝ} (e2 : x.cols = p.dim)
    (e3 : ∀ i < p.n, ∀ j < p.dim, x.val i j = coord p i j - coord q i j) {i : Nat} (hi : i < p.n) :
    x.rowNorm i = euclid p q i := by
  unfold Mat.rowNorm euclid
  rw [e2]
  congr 1
  refine Finset.sum_congr rfl fun j hj => ?_
  rw [e3 i hi j (mem_range.mp hj)]

theorem meanEuclidean_eq {p q : Pts ℝ} (h : SameShape p q) (hn : 0 < p.n) : meanEuclidean p q =
    some (some ((∑ i ∈ range p.n, euclid p q i) / p.n)) := by
  obtain ⟨x, e, e1, e2, e3⟩ := mat_sub_same h
  unfold meanEuclidean meanOf
  rw [e, Option.map_some, e1, if_neg hn.ne']
  congr 3
  exact Finset.sum_congr rfl fun i hi => rowNorm_eq e2 e3 (mem_range.mp hi)

theorem meanManhattan_eq {p q : Pts ℝ} (h : SameShape p q) (hn : 0 < p.n) : meanManhattan p q =
    some (some ((∑ i ∈ range p.n, manhattan p q i) / p.n)) := by
  obtain ⟨x, e, e1, e2, e3⟩ := mat_sub_same h
  unfold meanManhattan meanOf
  rw [e, Option.map_some, e1, if_neg hn.ne']
  congr 3
  refine Finset.sum_congr rfl fun i hi => ?_
  unfold Mat.rowNorm1 manhattan
  rw [e2]
  exact Finset.sum_congr rfl fun j hj => by rw [e3 i (mem_range.mp hi) j (mem_range.mp hj)]

theorem coord_sep {p q : Pts ℝ} (hs : SameShape p q) (hp : ShapeOk p) (hq : ShapeOk q)
    (h : ∀ i < p.n, ∀ j < p.dim, coord p i j = coord q i j) : p = q := by
  obtain ⟨n, m, d⟩ := p
  obtain ⟨n', m', d'⟩ := q
  obtain ⟨e1, e2⟩ := hs
  simp only at e1 e2
  subst e1; subst e2
  unfold ShapeOk at hp hq
  simp only at hp hq h
  congr 1
  refine List.ext_getElem (hp.trans hq.symm) ?_
  intro k h1 h2
  have hk : k < m * n := hp ▸ h1
  have hm : 0 < m := Nat.pos_of_ne_zero (by rintro rfl; simp at hk)
  have := h (k / m) (Nat.div_lt_of_lt_mul hk) (k % m) (Nat.mod_lt _ hm)
  unfold coord at this
  simp only at this
  rw [Nat.div_add_mod' k m, List.getElem?_eq_getElem h1, List.getElem?_eq_getElem h2] at this
  simpa using this

theorem euclid_nonneg (p q : Pts ℝ) (i : Nat) : 0 ≤ euclid p q i := Real.sqrt_nonneg _

theorem manhattan_nonneg (p q : Pts ℝ) (i : Nat) : 0 ≤ manhattan p q i :=
  Finset.sum_nonneg fun _ _ => abs_nonneg _

theorem euclid_comm {p q : Pts ℝ} (h : p.dim = q.dim) (i : Nat) : euclid p q i = euclid q p i := by
  unfold euclid
  rw [h]
  congr 1
  exact Finset.sum_congr rfl fun j _ => by ring

theorem manhattan_comm {p q : Pts ℝ} (h : p.dim = q.dim) (i : Nat) : manhattan p q i = manhattan q p i := by
  unfold manhattan
  rw [h]
  exact Finset.sum_congr rfl fun j _ => abs_sub_comm _ _

theorem euclid_triangle {p q r : Pts ℝ} (h : p.dim = q.dim) (i : Nat) :
    euclid p r i ≤ euclid p q i + euclid q r i := by
  unfold euclid
  rw [← h]
  have := l2_add (range p.dim) (fun j => coord p i j - coord q i j) (fun j => coord q i j - coord r i j)
  simpa using this

theorem manhattan_triangle {p q r : Pts ℝ} (h : p.dim = q.dim) (i : Nat) :
    manhattan p r i ≤ manhattan p q i + manhattan q r i := by
  unfold manhattan
  rw [← h, ← Finset.sum_add_distrib]
  exact Finset.sum_le_sum fun j _ => abs_sub_le _ _ _

theorem euclid_zero {p q : Pts ℝ} {i : Nat} (h : euclid p q i = 0) : ∀ j < p.dim, coord p i j = coord q i j := by
  unfold euclid at h
  rw [Real.sqrt_eq_zero (Finset.sum_nonneg fun _ _ => sq_nonneg _),
    Finset.sum_eq_zero_iff_of_nonneg fun _ _ => sq_nonneg _] at h
  intro j hj
  have := h j (mem_range.mpr hj)
  exact sub_eq_zero.mp (pow_eq_zero_iff (two_ne_zero) |>.mp this)

theorem manhattan_zero {p q : Pts ℝ} {i : Nat} (h : manhattan p q i = 0) :
    ∀ j < p.dim, coord p i j = coord q i j := by
  unfold manhattan at h
  rw [Finset.sum_eq_zero_iff_of_nonneg fun _ _ => abs_nonneg _] at h
  intro j hj
  exact sub_eq_zero.mp (abs_eq_zero.mp (h j (mem_range.mpr hj)))

theorem euclid_self (p : Pts ℝ) (i : Nat) : euclid p p i = 0 := by simp [euclid]
theorem manhattan_self (p : Pts ℝ) (i : Nat) : manhattan p p i = 0 := by simp [manhattan]

/-! ### C39 -/

/-- **C39** `frobenius` is a metric. -/
theorem C39_frobenius (n dim : Nat) : IsMetric frobenius n dim := by
  refine ⟨fun p q => √(∑ i ∈ range n, ∑ j ∈ range dim, (coord p i j - coord q i j) ^ 2), ?_, ?_⟩
  · rintro p q rfl rfl h3 h4
    exact frobenius_eq ⟨h3.symm, h4.symm⟩
  · rintro p q r ⟨hp1, hp2, hp⟩ ⟨hq1, hq2, hq⟩ ⟨hr1, hr2, hr⟩
    refine ⟨Real.sqrt_nonneg _, ?_, ?_, ?_⟩
    · simp only
      congr 1
      exact Finset.sum_congr rfl fun i _ => Finset.sum_congr rfl fun j _ => by ring
    · constructor
      · intro h
        simp only at h
        rw [Real.sqrt_eq_zero (Finset.sum_nonneg fun _ _ => Finset.sum_nonneg fun _ _ => sq_nonneg _),
          Finset.sum_eq_zero_iff_of_nonneg fun _ _ => Finset.sum_nonneg fun _ _ => sq_nonneg _] at h
        refine coord_sep ⟨hp1.trans hq1.symm, hp2.trans hq2.symm⟩ hp hq ?_
        intro i hi j hj
        have h1 := h i (mem_range.mpr (hp1 ▸ hi))
        rw [Finset.sum_eq_zero_iff_of_nonneg fun _ _ => sq_nonneg _] at h1
        exact sub_eq_zero.mp (pow_eq_zero_iff (two_ne_zero) |>.mp (h1 j (mem_range.mpr (hp2 ▸ hj))))
      · rintro rfl; simp
    · simp only [← Finset.sum_product' (range n) (range dim)]
      have := l2_add (range n ×ˢ range dim) (fun x => coord p x.1 x.2 - coord q x.1 x.2)
        (fun x => coord q x.1 x.2 - coord r x.1 x.2)
      simpa using this

/-- the mean of a distance between points is a metric if the distance is one -/
theorem mean_metric {d : Pts ℝ → Pts ℝ → Option (Option ℝ)} {f : Pts ℝ → Pts ℝ → Nat → ℝ} {n dim : Nat}
    (hn : 0 < n)
    (hd : ∀ {p q : Pts ℝ}, SameShape p q → 0 < p.n → d p q = some (some ((∑ i ∈ range p.n, f p q i) / p.n)))
    (h0 : ∀ p q i, 0 ≤ f p q i) (hc : ∀ {p q : Pts ℝ}, p.dim = q.dim → ∀ i, f p q i = f q p i)
    (ht : ∀ {p q r : Pts ℝ}, p.dim = q.dim → ∀ i, f p r i ≤ f p q i + f q r i)
    (hz : ∀ {p q : Pts ℝ} {i}, f p q i = 0 → ∀ j < p.dim, coord p i j = coord q i j)
    (hs : ∀ p i, f p p i = 0) : IsMetric d n dim := by
  have hn' : (0 : ℝ) < n := Nat.cast_pos.mpr hn
  refine ⟨fun p q => (∑ i ∈ range n, f p q i) / n, ?_, ?_⟩
  · rintro p q rfl rfl h3 h4
    exact hd ⟨h3.symm, h4.symm⟩ hn
  · rintro p q r ⟨hp1, hp2, hp⟩ ⟨hq1, hq2, hq⟩ ⟨hr1, hr2, hr⟩
    refine ⟨div_nonneg (Finset.sum_nonneg fun i _ => h0 p q i) hn'.le, ?_, ?_, ?_⟩
    · simp only
      rw [Finset.sum_congr rfl fun i _ => hc (hp2.trans hq2.symm) i]
    · constructor
      · intro h
        simp only at h
        rw [div_eq_zero_iff, or_iff_left hn'.ne', Finset.sum_eq_zero_iff_of_nonneg fun i _ => h0 p q i] at h
        refine coord_sep ⟨hp1.trans hq1.symm, hp2.trans hq2.symm⟩ hp hq ?_
        intro i hi
        exact hz (h i (mem_range.mpr (hp1 ▸ hi)))
      · rintro rfl
        simp [hs]
    · simp only
      rw [← add_div, ← Finset.sum_add_distrib]
      exact div_le_div_of_nonneg_right (Finset.sum_le_sum fun i _ => ht (hp2.trans hq2.symm) i) hn'.le

/-- **C39** `mean_euclidean` is a metric (for at least one point). -/
theorem C39_mean_euclidean {n : Nat} (hn : 0 < n) (dim : Nat) : IsMetric meanEuclidean n dim :=
  mean_metric hn meanEuclidean_eq euclid_nonneg euclid_comm euclid_triangle euclid_zero euclid_self

/-- **C39** `mean_manhattan` is a metric (for at least one point). -/
theorem C39_mean_manhattan {n : Nat} (hn : 0 < n) (dim : Nat) : IsMetric meanManhattan n dim :=
  mean_metric hn meanManhattan_eq manhattan_nonneg manhattan_comm manhattan_triangle manhattan_zero
    manhattan_self

/-- **C39** The three distances are the documented ones, and `mean_euclidean ≤ mean_manhattan`. -/
theorem C39_formulas {p q : Pts ℝ} (h : SameShape p q) (hn : 0 < p.n) :
    ∃ e m, meanEuclidean p q = some (some e) ∧ meanManhattan p q = some (some m) ∧
      frobenius p q = some (some (√(∑ i ∈ range p.n, euclid p q i ^ 2))) ∧
      e * p.n = ∑ i ∈ range p.n, euclid p q i ∧ m * p.n = ∑ i ∈ range p.n, manhattan p q i ∧ e ≤ m := by
  have hn' : (0 : ℝ) < p.n := Nat.cast_pos.mpr hn
  refine ⟨_, _, meanEuclidean_eq h hn, meanManhattan_eq h hn, ?_, ?_, ?_, ?_⟩
  · rw [frobenius_eq h]
    congr 3
    refine Finset.sum_congr rfl fun i _ => ?_
    unfold euclid
    rw [Real.sq_sqrt (Finset.sum_nonneg fun _ _ => sq_nonneg _)]
  · field_simp
  · field_simp
  · refine div_le_div_of_nonneg_right (Finset.sum_le_sum fun i _ => ?_) hn'.le
    exact l2_le_l1 _ _

/-- **C39** Without points the means are NaN. -/
theorem C39_no_points {p q : Pts ℝ} (h : SameShape p q) (hn : p.n = 0) :
    meanEuclidean p q = some none ∧ meanManhattan p q = some none := by
  obtain ⟨x, e, e1, -⟩ := mat_sub_same h
  unfold meanEuclidean meanManhattan meanOf
  rw [e, Option.map_some, Option.map_some, e1, if_pos hn, if_pos hn]
  exact ⟨rfl, rfl⟩

/-- a box as two points -/
example : SameShape (⟨2, 2, [0, 0, 3, 4]⟩ : Pts ℝ) ⟨2, 2, [1, 0, 3, 4]⟩ ∧ ShapeOk (⟨2, 2, [0, 0, 3, 4]⟩ : Pts ℝ) :=
  ⟨⟨rfl, rfl⟩, rfl⟩

/-! ### C40 -/

open Classical in
/-- **C40** For poses of the same shape with one score per keypoint the voting distance is `1 / (1 + k)`
where `k` is the number of keypoints that vote. -/
theorem C40_votes (kthr dthr : ℝ) {p q : Pts ℝ} {s t : List ℝ} (h : SameShape p q) (hs : s.length = p.n)
    (ht : t.length = p.n) :
    keypointsVoting kthr dthr p (some s) q (some t) =
      some (some (1 / (1 + (((range p.n).filter (Votes kthr dthr p q s t)).card : ℝ)))) := by
  obtain ⟨x, e, e1, e2, e3⟩ := mat_sub_same h
  unfold keypointsVoting
  rw [e]
  simp only
  have hc : countMatches x.rows (fun i => decide (x.rowNorm i < kthr)) (s.map fun v => decide (dthr < v))
      (t.map fun v => decide (dthr < v)) = some ((range p.n).filter (Votes kthr dthr p q s t)).card := by
    unfold countMatches
    have b1 : bdim x.rows (s.map fun v => decide (dthr < v)).length = some p.n := by
      rw [e1, List.length_map, hs]; simp [bdim]
    have b2 : bdim p.n (t.map fun v => decide (dthr < v)).length = some p.n := by
      rw [List.length_map, ht]; simp [bdim]
    rw [b1, Option.bind_some, b2, Option.map_some, Option.some.injEq, List.countP_eq_length_filter]
    rw [← List.toFinset_card_of_nodup (List.nodup_range.filter _)]
    congr 1
    ext i
    simp only [List.mem_toFinset, List.mem_filter, List.mem_range, Finset.mem_filter, Finset.mem_range,
      Bool.and_eq_true, decide_eq_true_eq, List.length_map, hs, ht, e1]
    constructor
    · rintro ⟨hi, ⟨h1, h2⟩, h3⟩
      rw [bidx_self hi] at h1 h2 h3
      rw [bidx_self hi] at h1 h2
      refine ⟨hi, ?_, ?_, ?_⟩
      · rw [← rowNorm_eq e2 e3 hi]; exact h1
      · rw [List.getElem?_map, List.getElem?_eq_getElem (by omega)] at h2
        rw [List.getElem?_eq_getElem (by omega)]
        simpa using h2
      · rw [List.getElem?_map, List.getElem?_eq_getElem (by omega)] at h3
        rw [List.getElem?_eq_getElem (by omega)]
        simpa using h3
    · rintro ⟨hi, h1, h2, h3⟩
      rw [bidx_self hi, bidx_self hi]
      refine ⟨hi, ⟨?_, ?_⟩, ?_⟩
      · rw [rowNorm_eq e2 e3 hi]; exact h1
      · rw [List.getElem?_eq_getElem (by omega)] at h2
        rw [List.getElem?_map, List.getElem?_eq_getElem (by omega)]
        simpa using h2
      · rw [List.getElem?_eq_getElem (by omega)] at h3
        rw [List.getElem?_map, List.getElem?_eq_getElem (by omega)]
        simpa using h3
  rw [hc]
  rfl

/-- **C40** The voting distance is in `(0, 1]`; it is 1 exactly if no keypoint votes. -/
theorem C40_range (kthr dthr : ℝ) {p q : Pts ℝ} {s t : List ℝ} (h : SameShape p q) (hs : s.length = p.n)
    (ht : t.length = p.n) :
    ∃ v, keypointsVoting kthr dthr p (some s) q (some t) = some (some v) ∧ 0 < v ∧ v ≤ 1 ∧
      (v = 1 ↔ ∀ i < p.n, ¬ Votes kthr dthr p q s t i) := by
  classical
  refine ⟨_, C40_votes kthr dthr h hs ht, by positivity, ?_, ?_⟩
  · rw [div_le_one (by positivity)]
    have : (0 : ℝ) ≤ (((range p.n).filter (Votes kthr dthr p q s t)).card : ℝ) := Nat.cast_nonneg _
    linarith
  · rw [div_eq_one_iff_eq (by positivity)]
    constructor
    · intro e i hi hv
      have h0 : (((range p.n).filter (Votes kthr dthr p q s t)).card : ℝ) = 0 := by linarith
      rw [Nat.cast_eq_zero, Finset.card_eq_zero, Finset.filter_eq_empty_iff] at h0
      exact h0 (mem_range.mpr hi) hv
    · intro hall
      have : (range p.n).filter (Votes kthr dthr p q s t) = ∅ := by
        rw [Finset.filter_eq_empty_iff]
        intro i hi
        exact hall i (mem_range.mp hi)
      rw [this]; simp

/-- **C40** If in one comparison every voting keypoint of another one votes, and one more, its distance is
smaller. -/
theorem C40_decreasing (kthr dthr : ℝ) {p q p' q' : Pts ℝ} {s t s' t' : List ℝ} (h : SameShape p q)
    (hs : s.length = p.n) (ht : t.length = p.n) (h' : SameShape p' q') (hs' : s'.length = p'.n)
    (ht' : t'.length = p'.n) (hn : p.n = p'.n)
    (hsub : ∀ i < p.n, Votes kthr dthr p q s t i → Votes kthr dthr p' q' s' t' i)
    {k : Nat} (hk : k < p.n) (hk1 : ¬ Votes kthr dthr p q s t k) (hk2 : Votes kthr dthr p' q' s' t' k) :
    ∃ v v', keypointsVoting kthr dthr p (some s) q (some t) = some (some v) ∧
      keypointsVoting kthr dthr p' (some s') q' (some t') = some (some v') ∧ v' < v := by
  classical
  refine ⟨_, _, C40_votes kthr dthr h hs ht, C40_votes kthr dthr h' hs' ht', ?_⟩
  have hlt : ((range p.n).filter (Votes kthr dthr p q s t)).card <
      ((range p'.n).filter (Votes kthr dthr p' q' s' t')).card := by
    apply Finset.card_lt_card
    rw [← hn, Finset.ssubset_iff_of_subset]
    · exact ⟨k, by simp [hk, hk2], by simp [hk1]⟩
    · intro i hi
      rw [Finset.mem_filter] at hi ⊢
      exact ⟨hi.1, hsub i (mem_range.mp hi.1) hi.2⟩
  apply one_div_lt_one_div_of_lt (by positivity)
  have : (((range p.n).filter (Votes kthr dthr p q s t)).card : ℝ) <
      ((range p'.n).filter (Votes kthr dthr p' q' s' t')).card := Nat.cast_lt.mpr hlt
  linarith

/-- **C40** Without scores the comparison raises. -/
theorem C40_needs_scores (kthr dthr : ℝ) (p q : Pts ℝ) (s t : Option (List ℝ)) (h : s = none ∨ t = none) :
    keypointsVoting kthr dthr p s q t = none := by
  unfold keypointsVoting
  rcases h with rfl | rfl
  · cases p.mat.sub q.mat <;> cases t <;> rfl
  · cases p.mat.sub q.mat <;> cases s <;> rfl

/-- two of three keypoints vote -/
example : Votes 1 (1/2) ⟨3, 1, [0, 5, 9]⟩ ⟨3, 1, [0, 7, 9]⟩ [1, 1, 1] [1, 1, 1] 0 ∧
    ¬ Votes 1 (1/2) ⟨3, 1, [0, 5, 9]⟩ ⟨3, 1, [0, 7, 9]⟩ [1, 1, 1] [1, 1, 1] 1 ∧
    Votes 1 (1/2) ⟨3, 1, [0, 5, 9]⟩ ⟨3, 1, [0, 7, 9]⟩ [1, 1, 1] [1, 1, 1] 2 := by
  refine ⟨⟨?_, ?_, ?_⟩, fun h => ?_, ?_, ?_, ?_⟩
  · simp [euclid, coord]
  · norm_num
  · norm_num
  · have := h.1
    simp only [euclid, coord, Finset.sum_range_one] at this
    norm_num at this
    rw [Real.sqrt_lt' (by norm_num)] at this
    norm_num at this
  · simp [euclid, coord]
  · norm_num
  · norm_num

/-! ### C41 -/

/-- the points are inside of the image -/
def InImage (height width : Nat) (p : Pts ℝ) : Prop :=
  ∀ i < p.n, (0 ≤ coord p i 0 ∧ coord p i 0 ≤ width) ∧ (0 ≤ coord p i 1 ∧ coord p i 1 ≤ height)

/-- all pairs of points are opposite corners of the image -/
def OppositeCorners (height width : Nat) (p q : Pts ℝ) : Prop :=
  ∀ i < p.n, |coord p i 0 - coord q i 0| = width ∧ |coord p i 1 - coord q i 1| = height

theorem normalized_eq {height width : Nat} {p q : Pts ℝ} (h : SameShape p q) (hd : p.dim = 2) (hn : 0 < p.n) :
    normalizedMeanEuclidean height width p q = some (some ((∑ i ∈ range p.n,
      √(((coord p i 0 - coord q i 0) / width) ^ 2 + ((coord p i 1 - coord q i 1) / height) ^ 2)) / p.n)) := by
  obtain ⟨x, e, e1, e2, e3⟩ := mat_sub_same h
  unfold normalizedMeanEuclidean
  rw [e, Option.bind_some, e2, hd]
  rw [if_neg (by omega)]
  simp only [meanOf, e1, if_neg hn.ne']
  congr 3
  refine Finset.sum_congr rfl fun i hi => ?_
  unfold Mat.rowNorm
  simp only [Finset.sum_range_succ, Finset.sum_range_zero, zero_add]
  rw [e3 i (mem_range.mp hi) 0 (by omega), e3 i (mem_range.mp hi) 1 (by omega)]
  simp

/-- **C41** (partial: the bound is `√2`, not 1, see `C41_not_bounded_by_one`) For points inside of the image
the normalized distance is between 0 and `√2`, and `√2` means opposite corners. -/
theorem C41_bound_partial {height width : Nat} (hh : 0 < height) (hw : 0 < width) {p q : Pts ℝ}
    (h : SameShape p q) (hd : p.dim = 2) (hn : 0 < p.n) (hp : InImage height width p)
    (hq : InImage height width q) :
    ∃ v, normalizedMeanEuclidean height width p q = some (some v) ∧ 0 ≤ v ∧ v ≤ √2 ∧
      (v = √2 ↔ OppositeCorners height width p q) := by
  have hn' : (0 : ℝ) < p.n := Nat.cast_pos.mpr hn
  have hh' : (0 : ℝ) < height := Nat.cast_pos.mpr hh
  have hw' : (0 : ℝ) < width := Nat.cast_pos.mpr hw
  have hx : ∀ i < p.n, ((coord p i 0 - coord q i 0) / width) ^ 2 ≤ 1 := by
    intro i hi
    have a := (hp i hi).1
    have b := (hq i (h.1 ▸ hi)).1
    rw [sq_le_one_iff_abs_le_one, abs_div, div_le_one (by positivity), abs_of_pos hw', abs_le]
    constructor <;> linarith
  have hy : ∀ i < p.n, ((coord p i 1 - coord q i 1) / height) ^ 2 ≤ 1 := by
    intro i hi
    have a := (hp i hi).2
    have b := (hq i (h.1 ▸ hi)).2
    rw [sq_le_one_iff_abs_le_one, abs_div, div_le_one (by positivity), abs_of_pos hh', abs_le]
    constructor <;> linarith
  have hle : ∀ i ∈ range p.n,
      √(((coord p i 0 - coord q i 0) / width) ^ 2 + ((coord p i 1 - coord q i 1) / height) ^ 2) ≤ √2 := by
    intro i hi
    apply Real.sqrt_le_sqrt
    have := hx i (mem_range.mp hi)
    have := hy i (mem_range.mp hi)
    linarith
  refine ⟨_, normalized_eq h hd hn, ?_, ?_, ?_⟩
  · exact div_nonneg (Finset.sum_nonneg fun _ _ => Real.sqrt_nonneg _) hn'.le
  · rw [div_le_iff₀ hn']
    have := Finset.sum_le_sum hle
    simpa [mul_comm] using this
  · rw [div_eq_iff hn'.ne']
    have hconst : √2 * (p.n : ℝ) = ∑ i ∈ range p.n, √2 := by simp [mul_comm]
    rw [hconst, Finset.sum_eq_sum_iff_of_le hle]
    have hsq : ∀ {a b : ℝ}, 0 < b → ((a / b) ^ 2 = 1 ↔ |a| = b) := by
      intro a b hb
      have e : (a / b) ^ 2 = (|a| / b) ^ 2 := by rw [div_pow, div_pow, sq_abs]
      rw [e, pow_eq_one_iff_of_nonneg (div_nonneg (abs_nonneg a) hb.le) two_ne_zero, div_eq_one_iff_eq hb.ne']
    constructor
    · intro hall i hi
      have e := hall i (mem_range.mpr hi)
      rw [Real.sqrt_inj (by positivity) (by norm_num)] at e
      have := hx i hi
      have := hy i hi
      exact ⟨(hsq hw').mp (by linarith), (hsq hh').mp (by linarith)⟩
    · intro hall i hi
      obtain ⟨e1, e2⟩ := hall i (mem_range.mp hi)
      rw [(hsq hw').mpr e1, (hsq hh').mpr e2]
      norm_num

/-- **C41** (the full statement is false) Opposite corners have distance `√2 > 1`. -/
theorem C41_not_bounded_by_one {height width : Nat} (hh : 0 < height) (hw : 0 < width) :
    ∃ p q : Pts ℝ, SameShape p q ∧ InImage height width p ∧ InImage height width q ∧
      ∃ v, normalizedMeanEuclidean height width p q = some (some v) ∧ 1 < v := by
  have hs : SameShape (⟨1, 2, [0, 0]⟩ : Pts ℝ) ⟨1, 2, [(width : ℝ), (height : ℝ)]⟩ := ⟨rfl, rfl⟩
  have hp : InImage height width (⟨1, 2, [0, 0]⟩ : Pts ℝ) := by
    intro i hi
    have : i = 0 := by simpa using hi
    subst this
    simp [coord]
  have hq : InImage height width (⟨1, 2, [(width : ℝ), (height : ℝ)]⟩ : Pts ℝ) := by
    intro i hi
    have : i = 0 := by simpa using hi
    subst this
    simp [coord]
  obtain ⟨v, e, -, -, hv⟩ := C41_bound_partial hh hw hs rfl (by simp) hp hq
  refine ⟨_, _, hs, hp, hq, v, e, ?_⟩
  have : v = √2 := by
    rw [hv]
    intro i hi
    have : i = 0 := by simpa using hi
    subst this
    simp [coord]
  rw [this]
  exact Real.one_lt_sqrt_two

end Norfair.Props
