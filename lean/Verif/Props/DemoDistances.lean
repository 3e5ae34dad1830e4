import Verif.Model.DemoDistances
import Verif.Props.PointDistances

/-!
Property theorems C115, C116 and C117: the distance functions that demos bring along.
-/

namespace Norfair.Spec

open Finset Norfair

/-- a coordinate of the centroid -/
noncomputable def middle (p : Pts ℝ) (j : Nat) : ℝ := (∑ i ∈ range p.n, coord p i j) / p.n

/-- euclidean distance of the centroids -/
noncomputable def centroidsApart (p q : Pts ℝ) : ℝ := √(∑ j ∈ range p.dim, (middle p j - middle q j) ^ 2)

/-- euclidean distance of the points `a` and `b` of `p` -/
noncomputable def within (p : Pts ℝ) (a b : Nat) : ℝ := √(∑ j ∈ range p.dim, (coord p a j - coord p b j) ^ 2)

/-- `p'` is `p` in another image: `c` times as large, and moved -/
def Resized (c : ℝ) (off : Nat → ℝ) (p p' : Pts ℝ) : Prop :=
  SameShape p p' ∧ ∀ i < p.n, ∀ j < p.dim, coord p' i j = c * coord p i j + off j

end Norfair.Spec

namespace Norfair.Props

open Finset Norfair Norfair.Spec

theorem centroidDistance_eq (kthr : ℝ) {p q : Pts ℝ} (h : SameShape p q) (hn : 0 < p.n) :
    centroidDistance kthr p q = some (some (centroidsApart p q / (kthr + centroidsApart p q))) := by
  unfold centroidDistance
  have e1 : bdim p.dim q.dim = some p.dim := by
    rw [← h.2]; simp [bdim]
  rw [e1, Option.map_some, if_neg (by omega)]
  have : √(∑ j ∈ range p.dim, ((∑ i ∈ range p.n, p.mat.val i (bidx p.dim j)) / p.n -
      (∑ i ∈ range q.n, q.mat.val i (bidx q.dim j)) / p.n) ^ 2) = centroidsApart p q := by
    unfold centroidsApart middle
    congr 1
    refine Finset.sum_congr rfl fun j hj => ?_
    rw [← h.2, bidx_self (mem_range.mp hj), ← h.1]
    rfl
  simp only [this]

/-- **C115** (partial: what is compared is not what is claimed, see `C115_false_poses`) For a label other than 0, so for
poses and for boxes of all classes but the first, the distance depends on the centroids only; it is in `[0, 1)`, grows with
the distance of the centroids, and is under the distance threshold 0.8 of the demo if and only if the centroids are less
than `4 * KEYPOINT_DIST_THRESHOLD` apart (a tenth of the height of the video). -/
theorem C115_centroids_partial {kthr : ℝ} (hk : 0 < kthr) {label : Int} (hl : label ≠ 0) {p q : Pts ℝ}
    (h : SameShape p q) (hn : 0 < p.n) (s t : Option (List ℝ)) :
    ∃ v, keypointsDistance kthr label p s q t = some (some v) ∧ 0 ≤ v ∧ v < 1 ∧
      (v < 4 / 5 ↔ centroidsApart p q < 4 * kthr) ∧
      ∀ p' q' : Pts ℝ, SameShape p' q' → 0 < p'.n → ∀ s' t' v',
        keypointsDistance kthr label p' s' q' t' = some (some v') →
        (v < v' ↔ centroidsApart p q < centroidsApart p' q') := by
  unfold keypointsDistance
  simp only [if_pos hl]
  have h0 : 0 ≤ centroidsApart p q := Real.sqrt_nonneg _
  refine ⟨_, centroidDistance_eq kthr h hn, by positivity, ?_, ?_, ?_⟩
  · rw [div_lt_one (by positivity)]
    linarith
  · rw [div_lt_iff₀ (by positivity)]
    constructor <;> intro h1 <;> linarith
  · intro p' q' h' hn' _ _ v' hv'
    rw [centroidDistance_eq kthr h' hn', Option.some.injEq, Option.some.injEq] at hv'
    subst hv'
    have h0' : 0 ≤ centroidsApart p' q' := Real.sqrt_nonneg _
    rw [div_lt_div_iff₀ (by positivity) (by positivity)]
    constructor <;> intro h1 <;> nlinarith

/-- **C115** Without any point there is no centroid: the distance is not a number, whatever the number of coordinates. -/
theorem C115_no_points (kthr : ℝ) {label : Int} (hl : label ≠ 0) {p q : Pts ℝ} (h : SameShape p q) (hn : p.n = 0)
    (hd : 0 < p.dim) (s t : Option (List ℝ)) : keypointsDistance kthr label p s q t = some none := by
  rw [keypointsDistance, if_pos hl, centroidDistance, ← h.2]
  simp [bdim, hn, hd]

example : keypointsDistance 18 (-1) ⟨0, 1, []⟩ none ⟨0, 1, []⟩ none = some none :=
  C115_no_points 18 (by decide) ⟨rfl, rfl⟩ rfl (by decide) none none

/-- **C115** (partial as above) For label 0, so for the boxes of persons, corners vote: the distance is under the distance
threshold if and only if a corner votes, which needs a score over 0.6. -/
theorem C115_persons_partial (kthr : ℝ) {p q : Pts ℝ} {s t : List ℝ} (h : SameShape p q) (hs : s.length = p.n)
    (ht : t.length = p.n) :
    ∃ v, keypointsDistance kthr 0 p (some s) q (some t) = some (some v) ∧ 0 < v ∧ v ≤ 1 ∧
      (v < 4 / 5 ↔ ∃ i < p.n, Votes kthr (3 / 5) p q s t i) := by
  obtain ⟨v, e, h1, h2, h3⟩ := C40_range kthr (3 / 5) h hs ht
  refine ⟨v, by simpa [keypointsDistance] using e, h1, h2, ?_⟩
  classical
  constructor
  · intro hv
    by_contra hc
    have := h3.mpr (by simpa using hc)
    linarith
  · rintro ⟨i, hi, hvi⟩
    rw [C40_votes kthr (3 / 5) h hs ht, Option.some.injEq, Option.some.injEq] at e
    have hpos : 1 ≤ #{j ∈ range p.n | Votes kthr (3 / 5) p q s t j} :=
      Finset.card_pos.mpr ⟨i, by simp [hi, hvi]⟩
    have hpos' : (1 : ℝ) ≤ (#{j ∈ range p.n | Votes kthr (3 / 5) p q s t j} : ℝ) := by exact_mod_cast hpos
    rw [← e, div_lt_iff₀ (by positivity)]
    linarith

/-- **C115** (the whole claim is false of poses) A pose whose two keypoints are both 1000 pixels away from those of the
estimate, but with the same centroid: the distance is 0. -/
theorem C115_false_poses : ∃ p q : Pts ℝ, SameShape p q ∧ (∀ i < p.n, euclid p q i = 1000) ∧
    keypointsDistance 18 (-1) p (some [1, 1]) q (some [1, 1]) = some (some 0) := by
  have h : SameShape (⟨2, 2, [0, 0, 1000, 0]⟩ : Pts ℝ) ⟨2, 2, [1000, 0, 0, 0]⟩ := ⟨rfl, rfl⟩
  refine ⟨⟨2, 2, [0, 0, 1000, 0]⟩, ⟨2, 2, [1000, 0, 0, 0]⟩, h, ?_, ?_⟩
  · intro i hi
    have : i = 0 ∨ i = 1 := by
      simp only at hi
      omega
    have h3 : √((1000 : ℝ) ^ 2) = 1000 := Real.sqrt_sq (by norm_num)
    rcases this with rfl | rfl
    · simp [euclid, coord, Finset.sum_range_succ, h3]
    · simp [euclid, coord, Finset.sum_range_succ, h3]
  · have : keypointsDistance 18 (-1) (⟨2, 2, [0, 0, 1000, 0]⟩ : Pts ℝ) (some [1, 1]) ⟨2, 2, [1000, 0, 0, 0]⟩ (some [1, 1]) =
        some (some (centroidsApart (⟨2, 2, [0, 0, 1000, 0]⟩ : Pts ℝ) ⟨2, 2, [1000, 0, 0, 0]⟩ /
          (18 + centroidsApart (⟨2, 2, [0, 0, 1000, 0]⟩ : Pts ℝ) ⟨2, 2, [1000, 0, 0, 0]⟩))) := by
      unfold keypointsDistance
      rw [if_pos (by decide)]
      exact centroidDistance_eq 18 h (by decide)
    rw [this]
    have e : centroidsApart (⟨2, 2, [0, 0, 1000, 0]⟩ : Pts ℝ) ⟨2, 2, [1000, 0, 0, 0]⟩ = 0 := by
      simp [centroidsApart, middle, coord, Finset.sum_range_succ]
    rw [e]
    simp

/-- **C115** (the whole claim is false of boxes) The box of a person with a score of at most 0.6 (the detector gives
scores from 0.25 on) at the very same place has distance 1: it is never matched. -/
theorem C115_false_boxes {kthr : ℝ} {p q : Pts ℝ} {s t : List ℝ} (h : SameShape p q) (hs : s.length = p.n)
    (ht : t.length = p.n) (hlow : ∀ x ∈ s, x ≤ 3 / 5) :
    keypointsDistance kthr 0 p (some s) q (some t) = some (some 1) := by
  obtain ⟨v, e, h1, h2, h3⟩ := C40_range kthr (3 / 5) h hs ht
  have : v = 1 := h3.mpr fun i hi hv => by
    have := hv.2.1
    rw [List.getElem?_eq_getElem (by omega), Option.getD_some] at this
    linarith [hlow _ (List.getElem_mem (l := s) (n := i) (by omega))]
  subst this
  simpa [keypointsDistance] using e

/-- the hypotheses of `C115_centroids_partial` and `C115_persons_partial`: boxes with two corners; and of
`C115_false_boxes` -/
example : (∃ v, keypointsDistance 18 2 (⟨2, 2, [0, 0, 10, 10]⟩ : Pts ℝ) none ⟨2, 2, [0, 0, 20, 10]⟩ none = some (some v) ∧
      v < 1) ∧
    (∃ v, keypointsDistance 18 0 (⟨2, 2, [0, 0, 10, 10]⟩ : Pts ℝ) (some [9 / 10, 9 / 10]) ⟨2, 2, [0, 0, 20, 10]⟩
      (some [9 / 10, 9 / 10]) = some (some v) ∧ v < 4 / 5) ∧
    keypointsDistance 18 0 (⟨2, 2, [0, 0, 10, 10]⟩ : Pts ℝ) (some [1 / 2, 1 / 2]) ⟨2, 2, [0, 0, 10, 10]⟩
      (some [1 / 2, 1 / 2]) = some (some 1) := by
  refine ⟨?_, ?_, C115_false_boxes ⟨rfl, rfl⟩ rfl rfl (by norm_num)⟩
  · obtain ⟨v, h1, _, h2, _⟩ := C115_centroids_partial (kthr := 18) (by norm_num) (label := 2) (by decide)
      (p := ⟨2, 2, [0, 0, 10, 10]⟩) (q := ⟨2, 2, [0, 0, 20, 10]⟩) ⟨rfl, rfl⟩ (by decide) none none
    exact ⟨v, h1, h2⟩
  · obtain ⟨v, h1, _, _, h2⟩ := C115_persons_partial 18 (p := ⟨2, 2, [0, 0, 10, 10]⟩) (q := ⟨2, 2, [0, 0, 20, 10]⟩)
      (s := [9 / 10, 9 / 10]) (t := [9 / 10, 9 / 10]) ⟨rfl, rfl⟩ rfl rfl
    refine ⟨v, h1, h2.mpr ⟨0, by decide, ?_, ?_, ?_⟩⟩
    · simp [euclid, coord, Finset.sum_range_succ]
    · norm_num
    · norm_num

/-! ### C116 -/

theorem rescaledVote_eq {p q : Pts ℝ} (hq : 16 ≤ q.n) (s t : Option (List ℝ)) :
    rescaledVote p s q t = keypointsVoting (1 / 3 * within q 11 15) (1 / 100) p s q t := by
  unfold rescaledVote
  rw [if_neg (by omega)]
  rfl

/-- **C116** (partial: points 11 and 15 of the estimate must be apart, see `C116_blind`) A detection is under the distance
threshold 1/5 of the demo if and only if at least five of its points vote: they are nearer to the estimate than a third of
the left leg is long, and were found in both detections. -/
theorem C116_five_votes_partial {p q : Pts ℝ} {s t : List ℝ} (h : SameShape p q) (hn : 16 ≤ p.n) (hs : s.length = p.n)
    (ht : t.length = p.n) :
    ∃ v, rescaledVote p (some s) q (some t) = some (some v) ∧
      (v < 1 / 5 ↔ ∃ S : Finset Nat, S.card = 5 ∧
        ∀ i ∈ S, i < p.n ∧ 3 * euclid p q i < within q 11 15 ∧ 1 / 100 < (s[i]?).getD 0 ∧ 1 / 100 < (t[i]?).getD 0) := by
  classical
  rw [rescaledVote_eq (by rw [← h.1]; exact hn), C40_votes _ _ h hs ht]
  refine ⟨_, rfl, ?_⟩
  have hv : ∀ i < p.n, (Votes (1 / 3 * within q 11 15) (1 / 100) p q s t i ↔
      3 * euclid p q i < within q 11 15 ∧ 1 / 100 < (s[i]?).getD 0 ∧ 1 / 100 < (t[i]?).getD 0) := by
    intro i hi
    unfold Votes
    rw [List.getElem?_eq_getElem (show i < s.length by omega), List.getElem?_eq_getElem (show i < t.length by omega)]
    simp only [Option.getD_some]
    constructor
    · rintro ⟨a, b, c⟩
      exact ⟨by linarith, b, c⟩
    · rintro ⟨a, b, c⟩
      exact ⟨by linarith, b, c⟩
  rw [div_lt_div_iff₀ (by positivity) (by norm_num)]
  constructor
  · intro h5
    have h5' : 5 ≤ #{j ∈ range p.n | Votes (1 / 3 * within q 11 15) (1 / 100) p q s t j} := by
      have : (4 : ℝ) < (#{j ∈ range p.n | Votes (1 / 3 * within q 11 15) (1 / 100) p q s t j} : ℝ) := by linarith
      have := Nat.cast_lt (α := ℝ) (m := 4) |>.mp (by exact_mod_cast this)
      omega
    obtain ⟨S, hS, hc⟩ := Finset.exists_subset_card_eq h5'
    refine ⟨S, hc, fun i hi => ?_⟩
    have := hS hi
    simp only [Finset.mem_filter, Finset.mem_range] at this
    exact ⟨this.1, (hv i this.1).mp this.2⟩
  · rintro ⟨S, hc, hS⟩
    have : S ⊆ {j ∈ range p.n | Votes (1 / 3 * within q 11 15) (1 / 100) p q s t j} := by
      intro i hi
      obtain ⟨a, b⟩ := hS i hi
      simp only [Finset.mem_filter, Finset.mem_range]
      exact ⟨a, (hv i a).mpr b⟩
    have := Finset.card_le_card this
    rw [hc] at this
    have : (5 : ℝ) ≤ (#{j ∈ range p.n | Votes (1 / 3 * within q 11 15) (1 / 100) p q s t j} : ℝ) := by exact_mod_cast this
    linarith

/-- **C116** (partial as above) So a detection at the place of the estimate with at least five points found in both
detections is matched. -/
theorem C116_same_place_partial {p q : Pts ℝ} {s t : List ℝ} (h : SameShape p q) (hn : 16 ≤ p.n) (hs : s.length = p.n)
    (ht : t.length = p.n) (hleg : within q 11 15 ≠ 0) (hsame : ∀ i < p.n, ∀ j < p.dim, coord p i j = coord q i j)
    {S : Finset Nat} (hS : S.card = 5) (hfound : ∀ i ∈ S, i < p.n ∧ 1 / 100 < (s[i]?).getD 0 ∧ 1 / 100 < (t[i]?).getD 0) :
    ∃ v, rescaledVote p (some s) q (some t) = some (some v) ∧ v < 1 / 5 := by
  obtain ⟨v, e, hv⟩ := C116_five_votes_partial h hn hs ht
  refine ⟨v, e, hv.mpr ⟨S, hS, fun i hi => ?_⟩⟩
  obtain ⟨a, b⟩ := hfound i hi
  refine ⟨a, ?_, b⟩
  have h0 : euclid p q i = 0 := by
    unfold euclid
    rw [Finset.sum_eq_zero fun j hj => ?_, Real.sqrt_zero]
    rw [hsame i a j (mem_range.mp hj)]
    simp
  rw [h0]
  have : 0 ≤ within q 11 15 := Real.sqrt_nonneg _
  simpa using lt_of_le_of_ne this (Ne.symm hleg)

/-- **C116** The distance is the same in a video of another size: if detection and estimate are enlarged by the same factor
and moved, nothing changes. -/
theorem C116_any_size {c : ℝ} (hc : 0 < c) (off : Nat → ℝ) {p q p' q' : Pts ℝ} {s t : List ℝ} (h : SameShape p q)
    (hn : 16 ≤ p.n) (hs : s.length = p.n) (ht : t.length = p.n) (hp : Resized c off p p') (hq : Resized c off q q') :
    rescaledVote p' (some s) q' (some t) = rescaledVote p (some s) q (some t) := by
  classical
  have hnq : 16 ≤ q.n := by rw [← h.1]; exact hn
  have h' : SameShape p' q' := ⟨by rw [← hp.1.1, h.1, hq.1.1], by rw [← hp.1.2, h.2, hq.1.2]⟩
  rw [rescaledVote_eq hnq, rescaledVote_eq (by rw [← hq.1.1]; exact hnq), C40_votes _ _ h hs ht,
    C40_votes _ _ h' (by rw [hs, hp.1.1]) (by rw [ht, hp.1.1]), ← hp.1.1]
  have hw : within q' 11 15 = c * within q 11 15 := by
    unfold within
    rw [← Real.sqrt_sq hc.le, ← Real.sqrt_mul (sq_nonneg c), ← hq.1.2, Finset.mul_sum]
    congr 1
    refine Finset.sum_congr rfl fun j hj => ?_
    rw [hq.2 11 (by omega) j (mem_range.mp hj), hq.2 15 (by omega) j (mem_range.mp hj)]
    ring
  have he : ∀ i < p.n, euclid p' q' i = c * euclid p q i := by
    intro i hi
    unfold euclid
    rw [← Real.sqrt_sq hc.le, ← Real.sqrt_mul (sq_nonneg c), ← hp.1.2, Finset.mul_sum]
    congr 1
    refine Finset.sum_congr rfl fun j hj => ?_
    rw [hp.2 i hi j (mem_range.mp hj), hq.2 i (by rw [← h.1]; exact hi) j (by rw [← h.2]; exact mem_range.mp hj)]
    ring
  have : (range p.n).filter (Votes (1 / 3 * within q' 11 15) (1 / 100) p' q' s t) =
      (range p.n).filter (Votes (1 / 3 * within q 11 15) (1 / 100) p q s t) := by
    refine Finset.filter_congr fun i hi => ?_
    unfold Votes
    rw [he i (mem_range.mp hi), hw, show 1 / 3 * (c * within q 11 15) = c * (1 / 3 * within q 11 15) by ring,
      mul_lt_mul_iff_right₀ hc]
  congr 7

/-- **C116** (the whole claim is false) If the points 11 and 15 of the estimate coincide, the distance of every detection is
1, also of one at the very same place with all points found. `postprocess` puts points that were not found at `(0, 0)`, so
this is so for an object that was created while the left leg was hidden. -/
theorem C116_blind {p q : Pts ℝ} {s t : List ℝ} (h : SameShape p q) (hn : 16 ≤ p.n) (hs : s.length = p.n)
    (ht : t.length = p.n) (hleg : ∀ j < q.dim, coord q 11 j = coord q 15 j) :
    rescaledVote p (some s) q (some t) = some (some 1) := by
  have h0 : within q 11 15 = 0 := by
    unfold within
    rw [Finset.sum_eq_zero fun j hj => ?_, Real.sqrt_zero]
    rw [hleg j (mem_range.mp hj)]
    simp
  rw [rescaledVote_eq (by rw [← h.1]; exact hn)]
  obtain ⟨v, e, _, _, h3⟩ := C40_range (1 / 3 * within q 11 15) (1 / 100) h hs ht
  have : v = 1 := h3.mpr fun i _ hv => by
    have h1 := hv.1
    rw [h0] at h1
    have := euclid_nonneg p q i
    linarith
  rw [e, this]

/-- a pose of 18 points on a line, one pixel apart, in a video that is `c` times as large -/
noncomputable def linePose (c : ℝ) : Pts ℝ := ⟨18, 1, (List.range 18).map fun i : Nat => c * (i : ℝ)⟩

theorem linePose_coord (c : ℝ) {i j : Nat} (hi : i < 18) (hj : j < 1) : coord (linePose c) i j = c * i := by
  unfold coord linePose
  simp only [Nat.mul_one]
  rw [show i + j = i by omega, List.getElem?_map, List.getElem?_range hi]
  rfl

theorem linePose_leg {c : ℝ} (hc : 0 < c) : within (linePose c) 11 15 = 4 * c := by
  unfold within
  have : (linePose c).dim = 1 := rfl
  rw [this, Finset.sum_range_one, linePose_coord c (by decide) (by decide), linePose_coord c (by decide) (by decide)]
  rw [show (c * ((11 : Nat) : ℝ) - c * ((15 : Nat) : ℝ)) ^ 2 = (4 * c) ^ 2 by push_cast; ring]
  exact Real.sqrt_sq (by linarith)

/-- the hypotheses of `C116_five_votes_partial` and `C116_same_place_partial` -/
example : ∃ v, rescaledVote (linePose 1) (some (List.replicate 18 1)) (linePose 1) (some (List.replicate 18 1)) =
    some (some v) ∧ v < 1 / 5 := by
  refine C116_same_place_partial ⟨rfl, rfl⟩ (by decide) (by simp [linePose]) (by simp [linePose]) ?_ (fun _ _ _ _ => rfl)
    (S := Finset.range 5) (by simp) ?_
  · rw [linePose_leg one_pos]
    norm_num
  · intro i hi
    have hi5 : i < 5 := Finset.mem_range.mp hi
    refine ⟨show i < 18 by omega, ?_, ?_⟩ <;>
    · rw [List.getElem?_replicate_of_lt (by omega)]
      norm_num

/-- the hypotheses of `C116_any_size`: a video three times as large -/
example : rescaledVote (linePose 3) (some (List.replicate 18 1)) (linePose 3) (some (List.replicate 18 1)) =
    rescaledVote (linePose 1) (some (List.replicate 18 1)) (linePose 1) (some (List.replicate 18 1)) := by
  have h : Resized 3 (fun _ => 0) (linePose 1) (linePose 3) := ⟨⟨rfl, rfl⟩, fun i hi j hj => by
    rw [linePose_coord _ hi hj, linePose_coord _ hi hj]
    ring⟩
  exact C116_any_size (by norm_num) (fun _ => 0) ⟨rfl, rfl⟩ (by decide) (by simp [linePose]) (by simp [linePose]) h h

/-- the hypotheses of `C116_blind`: nothing but points at `(0, 0)` in the left leg -/
example : rescaledVote ⟨18, 2, (List.replicate 22 7 ++ List.replicate 14 0)⟩ (some (List.replicate 18 1))
    ⟨18, 2, (List.replicate 22 7 ++ List.replicate 14 0)⟩ (some (List.replicate 18 1)) = some (some 1) := by
  refine C116_blind ⟨rfl, rfl⟩ (by decide) (by simp) (by simp) fun j hj => ?_
  have : j = 0 ∨ j = 1 := by
    have : j < 2 := hj
    omega
  rcases this with rfl | rfl <;> simp [coord, List.replicate]

/-! ### C117 -/

/-- **C117** (partial: the bound is larger than that of the distance of the library, C41) With the distance of the
profiling demo, points in the image have a distance of at most `√((width / height)² + (height / width)²)`. -/
theorem C117_bound_partial {width height : Nat} (hw : 0 < width) (hh : 0 < height) {p q : Pts ℝ} (h : SameShape p q)
    (hd : p.dim = 2) (hn : 0 < p.n) (hp : InImage height width p) (hq : InImage height width q) :
    ∃ v, profilingEuclidean width height p q = some (some v) ∧ 0 ≤ v ∧
      v ≤ √(((width : ℝ) / height) ^ 2 + ((height : ℝ) / width) ^ 2) := by
  have hn' : (0 : ℝ) < p.n := Nat.cast_pos.mpr hn
  have hw' : (0 : ℝ) < width := Nat.cast_pos.mpr hw
  have hh' : (0 : ℝ) < height := Nat.cast_pos.mpr hh
  refine ⟨_, normalized_eq h hd hn, by positivity, ?_⟩
  rw [div_le_iff₀ hn']
  calc ∑ i ∈ range p.n, √(((coord p i 0 - coord q i 0) / height) ^ 2 + ((coord p i 1 - coord q i 1) / width) ^ 2)
      ≤ ∑ _i ∈ range p.n, √(((width : ℝ) / height) ^ 2 + ((height : ℝ) / width) ^ 2) := by
        refine Finset.sum_le_sum fun i hi => Real.sqrt_le_sqrt ?_
        obtain ⟨⟨a1, a2⟩, a3, a4⟩ := hp i (mem_range.mp hi)
        obtain ⟨⟨b1, b2⟩, b3, b4⟩ := hq i (by rw [← h.1]; exact mem_range.mp hi)
        refine add_le_add ?_ ?_
        · rw [div_pow, div_pow]
          refine div_le_div_of_nonneg_right ?_ (by positivity)
          exact sq_le_sq' (by linarith) (by linarith)
        · rw [div_pow, div_pow]
          refine div_le_div_of_nonneg_right ?_ (by positivity)
          exact sq_le_sq' (by linarith) (by linarith)
    _ = _ := by rw [Finset.sum_const, card_range, nsmul_eq_mul, mul_comm]

/-- **C117** (the whole claim is false) In every video that is not square there are points in the image with a distance
over `√2`, the bound of the normalized distance: width and height are passed in the wrong order. -/
theorem C117_false {width height : Nat} (hw : 0 < width) (hh : 0 < height) (hne : width ≠ height) :
    ∃ p q : Pts ℝ, SameShape p q ∧ InImage height width p ∧ InImage height width q ∧
      ∃ v, profilingEuclidean width height p q = some (some v) ∧ √2 < v := by
  have hw' : (0 : ℝ) < width := Nat.cast_pos.mpr hw
  have hh' : (0 : ℝ) < height := Nat.cast_pos.mpr hh
  have hs : SameShape (⟨1, 2, [0, 0]⟩ : Pts ℝ) ⟨1, 2, [(width : ℝ), (height : ℝ)]⟩ := ⟨rfl, rfl⟩
  refine ⟨_, _, hs, ?_, ?_, _, normalized_eq hs rfl (by decide), ?_⟩
  · intro i hi
    have : i = 0 := by simpa using hi
    subst this
    simp [coord]
  · intro i hi
    have : i = 0 := by simpa using hi
    subst this
    simp [coord]
  · simp only [Finset.sum_range_one, coord]
    simp only [Nat.cast_one, div_one]
    refine Real.sqrt_lt_sqrt (by norm_num) ?_
    have hne' : (width : ℝ) ≠ height := fun e => hne (by exact_mod_cast e)
    have h1 : (width : ℝ) / height ≠ 1 := by
      intro e
      exact hne' ((div_eq_one_iff_eq hh'.ne').mp e)
    have e : (height : ℝ) / width = ((width : ℝ) / height)⁻¹ := by rw [inv_div]
    simp only [Nat.zero_mul, Nat.zero_add, List.getElem?_cons_zero, List.getElem?_cons_succ, Option.getD_some, zero_sub,
      neg_div, even_two, Even.neg_pow]
    rw [e]
    have hx : 0 < (width : ℝ) / height := by positivity
    generalize (width : ℝ) / height = x at h1 hx ⊢
    have hxi : x * x⁻¹ = 1 := mul_inv_cancel₀ hx.ne'
    have hd : x - x⁻¹ ≠ 0 := by
      intro e0
      have e1 : x * x = 1 := by
        rw [← hxi]
        congr 1
        linarith
      exact h1 (by nlinarith)
    have : 0 < (x - x⁻¹) ^ 2 := by positivity
    nlinarith

/-- the hypotheses of `C117_bound_partial` and `C117_false` -/
example : (∃ v, profilingEuclidean 1920 1080 (⟨1, 2, [0, 0]⟩ : Pts ℝ) ⟨1, 2, [10, 20]⟩ = some (some v) ∧ 0 ≤ v) ∧
    ∃ p q : Pts ℝ, InImage 1080 1920 p ∧ InImage 1080 1920 q ∧
      ∃ v, profilingEuclidean 1920 1080 p q = some (some v) ∧ √2 < v := by
  constructor
  · obtain ⟨v, h1, h2, _⟩ := C117_bound_partial (width := 1920) (height := 1080) (by decide) (by decide)
      (p := ⟨1, 2, [0, 0]⟩) (q := ⟨1, 2, [10, 20]⟩) ⟨rfl, rfl⟩ rfl (by decide)
      (by
        intro i hi
        have : i = 0 := by simpa using hi
        subst this
        simp [coord])
      (by
        intro i hi
        have : i = 0 := by simpa using hi
        subst this
        norm_num [coord])
    exact ⟨v, h1, h2⟩
  · obtain ⟨p, q, _, h2, h3, h4⟩ := C117_false (width := 1920) (height := 1080) (by decide) (by decide) (by decide)
    exact ⟨p, q, h2, h3, h4⟩

end Norfair.Props
