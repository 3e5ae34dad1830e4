import Verif.Model.CameraMotion
import Verif.Spec.Points
import Mathlib.Tactic.FieldSimp
import Mathlib.Tactic.Ring
import Mathlib.Tactic.Linarith
import Mathlib.Data.Rat.Floor
import Mathlib.LinearAlgebra.Matrix.Determinant.Basic
import Mathlib.LinearAlgebra.Matrix.Notation

/-!
Property theorems C44-C48: camera motion.
-/

set_option linter.unusedSectionVars false

namespace Norfair.Props

open Norfair Norfair.Spec Matrix

variable {K : Type}

/-! ### C44: translations -/

/-- **C44** Relative to absolute and back, and the other way round, gives the points back, for every
movement vector and all points. -/
theorem C44_round_trip [AddGroup K] (v : List K) (p : Pts K) :
    (translation v).absToRel ((translation v).relToAbs p) = p ∧
    (translation v).relToAbs ((translation v).absToRel p) = p := by
  constructor <;>
  · simp only [translation]
    congr 1
    apply List.ext_getElem?
    intro k
    simp only [List.getElem?_mapIdx, Option.map_map]
    cases p.data[k]? <;> simp

/-- **C44** Every coordinate is moved by the entry of the movement vector that belongs to it: coordinate
`j` of point `i` by entry `j`. -/
theorem C44_moves [AddGroup K] {v : List K} {p : Pts K} (hv : v.length = p.dim) {i j : Nat}
    (hj : j < p.dim) {x : K} (hx : p.data[i * p.dim + j]? = some x) :
    ∃ y, v[j]? = some y ∧ ((translation v).absToRel p).data[i * p.dim + j]? = some (x + y) ∧
      ((translation v).relToAbs p).data[i * p.dim + j]? = some (x - y) := by
  have hjv : j < v.length := by omega
  refine ⟨v[j], List.getElem?_eq_getElem hjv, ?_, ?_⟩ <;>
  · simp only [translation, List.getElem?_mapIdx, hx, Option.map_some]
    rw [Nat.add_comm, Nat.add_mul_mod_self_right, Nat.mod_eq_of_lt hj]
    simp [hjv]

/-- **C44** Translations add up. -/
theorem C44_accumulate [AddCommGroup K] {u v : List K} {p : Pts K} (hu : u.length = p.dim)
    (hv : v.length = p.dim) (hp : 0 < p.dim) :
    (translation u).absToRel ((translation v).absToRel p) =
      (translation (List.zipWith (· + ·) u v)).absToRel p := by
  simp only [translation]
  congr 1
  apply List.ext_getElem?
  intro k
  have hk : k % p.dim < p.dim := Nat.mod_lt _ hp
  simp only [List.getElem?_mapIdx, Option.map_map, List.getD_eq_getElem?_getD, List.getElem?_zipWith]
  rw [List.getElem?_eq_getElem (show k % p.dim < u.length by omega),
    List.getElem?_eq_getElem (show k % p.dim < v.length by omega)]
  cases p.data[k]? with
  | none => rfl
  | some x => simp [add_comm, add_left_comm]

/-- **C44** ... and do not change the number of points, so that they can be given to the tracker. -/
theorem C44_keeps_shape {L : Type} [AddGroup K] (shape : L → Nat × Nat) (v : List K) :
    KeepsShape shape (translation v) := by
  intro _ p _ _ _
  simp [translation]

example : (translation [1, -2]).absToRel ⟨2, 2, [5, 5, 6, (7 : Int)]⟩ = ⟨2, 2, [6, 3, 7, 5]⟩ := by
  decide +kernel

/-! ### C45: homographies -/

section
variable [Field K] [DecidableEq K]

/-- the point goes to infinity -/
def ToInfinity (M : Matrix (Fin 3) (Fin 3) K) (p : K × K) : Prop :=
  M 2 0 * p.1 + M 2 1 * p.2 + M 2 2 = 0

theorem mulVec_two (M : Matrix (Fin 3) (Fin 3) K) (p : K × K) :
    (M *ᵥ ![p.1, p.2, 1]) 2 = M 2 0 * p.1 + M 2 1 * p.2 + M 2 2 := by
  simp [Matrix.mulVec, dotProduct, Fin.sum_univ_three]

/-- the homogeneous coordinates of the image of a point that does not go to infinity -/
theorem projective_hom {M : Matrix (Fin 3) (Fin 3) K} {p : K × K} (h : ¬ ToInfinity M p) :
    ![(projective M p).1, (projective M p).2, 1] =
      ((M *ᵥ ![p.1, p.2, 1]) 2)⁻¹ • (M *ᵥ ![p.1, p.2, 1]) := by
  have h2 : (M *ᵥ ![p.1, p.2, 1]) 2 ≠ 0 := by rw [mulVec_two]; exact h
  ext i
  fin_cases i
  · simp [projective, h2, div_eq_inv_mul]
  · simp [projective, h2, div_eq_inv_mul]
  · simp only [Pi.smul_apply, smul_eq_mul]
    rw [show ((⟨2, by omega⟩ : Fin 3)) = 2 from rfl, inv_mul_cancel₀ h2]
    rfl

/-- the image of a point is found from any multiple of its homogeneous coordinates -/
theorem projective_of_hom {M : Matrix (Fin 3) (Fin 3) K} {p q : K × K} {c : K} (hc : c ≠ 0)
    (h : M *ᵥ ![p.1, p.2, 1] = c • ![q.1, q.2, 1]) : projective M p = q := by
  have h2 : (M *ᵥ ![p.1, p.2, 1]) 2 = c := by rw [h]; simp
  have h0 : (M *ᵥ ![p.1, p.2, 1]) 0 = c * q.1 := by rw [h]; simp
  have h1 : (M *ᵥ ![p.1, p.2, 1]) 1 = c * q.2 := by rw [h]; simp
  simp only [projective, h2, h0, h1, if_neg hc]
  rw [mul_div_cancel_left₀ _ hc, mul_div_cancel_left₀ _ hc]

/-- **C45** (one point) an invertible homography followed by its inverse gives the point back, unless
the point goes to infinity -/
theorem C45_point {M : Matrix (Fin 3) (Fin 3) K} (hM : M.det ≠ 0) {p : K × K}
    (h : ¬ ToInfinity M p) : projective M⁻¹ (projective M p) = p := by
  have h2 : (M *ᵥ ![p.1, p.2, 1]) 2 ≠ 0 := by rw [mulVec_two]; exact h
  refine projective_of_hom (inv_ne_zero h2) ?_
  rw [projective_hom h, mulVec_smul, mulVec_mulVec, nonsing_inv_mul _ (isUnit_iff_ne_zero.mpr hM),
    one_mulVec]

theorem pairs_unpairs (l : List (K × K)) : pairs (unpairs l) = l := by
  induction l with
  | nil => rfl
  | cons a l ih => obtain ⟨x, y⟩ := a; simp [unpairs, pairs, ih]

theorem unpairs_pairs : ∀ l : List K, l.length % 2 = 0 → unpairs (pairs l) = l
  | [], _ => rfl
  | [_], h => by simp at h
  | x :: y :: l, h => by
    simp only [pairs, unpairs]
    rw [unpairs_pairs l (by simp only [List.length_cons] at h; omega)]

theorem unpairs_length (l : List (K × K)) : (unpairs l).length = 2 * l.length := by
  induction l with
  | nil => rfl
  | cons a l ih => obtain ⟨x, y⟩ := a; simp [unpairs, ih]; omega

theorem pairs_length : ∀ l : List K, (pairs l).length = l.length / 2
  | [] => by simp [pairs]
  | [_] => by simp [pairs]
  | x :: y :: l => by
    simp only [pairs, List.length_cons, pairs_length l]; omega

/-- point `i` of an array of points in the plane -/
theorem pairs_get : ∀ (l : List K) (i : Nat) (x y : K), l[2 * i]? = some x → l[2 * i + 1]? = some y →
    (pairs l)[i]? = some (x, y)
  | [], _, _, _, h, _ => by simp at h
  | [_], i, _, _, _, h => by simp at h
  | a :: b :: l, 0, x, y, h1, h2 => by simp at h1 h2; simp [pairs, h1, h2]
  | a :: b :: l, i + 1, x, y, h1, h2 => by
    rw [show 2 * (i + 1) = 2 * i + 1 + 1 by ring] at h1
    rw [show 2 * (i + 1) + 1 = 2 * i + 1 + 1 + 1 by ring] at h2
    simp only [List.getElem?_cons_succ] at h1 h2
    simp only [pairs, List.getElem?_cons_succ]
    exact pairs_get l i x y h1 h2

/-- **C45** A homography can be created exactly if its matrix is invertible; then both functions are
inverse to each other on points that do not go to infinity. -/
theorem C45_round_trip (M : Matrix (Fin 3) (Fin 3) K) :
    (homography M = none ↔ M.det = 0) ∧
    ∀ t, homography M = some t → ∀ p : Pts K, p.data.length % 2 = 0 →
      ((∀ q ∈ pairs p.data, ¬ ToInfinity M q) → t.relToAbs (t.absToRel p) = p) ∧
      ((∀ q ∈ pairs p.data, ¬ ToInfinity M⁻¹ q) → t.absToRel (t.relToAbs p) = p) := by
  constructor
  · unfold homography; split <;> simp_all
  · intro t ht p hp
    unfold homography at ht
    split at ht
    · cases ht
    rename_i hM
    cases ht
    have hM' : (M⁻¹).det ≠ 0 := by
      rw [det_nonsing_inv]
      simpa using hM
    constructor
    · intro h
      simp only [pairs_unpairs, List.map_map]
      congr 1
      rw [List.map_congr_left (g := id), List.map_id, unpairs_pairs _ hp]
      intro q hq
      exact C45_point hM (h q hq)
    · intro h
      simp only [pairs_unpairs, List.map_map]
      congr 1
      rw [List.map_congr_left (g := id), List.map_id, unpairs_pairs _ hp]
      intro q hq
      have := C45_point hM' (h q hq)
      rwa [nonsing_inv_nonsing_inv _ (isUnit_iff_ne_zero.mpr hM)] at this

/-- **C45** ... and it keeps the number of points in the plane. -/
theorem C45_keeps_shape {L : Type} {M : Matrix (Fin 3) (Fin 3) K} {t : CoordTrans K} (ht : homography M = some t)
    {shape : L → Nat × Nat} (hs : ∀ a, (shape a).2 = 2) : KeepsShape shape t := by
  unfold homography at ht
  split at ht
  · cases ht
  cases ht
  intro a p _ hd hl
  refine ⟨rfl, rfl, ?_⟩
  simp only [unpairs_length, List.length_map, pairs_length]
  rw [hl, hd, hs]
  omega

end

/-- a point that goes to infinity -/
def swapM : Matrix (Fin 3) (Fin 3) ℚ := !![0, 0, 1; 0, 1, 0; 1, 0, 0]

theorem swapM_sq : swapM * swapM = 1 := by decide +kernel

theorem swapM_det : swapM.det ≠ 0 := by
  intro h
  have := congrArg Matrix.det swapM_sq
  rw [det_mul, h] at this
  simp at this

/-- the exception in C45 is needed: points that go to infinity do not come back (because of the
replacement of 0 by 0.0000001) -/
theorem C45_infinity : swapM.det ≠ 0 ∧ ToInfinity swapM (0, 3) ∧
    projective swapM⁻¹ (projective swapM (0, 3)) ≠ (0, 3) := by
  refine ⟨swapM_det, by unfold ToInfinity; decide +kernel, ?_⟩
  rw [inv_eq_left_inv swapM_sq]
  decide +kernel

/-- C45 is about such points -/
example : projective swapM⁻¹ (projective swapM (2, 3)) = (2, 3) ∧
    projective swapM (2, 3) = (1 / 2, 3 / 2) :=
  ⟨C45_point swapM_det (by unfold ToInfinity; decide +kernel), by decide +kernel⟩

/-! ### C46: the most frequent flow -/

section
variable [Field K] [LinearOrder K] [IsStrictOrderedRing K] [FloorRing K]

/-- `around x` is the nearest integer, the even one if there are two -/
theorem C46_around (x : K) : |x - (around x : K)| ≤ 1 / 2 ∧
    (|x - (around x : K)| = 1 / 2 → around x % 2 = 0) := by
  have hf : x - (⌊x⌋ : K) = Int.fract x := rfl
  have h0 := Int.fract_nonneg x
  have h1 := Int.fract_lt_one x
  unfold around
  simp only
  split
  · rename_i h
    rw [hf, abs_of_nonneg h0]
    exact ⟨h.le, fun e => absurd e h.ne⟩
  · rename_i h
    split
    · rename_i h'
      push_cast
      rw [show x - ((⌊x⌋ : K) + 1) = Int.fract x - 1 by rw [← hf]; ring, abs_of_nonpos (by linarith)]
      exact ⟨by linarith, fun e => absurd e (by linarith)⟩
    · rename_i h'
      have he : Int.fract x = 1 / 2 := le_antisymm (not_lt.mp h') (not_lt.mp h)
      split
      · rename_i h2
        rw [hf, he, abs_of_nonneg (by norm_num)]
        exact ⟨le_refl _, fun _ => h2⟩
      · rename_i h2
        push_cast
        rw [show x - ((⌊x⌋ : K) + 1) = Int.fract x - 1 by rw [← hf]; ring, he]
        refine ⟨by norm_num [abs_of_nonpos], fun _ => by omega⟩

/-- the movements of the points, each coordinate rounded to a multiple of the bin size -/
def flows (b : K) (curr prev : List (K × K)) : List (K × K) :=
  (curr.zip prev).map fun p =>
    ((around ((p.1.1 - p.2.1) / b) : K) * b, (around ((p.1.2 - p.2.2) / b) : K) * b)

theorem firstMax_some {α : Type} : ∀ (l : List (α × Nat)) (a : α) (n : Nat), firstMax l = some (a, n) →
    ∃ l1 l2, l = l1 ++ (a, n) :: l2 ∧ (∀ x ∈ l1, x.2 < n) ∧ ∀ x ∈ l2, x.2 ≤ n := by
  intro l
  induction l with
  | nil => intro a n h; cases h
  | cons p l ih =>
    obtain ⟨b, m⟩ := p
    intro a n h
    simp only [firstMax] at h
    cases hf : firstMax l with
    | none =>
      rw [hf] at h
      cases h
      refine ⟨[], l, rfl, (by simp), ?_⟩
      cases l with
      | nil => simp
      | cons q l =>
        obtain ⟨q1, q2⟩ := q
        simp only [firstMax] at hf
        split at hf
        · split at hf <;> cases hf
        · cases hf
    | some q =>
      obtain ⟨b', m'⟩ := q
      rw [hf] at h
      obtain ⟨l1, l2, e, h1, h2⟩ := ih b' m' hf
      simp only at h
      split at h
      · rename_i hlt
        cases h
        refine ⟨(b, m) :: l1, l2, by rw [e]; rfl, ?_, h2⟩
        intro x hx
        rcases List.mem_cons.mp hx with rfl | hx
        · exact hlt
        · exact h1 x hx
      · rename_i hlt
        cases h
        refine ⟨[], l, rfl, (by simp), ?_⟩
        intro x hx
        rw [e] at hx
        rcases List.mem_append.mp hx with hx | hx
        · have := h1 x hx; omega
        · rcases List.mem_cons.mp hx with rfl | hx
          · simpa using hlt
          · have := h2 x hx; omega

theorem firstMax_none {α : Type} (l : List (α × Nat)) : firstMax l = none ↔ l = [] := by
  cases l with
  | nil => simp [firstMax]
  | cons q l =>
    obtain ⟨q1, q2⟩ := q
    simp only [firstMax]
    split
    · split <;> simp
    · simp

/-- the most frequent row, the smallest one if there are several -/
def IsMode (l : List (K × K)) (m : K × K) : Prop :=
  m ∈ l ∧ ∀ f ∈ l, l.count f ≤ l.count m ∧ (l.count f = l.count m → toLex m ≤ toLex f)

theorem uniqueCounts_mode {l : List (K × K)} {m : K × K} {n : Nat}
    (h : firstMax (uniqueCounts l) = some (m, n)) : IsMode l m ∧ n = l.count m := by
  obtain ⟨l1, l2, e, h1, h2⟩ := firstMax_some _ _ _ h
  set srt := l.dedup.insertionSort (fun a b => toLex a ≤ toLex b) with hsrt
  have hmem : ∀ x, x ∈ srt ↔ x ∈ l := by
    intro x; rw [hsrt, List.mem_insertionSort, List.mem_dedup]
  have hs : srt.Pairwise (fun a b => toLex a ≤ toLex b) := by
    exact List.pairwise_insertionSort (fun a b : K × K => toLex a ≤ toLex b) l.dedup
  have hu : uniqueCounts l = srt.map fun r => (r, l.count r) := rfl
  rw [hu] at e
  obtain ⟨s1, s', e1, e2, e3⟩ := List.map_eq_append_iff.mp e
  obtain ⟨m', s2, e4, e5, e6⟩ := List.map_eq_cons_iff.mp e3
  cases e5
  subst e4 e6 e2
  have hm : m ∈ l := (hmem m).mp (by rw [e1]; simp)
  refine ⟨⟨hm, ?_⟩, rfl⟩
  intro f hf
  have hf' := (hmem f).mpr hf
  rw [e1] at hf' hs
  rcases List.mem_append.mp hf' with hx | hx
  · have := h1 (f, l.count f) (List.mem_map_of_mem hx)
    exact ⟨this.le, fun e => absurd e this.ne⟩
  · rcases List.mem_cons.mp hx with rfl | hx
    · exact ⟨le_rfl, fun _ => le_rfl⟩
    · refine ⟨h2 (f, l.count f) (List.mem_map_of_mem hx), fun _ => ?_⟩
      exact (List.pairwise_cons.mp (List.pairwise_append.mp hs).2.1).1 f hx

/-- **C46** The call raises exactly if there are no points. Otherwise the movement found is a most
frequent rounded flow, the lexicographically smallest one if there are several; the accumulated movement
is added to it; the reference frame is to be updated exactly if the share of the points with this flow
is below the threshold, and exactly then the result becomes the accumulated movement. -/
theorem C46_mode (g : TransGetter K) (data : Option (K × K)) (curr prev : List (K × K)) :
    (g.call data curr prev = none ↔ flows g.bin curr prev = []) ∧
    ∀ data' upd v, g.call data curr prev = some (data', upd, v) →
      ∃ m, IsMode (flows g.bin curr prev) m ∧
        v = (m.1 + (data.getD 0).1, m.2 + (data.getD 0).2) ∧
        (upd = true ↔
          ((flows g.bin curr prev).count m : K) / (prev.length : K) < g.thr) ∧
        data' = (if upd then some v else data) := by
  have hfl : (List.zipWith (fun c p : K × K => (c.1 - p.1, c.2 - p.2)) curr prev).map
      (fun f => ((around (f.1 / g.bin) : K) * g.bin, (around (f.2 / g.bin) : K) * g.bin)) =
      flows g.bin curr prev := by
    unfold flows
    rw [List.zip_eq_zipWith, List.map_zipWith, List.map_zipWith]
  unfold TransGetter.call
  simp only [hfl]
  cases hm : firstMax (uniqueCounts (flows g.bin curr prev)) with
  | none =>
    refine ⟨⟨fun _ => ?_, fun _ => rfl⟩, (by intro _ _ _ h; cases h)⟩
    rw [firstMax_none] at hm
    unfold uniqueCounts at hm
    have h1 := List.map_eq_nil_iff.mp hm
    rw [List.eq_nil_iff_forall_not_mem] at h1 ⊢
    intro x hx
    exact h1 x ((List.mem_insertionSort _).mpr (List.mem_dedup.mpr hx))
  | some q =>
    obtain ⟨m, n⟩ := q
    obtain ⟨hmode, rfl⟩ := uniqueCounts_mode hm
    refine ⟨⟨(by intro h; cases h), fun h => ?_⟩, ?_⟩
    · have := hmode.1; rw [h] at this; cases this
    · intro data' upd v h
      refine ⟨m, hmode, ?_⟩
      cases data with
      | none =>
        cases h
        refine ⟨by simp, by simp, rfl⟩
      | some d =>
        cases h
        refine ⟨by simp, by simp, rfl⟩

end

/-- C46: three points moved by (1, 0), two by (0, 2), bins of size 1/2, threshold 9/10 -/
example : (⟨1 / 2, 9 / 10⟩ : TransGetter ℚ).call (some (10, 20))
    [(1, 0), (1, 1 / 10), (0, 2), (1, 0), (0, 2)] [(0, 0), (0, 0), (0, 0), (0, 0), (0, 0)] =
      some (some (11, 20), true, (11, 20)) := by decide +kernel

/-- C46: a tie -/
example : (⟨1 / 2, 9 / 10⟩ : TransGetter ℚ).call none [(1, 0), (0, 2)] [(0, 0), (0, 0)] =
      some (some (0, 2), true, (0, 2)) := by decide +kernel

/-! ### C47, C48: the motion estimator -/

section
variable {Img Mask G T : Type}

/-- optical flow between two frames, starting from the corners found or from the given points -/
abbrev SparseFlow (fl : Flow K Img Mask) (r next : Img) (curr prev : List (K × K)) : Prop :=
  ∃ pts mask, fl.sparse next r pts mask = some (curr, prev)

theorem filter_zip_length {α β : Type} : ∀ (c : List α) (p : List β) (st : List Bool),
    c.length = p.length → st.length = p.length →
    ((c.zip st).filter (·.2)).length = ((p.zip st).filter (·.2)).length
  | [], [], _, _, _ => by simp
  | [], _ :: _, _, h, _ => by cases h
  | _ :: _, [], _, h, _ => by cases h
  | _ :: _, _ :: _, [], _, h => by cases h
  | a :: c, b :: p, s :: st, h1, h2 => by
    have := filter_zip_length c p st (by simpa using h1) (by simpa using h2)
    cases s <;> simp [this]

/-- Both lists of points of `_get_sparse_flow` have the same length if `calcOpticalFlowPyrLK` gives one
position and one status per point. -/
theorem sparse_lengths {fl : Flow K Img Mask}
    (ht : ∀ a b p c st, fl.track a b p = some (c, st) → c.length = p.length ∧ st.length = p.length)
    {r next : Img} {curr prev : List (K × K)} (h : SparseFlow fl r next curr prev) :
    curr.length = prev.length := by
  obtain ⟨pts, mask, h⟩ := h
  unfold Flow.sparse at h
  split at h
  · cases h
  · rename_i p _
    split at h
    · cases h
    · rename_i c st hst
      cases h
      obtain ⟨h1, h2⟩ := ht _ _ _ _ _ hst
      simp only [List.length_map]
      exact filter_zip_length c p st h1 h2

/-- What a getter must do to be right: `Right g r o` means that its state `g` is right for the reference
frame `r` and the origin `o`, `Out x f o` that `x` is right for the frame `f` and the origin `o`;
`PtsOk` restricts the points kept for the next call. -/
structure GetterLaws (fl : Flow K Img Mask) (g0 : G)
    (call : G → Option (List (K × K)) → Option (List (K × K)) → Option (G × Bool × Option T))
    (PtsOk : Option (List (K × K)) → Prop) (Right : G → Img → Img → Prop) (Out : T → Img → Img → Prop) :
    Prop where
  start : PtsOk none ∧ ∀ f, Right g0 f f
  call : ∀ g r o next pts mask g' upd t, PtsOk pts → Right g r o →
    call g ((fl.sparse next r pts mask).map (·.1)) ((fl.sparse next r pts mask).map (·.2)) =
      some (g', upd, t) →
    (∀ x, t = some x → Out x next o ∧ (if upd then Right g' next o else Right g' r o)) ∧
    (t = none → upd = true ∧ Right g' next next) ∧
    (upd = false → PtsOk ((fl.sparse next r pts mask).map (·.2)))

variable {fl : Flow K Img Mask} {g0 : G}
  {call : G → Option (List (K × K)) → Option (List (K × K)) → Option (G × Bool × Option T)}
  {PtsOk : Option (List (K × K)) → Prop} {Right : G → Img → Img → Prop} {Out : T → Img → Img → Prop}

/-- the estimator has a reference frame, and the state of its getter is right for it -/
def RightState (PtsOk : Option (List (K × K)) → Prop) (Right : G → Img → Img → Prop)
    (s : MotionEstimator K Img Mask G) (o : Img) : Prop :=
  ∃ r, s.grayPrvs = some r ∧ Right s.getter r o ∧ PtsOk s.prevPts

theorem estimator_step (hL : GetterLaws fl g0 call PtsOk Right Out) {s : MotionEstimator K Img Mask G}
    {o : Img} (hs : RightState PtsOk Right s o) (next : Img) (mask : Option Mask) :
    (∀ x, (s.update fl g0 call next mask).2 = some x →
      Out x next o ∧ RightState PtsOk Right (s.update fl g0 call next mask).1 o) ∧
    ((s.update fl g0 call next mask).2 = none →
      RightState PtsOk Right (s.update fl g0 call next mask).1 next) := by
  obtain ⟨r, hr, hg, hp⟩ := hs
  unfold MotionEstimator.update
  simp only [hr, Option.getD_some]
  cases hc : call s.getter ((fl.sparse next r s.prevPts s.prevMask).map (·.1))
      ((fl.sparse next r s.prevPts s.prevMask).map (·.2)) with
  | none =>
    simp only [if_true]
    exact ⟨(by intro x h; cases h), fun _ => ⟨next, rfl, hL.start.2 next, hL.start.1⟩⟩
  | some q =>
    obtain ⟨g', upd, t⟩ := q
    obtain ⟨h1, h2, h3⟩ := hL.call _ _ _ _ _ _ _ _ _ hp hg hc
    cases upd with
    | true =>
      simp only [if_true] at h1 ⊢
      exact ⟨fun x hx => ⟨(h1 x hx).1, next, rfl, (h1 x hx).2, hL.start.1⟩,
        fun hx => ⟨next, rfl, (h2 hx).2, hL.start.1⟩⟩
    | false =>
      simp only [Bool.false_eq_true, if_false] at h1 ⊢
      exact ⟨fun x hx => ⟨(h1 x hx).1, r, rfl, (h1 x hx).2, h3 rfl⟩,
        fun hx => absurd (h2 hx).1 (by simp)⟩

theorem estimator_run (hL : GetterLaws fl g0 call PtsOk Right Out) :
    ∀ (hs : List (Img × Option Mask)) (s : MotionEstimator K Img Mask G) (o : Img),
      RightState PtsOk Right s o → ∀ (n : Nat) (f : Img × Option Mask) (x : T), hs[n]? = some f → (s.outputs fl g0 call hs)[n]? = some (some x) →
        (∀ k, k < n → (s.outputs fl g0 call hs)[k]? ≠ some none) → Out x f.1 o := by
  intro hs
  induction hs with
  | nil => intro s o _ n f x h; cases h
  | cons h hs ih =>
    obtain ⟨img, mask⟩ := h
    intro s o hs' n f x hf hx hk
    obtain ⟨s1, s2⟩ := estimator_step hL hs' img mask
    simp only [MotionEstimator.outputs] at hx hk
    cases n with
    | zero =>
      cases hf
      simp only [List.getElem?_cons_zero, Option.some.injEq] at hx
      exact (s1 x hx).1
    | succ n =>
      simp only [List.getElem?_cons_succ] at hf hx
      have h0 := hk 0 (by omega)
      simp only [List.getElem?_cons_zero, ne_eq, Option.some.injEq] at h0
      obtain ⟨y, hy⟩ := Option.ne_none_iff_exists'.mp h0
      refine ih _ o (s1 y hy).2 n f x hf hx (fun k hkn => ?_)
      have := hk (k + 1) (by omega)
      simpa using this

/-- a new estimator behaves as if the first frame were its reference frame -/
theorem outputs_create (g0 : G) (f : Img × Option Mask) (hs : List (Img × Option Mask)) :
    (MotionEstimator.create (K := K) g0).outputs fl g0 call (f :: hs) =
      (⟨some f.1, none, f.2, g0⟩ : MotionEstimator K Img Mask G).outputs fl g0 call (f :: hs) := rfl

/-- transformations are relative to the first frame, as long as none of them is missing -/
theorem estimator_first (hL : GetterLaws fl g0 call PtsOk Right Out) (f : Img × Option Mask)
    (hs : List (Img × Option Mask)) {n : Nat} {fn : Img × Option Mask} {x : T}
    (hf : (f :: hs)[n]? = some fn)
    (hx : ((MotionEstimator.create (K := K) g0).outputs fl g0 call (f :: hs))[n]? = some (some x))
    (hk : ∀ k, k < n →
      ((MotionEstimator.create (K := K) g0).outputs fl g0 call (f :: hs))[k]? ≠ some none) :
    Out x fn.1 f.1 := by
  rw [outputs_create] at hx hk
  exact estimator_run hL (f :: hs) _ f.1 ⟨f.1, rfl, hL.start.2 f.1, hL.start.1⟩ n fn x hf hx hk

theorem outputs_length (s : MotionEstimator K Img Mask G) (hs : List (Img × Option Mask)) :
    (s.outputs fl g0 call hs).length = hs.length := by
  induction hs generalizing s with
  | nil => rfl
  | cons h hs ih => obtain ⟨img, mask⟩ := h; simp [MotionEstimator.outputs, ih]

/-- after a missing transformation, the following ones are relative to that frame -/
theorem estimator_restart (hL : GetterLaws fl g0 call PtsOk Right Out) :
    ∀ (pre : List (Img × Option Mask)) (s : MotionEstimator K Img Mask G) (o : Img),
      RightState PtsOk Right s o →
      ∀ (f : Img × Option Mask) (post : List (Img × Option Mask)) (n : Nat) (fn : Img × Option Mask) (x : T),
      (s.outputs fl g0 call (pre ++ f :: post))[pre.length]? = some none →
      post[n]? = some fn →
      (s.outputs fl g0 call (pre ++ f :: post))[pre.length + 1 + n]? = some (some x) →
      (∀ k, k < n → (s.outputs fl g0 call (pre ++ f :: post))[pre.length + 1 + k]? ≠ some none) →
      Out x fn.1 f.1 := by
  intro pre
  induction pre with
  | nil =>
    rintro s o hs ⟨img, mask⟩ post n fn x h0 hf hx hk
    simp only [List.nil_append, MotionEstimator.outputs, List.length_nil, List.getElem?_cons_zero,
      Option.some.injEq, Nat.zero_add, Nat.add_comm 1, List.getElem?_cons_succ] at h0 hx hk
    exact estimator_run hL post _ img ((estimator_step hL hs img mask).2 h0) n fn x hf hx hk
  | cons h pre ih =>
    obtain ⟨img, mask⟩ := h
    intro s o hs f post n fn x h0 hf hx hk
    have e : ∀ k, (((img, mask) :: pre).length + 1 + k) = (pre.length + 1 + k) + 1 := by
      intro k; simp only [List.length_cons]; omega
    simp only [e] at hx hk
    simp only [List.cons_append, MotionEstimator.outputs, List.length_cons,
      List.getElem?_cons_succ] at h0 hx hk
    have hst := estimator_step hL hs img mask
    cases hout : (s.update fl g0 call img mask).2 with
    | none => exact ih _ _ (hst.2 hout) f post n fn x h0 hf hx hk
    | some y => exact ih _ _ (hst.1 y hout).2 f post n fn x h0 hf hx hk

/-- the reference frame and its mask in a call of `update` -/
def IsRef (s : MotionEstimator K Img Mask G) (next : Img) (mask : Option Mask) (r : Img)
    (m : Option Mask) : Prop :=
  (s.grayPrvs = some r ∧ m = s.prevMask) ∨ (s.grayPrvs = none ∧ r = next ∧ m = mask)

/-- **C48** If the getter raises (for whatever reason), `update` returns `None`, the current frame becomes
the reference frame, with its mask and without points, and the getter starts again from its initial
state. (Exceptions of optical flow and of the getter are caught: `update` has a result in all cases.) -/
theorem C48_getter_raises (s : MotionEstimator K Img Mask G) (next : Img) (mask : Option Mask)
    {r : Img} {m : Option Mask} (hr : IsRef s next mask r m)
    (hraise : call s.getter ((fl.sparse next r s.prevPts m).map (·.1))
      ((fl.sparse next r s.prevPts m).map (·.2)) = none) :
    s.update fl g0 call next mask = (⟨some next, none, mask, g0⟩, none) := by
  unfold MotionEstimator.update
  rcases hr with ⟨h1, rfl⟩ | ⟨h1, rfl, rfl⟩
  · simp only [h1, Option.getD_some, hraise, if_true]
  · simp only [h1, Option.getD_none, hraise, if_true]

end

/-! #### Translations -/

section
variable {Img Mask : Type} [Field K] [LinearOrder K] [IsStrictOrderedRing K] [FloorRing K]

/-- Every measured flow is the true displacement: let `d f` be the position of the scene in the frame `f`.
If the flow from the frame `r` to the frame `next` was found, the true displacement between them is the
most frequent rounded flow. -/
def TrueFlow (fl : Flow K Img Mask) (b : K) (d : Img → K × K) : Prop :=
  ∀ r next curr prev, SparseFlow fl r next curr prev → flows b curr prev ≠ [] →
    ∀ f, f ≠ d next - d r →
      (flows b curr prev).count f < (flows b curr prev).count (d next - d r)

theorem transGetter_laws {fl : Flow K Img Mask} (g : TransGetter K) {d : Img → K × K}
    (hd : TrueFlow fl g.bin d) :
    GetterLaws fl none g.getter (fun _ => True) (fun data r o => data.getD 0 = d r - d o)
      (fun v f o => v = d f - d o) where
  start := ⟨trivial, fun f => by simp⟩
  call := by
    intro data r o next pts mask g' upd t _ hR hc
    cases hsp : fl.sparse next r pts mask with
    | none => rw [hsp] at hc; cases hc
    | some q =>
      obtain ⟨curr, prev⟩ := q
      rw [hsp] at hc
      simp only [TransGetter.getter, Option.map_some] at hc
      obtain ⟨⟨a, b, v⟩, hcall, heq⟩ := Option.map_eq_some_iff.mp hc
      cases heq
      obtain ⟨m, hm, hv, _, hdata⟩ := (C46_mode g data curr prev).2 _ _ _ hcall
      have hne : flows g.bin curr prev ≠ [] := by
        intro e; have := hm.1; rw [e] at this; cases this
      have hmd : m = d next - d r := by
        by_contra hne'
        have h1 := hd r next curr prev ⟨_, _, hsp⟩ hne m hne'
        have h2 := (hm.2 (d next - d r) (List.count_pos_iff.mp (by omega))).1
        omega
      have hvv : v = d next - d o := by
        rw [hv, hR, hmd]
        ext <;> simp
      refine ⟨?_, (by intro h; cases h), fun _ => trivial⟩
      intro x hx
      cases hx
      refine ⟨hvv, ?_⟩
      rw [hdata]
      split
      · simpa using hvv
      · exact hR

/-- **C47** (translations) If every measured flow is the true displacement between the reference frame and
the current frame, every transformation returned is the true displacement relative to the first frame,
whatever reference frames were used on the way, as long as no transformation is missing. -/
theorem C47_translation {fl : Flow K Img Mask} (g : TransGetter K) {d : Img → K × K}
    (hd : TrueFlow fl g.bin d) (f : Img × Option Mask) (hs : List (Img × Option Mask)) {n : Nat}
    {fn : Img × Option Mask} {v : K × K} (hf : (f :: hs)[n]? = some fn)
    (hx : ((MotionEstimator.create (K := K) none).outputs fl none g.getter (f :: hs))[n]? =
      some (some v))
    (hk : ∀ k, k < n →
      ((MotionEstimator.create (K := K) none).outputs fl none g.getter (f :: hs))[k]? ≠ some none) :
    v = d fn.1 - d f.1 :=
  estimator_first (transGetter_laws g hd) f hs hf hx hk

/-- **C47** (translations, points) Under the same hypotheses, the transformation made of the result takes
the coordinates of any number of points in the first frame to those that they have in the current frame
(every point moves in the image by the displacement of the camera), and back. -/
theorem C47_translation_points {fl : Flow K Img Mask} (g : TransGetter K) {d : Img → K × K}
    (hd : TrueFlow fl g.bin d) (f : Img × Option Mask) (hs : List (Img × Option Mask)) {n : Nat}
    {fn : Img × Option Mask} {v : K × K} (hf : (f :: hs)[n]? = some fn)
    (hx : ((MotionEstimator.create (K := K) none).outputs fl none g.getter (f :: hs))[n]? =
      some (some v))
    (hk : ∀ k, k < n →
      ((MotionEstimator.create (K := K) none).outputs fl none g.getter (f :: hs))[k]? ≠ some none)
    (qs : List (K × K)) :
    (translation [v.1, v.2]).absToRel ⟨qs.length, 2, qs.flatMap fun q => [q.1, q.2]⟩ =
      ⟨qs.length, 2, qs.flatMap fun q => [q.1 + ((d fn.1).1 - (d f.1).1), q.2 + ((d fn.1).2 - (d f.1).2)]⟩ ∧
    (translation [v.1, v.2]).relToAbs
      ⟨qs.length, 2, qs.flatMap fun q => [q.1 + ((d fn.1).1 - (d f.1).1), q.2 + ((d fn.1).2 - (d f.1).2)]⟩ =
      ⟨qs.length, 2, qs.flatMap fun q => [q.1, q.2]⟩ := by
  have hv := C47_translation g hd f hs hf hx hk
  have h1 : v.1 = (d fn.1).1 - (d f.1).1 := by rw [hv]; rfl
  have h2 : v.2 = (d fn.1).2 - (d f.1).2 := by rw [hv]; rfl
  rw [← h1, ← h2]
  clear hx hk hv h1 h2 hf
  have key : ∀ (op : K → K → K) (l : List (K × K)) (m : Nat), m % 2 = 0 →
      (l.flatMap fun q => [q.1, q.2]).mapIdx (fun i x => op x (([v.1, v.2][(i + m) % 2]?).getD 0)) =
      l.flatMap fun q => [op q.1 v.1, op q.2 v.2] := by
    intro op l
    induction l with
    | nil => intros; rfl
    | cons q l ih =>
      intro m hm
      simp only [List.flatMap_cons, List.cons_append, List.nil_append, List.mapIdx_cons]
      have e0 : (0 + m) % 2 = 0 := by omega
      have e1 : (0 + 1 + m) % 2 = 1 := by omega
      rw [e0, e1]
      have := ih (m + 2) (by omega)
      simp only [List.getElem?_cons_zero, List.getElem?_cons_succ, Option.getD_some]
      congr 2
      rw [← this]
      congr 1
      funext i x
      congr 4
      omega
  constructor
  · unfold translation
    simp only
    congr 1
    exact key (· + ·) qs 0 rfl
  · unfold translation
    simp only
    congr 1
    have := key (· - ·) (qs.map fun q => (q.1 + v.1, q.2 + v.2)) 0 rfl
    simpa [List.flatMap_map] using this

/-- **C47** (translations, after failures) After a failure, transformations are relative to the frame at
which the last failure happened. -/
theorem C47_translation_restart {fl : Flow K Img Mask} (g : TransGetter K) {d : Img → K × K}
    (hd : TrueFlow fl g.bin d) (f0 : Img × Option Mask) (pre : List (Img × Option Mask))
    (f : Img × Option Mask) (post : List (Img × Option Mask)) {n : Nat}
    {fn : Img × Option Mask} {v : K × K}
    (hfail : ((MotionEstimator.create (K := K) none).outputs fl none g.getter
      (f0 :: pre ++ f :: post))[pre.length + 1]? = some none)
    (hf : post[n]? = some fn)
    (hx : ((MotionEstimator.create (K := K) none).outputs fl none g.getter
      (f0 :: pre ++ f :: post))[pre.length + 1 + 1 + n]? = some (some v))
    (hk : ∀ k, k < n → ((MotionEstimator.create (K := K) none).outputs fl none g.getter
      (f0 :: pre ++ f :: post))[pre.length + 1 + 1 + k]? ≠ some none) :
    v = d fn.1 - d f.1 := by
  rw [List.cons_append, outputs_create, ← List.cons_append] at hfail hx hk
  exact estimator_restart (transGetter_laws g hd) (f0 :: pre) _ f0.1
    ⟨f0.1, rfl, (transGetter_laws g hd).start.2 f0.1, trivial⟩ f post n fn v hfail hf hx hk

/-- **C48** (translations) If optical flow raises, or finds no points, `update` returns `None` and starts
again: the current frame is the reference frame, with its mask and without points, and there is no
accumulated movement. -/
theorem C48_translation {fl : Flow K Img Mask} (g : TransGetter K)
    (s : MotionEstimator K Img Mask (Option (K × K))) (next : Img) (mask : Option Mask)
    {r : Img} {m : Option Mask} (hr : IsRef s next mask r m)
    (hfail : fl.sparse next r s.prevPts m = none ∨
      ∃ c p, fl.sparse next r s.prevPts m = some (c, p) ∧ (c = [] ∨ p = [])) :
    s.update fl none g.getter next mask = (⟨some next, none, mask, none⟩, none) := by
  refine C48_getter_raises s next mask hr ?_
  rcases hfail with h | ⟨c, p, h, he⟩
  · rw [h]; rfl
  · rw [h]
    simp only [Option.map_some, TransGetter.getter]
    rw [(C46_mode g s.getter c p).1.mpr (by rcases he with rfl | rfl <;> simp [flows])]
    rfl

end

/-! #### Homographies -/

section
variable {Img Mask : Type} [Field K] [LinearOrder K]

/-- at least 4 points -/
def Enough (pts : Option (List (K × K))) : Prop := ∀ p, pts = some p → 4 ≤ p.length

/-- Every homography found is the true one: `H f` is the position of the scene in the frame `f`. Optical
flow always works, and gives at least 4 points (if it is not given fewer points from the last frame); if
a homography from the frame `r` to the frame `next` is found, it is the true one, up to a factor. -/
def TrueHomography (fl : Flow K Img Mask)
    (find : List (K × K) → List (K × K) → Option (Matrix (Fin 3) (Fin 3) K × List Bool))
    (H : Img → Matrix (Fin 3) (Fin 3) K) : Prop :=
  (∀ f, (H f).det ≠ 0) ∧
  ∀ r next pts mask, Enough pts → ∃ curr prev, fl.sparse next r pts mask = some (curr, prev) ∧
    4 ≤ curr.length ∧ 4 ≤ prev.length ∧
    ∀ m used, find prev curr = some (m, used) → ∃ k : K, k ≠ 0 ∧ m = k • (H next * (H r)⁻¹)

theorem homography_smul {M : Matrix (Fin 3) (Fin 3) K} {k : K} (hk : k ≠ 0) {p : K × K}
    (h : ¬ ToInfinity M p) : projective (k • M) p = projective M p := by
  have h2 : (M *ᵥ ![p.1, p.2, 1]) 2 ≠ 0 := by rw [mulVec_two]; exact h
  refine projective_of_hom (c := k * (M *ᵥ ![p.1, p.2, 1]) 2) (mul_ne_zero hk h2) ?_
  rw [projective_hom h, smul_mulVec, smul_smul, mul_assoc, mul_inv_cancel₀ h2, mul_one]

/-- the getter with enough points -/
theorem homographyGetter_many {thr : K}
    {find : List (K × K) → List (K × K) → Option (Matrix (Fin 3) (Fin 3) K × List Bool)}
    {data : Option (Matrix (Fin 3) (Fin 3) K)} {curr prev : List (K × K)} (hp : 4 ≤ prev.length)
    (hc : 4 ≤ curr.length) :
    homographyGetter thr find data (some curr) (some prev) =
      (find prev curr).bind fun q => (homography (q.1 * data.getD 1)).map fun t =>
        (if (q.2.count true : K) / (q.2.length : K) < thr then some (q.1 * data.getD 1) else data,
          decide ((q.2.count true : K) / (q.2.length : K) < thr), some t) := by
  simp only [homographyGetter, if_pos (And.intro hp hc)]
  cases find prev curr with
  | none => rfl
  | some q => cases data <;> simp

theorem homGetter_laws {fl : Flow K Img Mask} {thr : K}
    {find : List (K × K) → List (K × K) → Option (Matrix (Fin 3) (Fin 3) K × List Bool)}
    {H : Img → Matrix (Fin 3) (Fin 3) K} (hH : TrueHomography fl find H) :
    GetterLaws fl none (homographyGetter thr find) Enough
      (fun data r o => ∃ k : K, k ≠ 0 ∧ data.getD 1 = k • (H r * (H o)⁻¹))
      (fun t f o => ∃ k : K, k ≠ 0 ∧ homography (k • (H f * (H o)⁻¹)) = some t) where
  start := ⟨(by intro p h; cases h), fun f => ⟨1, one_ne_zero, by
    rw [mul_nonsing_inv _ (isUnit_iff_ne_zero.mpr (hH.1 f))]; simp⟩⟩
  call := by
    rintro data r o next pts mask g' upd t hpts ⟨k, hk, hR⟩ hc
    obtain ⟨curr, prev, hsp, h4, h4', hfind⟩ := hH.2 r next pts mask hpts
    rw [hsp] at hc
    rw [Option.map_some, Option.map_some, homographyGetter_many h4' h4] at hc
    cases hm : find prev curr with
    | none => rw [hm] at hc; cases hc
    | some q =>
      obtain ⟨m, used⟩ := q
      rw [hm, Option.bind_some] at hc
      simp only at hc
      obtain ⟨k', hk', rfl⟩ := hfind m used hm
      have e : (k' • (H next * (H r)⁻¹)) * data.getD 1 = (k' * k) • (H next * (H o)⁻¹) := by
        rw [hR, smul_mul_smul_comm, Matrix.mul_assoc, ← Matrix.mul_assoc (H r)⁻¹,
          nonsing_inv_mul _ (isUnit_iff_ne_zero.mpr (hH.1 r)), Matrix.one_mul]
      rw [e] at hc
      obtain ⟨t', ht', heq⟩ := Option.map_eq_some_iff.mp hc
      cases heq
      refine ⟨?_, (by intro h; cases h), fun _ p hp => ?_⟩
      rotate_left
      · rw [hsp] at hp; cases hp; exact h4'
      intro x hx
      cases hx
      refine ⟨⟨k' * k, mul_ne_zero hk' hk, ht'⟩, ?_⟩
      split
      · rename_i hu
        rw [if_pos (by simpa using hu)]
        exact ⟨k' * k, mul_ne_zero hk' hk, rfl⟩
      · rename_i hu
        rw [if_neg (by simpa using hu)]
        exact ⟨k, hk, hR⟩

/-- **C47** (homographies) If every homography found is the true one between the reference frame and the
current frame, every transformation returned takes a point with coordinates `q` in the first frame to
its true coordinates in the current frame (if the point is not at infinity there), whatever reference
frames were used on the way, as long as no transformation is missing. -/
theorem C47_homography {fl : Flow K Img Mask} {thr : K}
    {find : List (K × K) → List (K × K) → Option (Matrix (Fin 3) (Fin 3) K × List Bool)}
    {H : Img → Matrix (Fin 3) (Fin 3) K} (hH : TrueHomography fl find H) (f : Img × Option Mask)
    (hs : List (Img × Option Mask)) {n : Nat} {fn : Img × Option Mask} {t : CoordTrans K}
    (hf : (f :: hs)[n]? = some fn)
    (hx : ((MotionEstimator.create (K := K) none).outputs fl none (homographyGetter thr find)
      (f :: hs))[n]? = some (some t))
    (hk : ∀ k, k < n → ((MotionEstimator.create (K := K) none).outputs fl none
      (homographyGetter thr find) (f :: hs))[k]? ≠ some none) {q : K × K}
    (hq : ¬ ToInfinity (H fn.1 * (H f.1)⁻¹) q) :
    t.absToRel ⟨1, 2, [q.1, q.2]⟩ = ⟨1, 2, [(projective (H fn.1 * (H f.1)⁻¹) q).1,
      (projective (H fn.1 * (H f.1)⁻¹) q).2]⟩ := by
  obtain ⟨k, hk, ht⟩ := estimator_first (homGetter_laws hH) f hs hf hx hk
  unfold homography at ht
  split at ht
  · cases ht
  cases ht
  simp [pairs, unpairs, homography_smul hk hq]

/-- **C47, C48**, what happens instead with homographies and fewer than 4 points (or optical flow that
raised) when there is an accumulated homography: the transformation returned is the one of the
*reference* frame, as if the camera had not moved since; the current frame becomes the reference frame,
but the accumulated homography is not changed, so that the movement between both frames is lost for all
following frames. -/
theorem C48_homography_few_points {fl : Flow K Img Mask} {thr : K}
    {find : List (K × K) → List (K × K) → Option (Matrix (Fin 3) (Fin 3) K × List Bool)}
    (s : MotionEstimator K Img Mask (Option (Matrix (Fin 3) (Fin 3) K))) (next : Img)
    (mask : Option Mask) {r : Img} {m : Option Mask} (hr : IsRef s next mask r m)
    {M : Matrix (Fin 3) (Fin 3) K} (hM : M.det ≠ 0) (hdata : s.getter = some M)
    (hfew : ∀ c p, fl.sparse next r s.prevPts m = some (c, p) → ¬ (4 ≤ p.length ∧ 4 ≤ c.length)) :
    ∃ t, homography M = some t ∧ s.update fl none (homographyGetter thr find) next mask =
      (⟨some next, none, mask, some M⟩, some t) := by
  have ht : ∃ t, homography M = some t := by
    unfold homography; rw [if_neg hM]; exact ⟨_, rfl⟩
  obtain ⟨t, ht⟩ := ht
  refine ⟨t, ht, ?_⟩
  have hcall : homographyGetter thr find s.getter ((fl.sparse next r s.prevPts m).map (·.1))
      ((fl.sparse next r s.prevPts m).map (·.2)) = some (some M, true, some t) := by
    cases hsp : fl.sparse next r s.prevPts m with
    | none => simp [homographyGetter, hdata, ht]
    | some q =>
      obtain ⟨c, p⟩ := q
      simp [homographyGetter, hdata, ht, if_neg (hfew c p hsp)]
  unfold MotionEstimator.update
  rcases hr with ⟨h1, rfl⟩ | ⟨h1, rfl, rfl⟩
  · simp only [h1, Option.getD_some, hcall, if_true]
  · simp only [h1, Option.getD_none, hcall, if_true]

end

/-! #### Examples -/

/-- frames are given by the horizontal position of the camera; four corners are found in every frame
but those at negative positions; optical flow finds the true displacement of all points -/
def toyFlow : Flow ℚ Int Unit where
  corners := fun f _ => if f < 0 then none else some [(0, 0), (5, 0), (0, 5), (5, 5)]
  track := fun r next p =>
    if next < 0 then none
    else some (p.map fun q => (q.1 + ((next : ℚ) - r), q.2), p.map fun _ => true)

/-- position of the scene -/
def toyPos (f : Int) : ℚ × ℚ := ((f : ℚ), 0)

theorem around_int (z : Int) : around (z : ℚ) = z := by
  unfold around
  simp

theorem filter_true_zip {α : Type} (l m : List α) (h : l.length = m.length) :
    ((l.zip (m.map fun _ => true)).filter (·.2)).map (·.1) = l := by
  induction l generalizing m with
  | nil => simp
  | cons a l ih =>
    cases m with
    | nil => cases h
    | cons b m =>
      have := ih m (by simpa using h)
      simp only [List.map_cons, List.zip_cons_cons, List.filter_cons_of_pos, this]

theorem toyFlow_sparse {r next : Int} {curr prev : List (ℚ × ℚ)}
    (h : SparseFlow toyFlow r next curr prev) :
    curr = prev.map fun q => (q.1 + ((next : ℚ) - r), q.2) := by
  obtain ⟨pts, mask, h⟩ := h
  unfold Flow.sparse at h
  split at h
  · cases h
  rename_i p _
  split at h
  · cases h
  rename_i c st hst
  simp only [toyFlow] at hst
  split at hst
  · cases hst
  cases hst
  cases h
  rw [filter_true_zip _ _ (by simp), filter_true_zip _ _ rfl]

theorem toyFlow_true : TrueFlow toyFlow 1 toyPos := by
  intro r next curr prev h hne f hf
  have e : flows 1 curr prev = List.replicate prev.length (toyPos next - toyPos r) := by
    rw [toyFlow_sparse h]
    unfold flows
    clear h hne hf
    induction prev with
    | nil => rfl
    | cons q l ih =>
      simp only [List.map_cons, List.zip_cons_cons, List.length_cons, List.replicate_succ, ih]
      congr 1
      ext
      · have := around_int (next - r)
        push_cast at this
        simp [toyPos, this]
      · have := around_int 0
        push_cast at this
        simp [toyPos, this]
  rw [e] at hne ⊢
  rw [List.count_replicate_self, List.count_replicate]
  have hp : 0 < prev.length := by
    rcases Nat.eq_zero_or_pos prev.length with h0 | h0
    · rw [h0] at hne; exact absurd rfl hne
    · exact h0
  have : ¬ ((toyPos next - toyPos r) == f) = true := by
    intro h; exact hf (beq_iff_eq.mp h).symm
  rw [if_neg this]
  exact hp

/-- C47: the reference frame changes in every call (threshold 2), one call fails (-1) -/
example : (MotionEstimator.create (K := ℚ) none).outputs toyFlow none
    (⟨1, 2⟩ : TransGetter ℚ).getter [(3, none), (5, none), (4, none), (-1, none), (9, none), (11, none)] =
    [some (0, 0), some (2, 0), some (1, 0), none, none, some (2, 0)] := by decide +kernel

example : ((2, 0) : ℚ × ℚ) = toyPos 5 - toyPos 3 :=
  C47_translation (⟨1, 2⟩ : TransGetter ℚ) toyFlow_true (3, none) [(5, none), (4, none)] (n := 1) rfl
    (by decide +kernel) (by
      intro k hk
      have : k = 0 := by omega
      subst this
      decide +kernel)

/-- two points of the first frame, seen in the second one -/
example : (translation [((2, 0) : ℚ × ℚ).1, ((2, 0) : ℚ × ℚ).2]).absToRel ⟨2, 2, [7, 8, -1, 5]⟩ =
    ⟨2, 2, [9, 8, 1, 5]⟩ := by
  have h := (C47_translation_points (⟨1, 2⟩ : TransGetter ℚ) toyFlow_true (3, none) [(5, none), (4, none)]
    (n := 1) rfl (v := (2, 0)) (by decide +kernel) (by
      intro k hk
      have : k = 0 := by omega
      subst this
      decide +kernel) [(7, 8), (-1, 5)]).1
  simpa [toyPos] using h.trans (by decide +kernel)

/-- with a fixed reference frame -/
example : (MotionEstimator.create (K := ℚ) none).outputs toyFlow none
    (⟨1, 9 / 10⟩ : TransGetter ℚ).getter [(3, none), (5, none), (4, none), (9, none)] =
    [some (0, 0), some (2, 0), some (1, 0), some (6, 0)] := by decide +kernel

/-- C47, after the failure at the fifth frame -/
example : ((2, 0) : ℚ × ℚ) = toyPos 11 - toyPos 9 :=
  C47_translation_restart (⟨1, 2⟩ : TransGetter ℚ) toyFlow_true (3, none)
    [(5, none), (4, none), (-1, none)] (9, none) [(11, none)] (n := 0) (by decide +kernel) rfl
    (by decide +kernel) (by intro k hk; cases hk)

/-- C48: optical flow to the frame -1 raises -/
example : ((⟨some 4, none, none, some (1, 0)⟩ : MotionEstimator ℚ Int Unit _).update toyFlow none
    (⟨1, 2⟩ : TransGetter ℚ).getter (-1) none) = (⟨some (-1), none, none, none⟩, none) :=
  C48_translation _ _ _ _ (Or.inl ⟨rfl, rfl⟩) (Or.inl (by decide +kernel))

/-- the homographies of the example: horizontal translations -/
def toyH (f : Int) : Matrix (Fin 3) (Fin 3) ℚ := !![1, 0, (f : ℚ); 0, 1, 0; 0, 0, 1]

/-- optical flow that always works -/
def goodFlow : Flow ℚ Int Unit where
  corners := fun _ _ => some [(0, 0), (5, 0), (0, 5), (5, 5)]
  track := fun r next p =>
    some (p.map fun q => (q.1 + ((next : ℚ) - r), q.2), p.map fun _ => true)

/-- finds twice the true homography from the first point, and uses no points -/
def toyFind (prev curr : List (ℚ × ℚ)) : Option (Matrix (Fin 3) (Fin 3) ℚ × List Bool) :=
  some (!![2, 0, 2 * ((curr.headD 0).1 - (prev.headD 0).1); 0, 2, 0; 0, 0, 2], [false])

theorem toyH_det (f : Int) : (toyH f).det = 1 := by
  simp [toyH, det_fin_three]

theorem toyH_inv (f : Int) : (toyH f)⁻¹ = toyH (-f) := by
  refine inv_eq_left_inv ?_
  ext i j
  fin_cases i <;> fin_cases j <;> simp [toyH, Matrix.mul_apply, Fin.sum_univ_three]

theorem toyTrue : TrueHomography goodFlow toyFind toyH := by
  refine ⟨fun f => by rw [toyH_det]; exact one_ne_zero, ?_⟩
  intro r next pts mask hpts
  have key : ∀ p : List (ℚ × ℚ), 4 ≤ p.length → ∃ curr prev,
      some (((p.map fun q : ℚ × ℚ => (q.1 + ((next : ℚ) - r), q.2)).zip (p.map fun _ => true)).filter (·.2)
        |>.map (·.1), ((p.zip (p.map fun _ => true)).filter (·.2)).map (·.1)) = some (curr, prev) ∧
      4 ≤ curr.length ∧ 4 ≤ prev.length ∧ ∀ m used, toyFind prev curr = some (m, used) →
        ∃ k : ℚ, k ≠ 0 ∧ m = k • (toyH next * (toyH r)⁻¹) := by
    intro p hp
    rw [filter_true_zip _ _ (by simp), filter_true_zip _ _ rfl]
    refine ⟨_, _, rfl, by simpa using hp, hp, ?_⟩
    intro m used h
    cases h
    refine ⟨2, two_ne_zero, ?_⟩
    rw [toyH_inv]
    cases p with
    | nil => simp at hp
    | cons q p =>
      ext i j
      fin_cases i <;> fin_cases j <;>
        simp [toyH, Matrix.mul_apply, Fin.sum_univ_three, sub_eq_add_neg, add_comm]
  cases pts with
  | none => exact key _ (by decide)
  | some p => exact key p (hpts p rfl)

/-- C47: the hypotheses about homographies can be met, and the estimator returns a
transformation -/
example : ∃ t, ((MotionEstimator.create none).outputs goodFlow none (homographyGetter (9 / 10) toyFind)
    [(3, none), (5, none), (4, none)])[0]? = some (some t) := by
  have hsp : goodFlow.sparse 3 3 none none =
      some ([(0, 0), (5, 0), (0, 5), (5, 5)], [(0, 0), (5, 0), (0, 5), (5, 5)]) := by decide +kernel
  unfold MotionEstimator.outputs MotionEstimator.update MotionEstimator.create
  simp only [Option.getD_none, hsp, Option.map_some]
  rw [homographyGetter_many (by decide) (by decide)]
  have hdet : ∃ t, homography
      (!![2, 0, 0; 0, 2, 0; 0, 0, 2] : Matrix (Fin 3) (Fin 3) ℚ) = some t := by
    unfold homography
    rw [if_neg (by simp [det_fin_three])]
    exact ⟨_, rfl⟩
  obtain ⟨t, ht⟩ := hdet
  exact ⟨t, by simp [toyFind, ht]⟩

/-- **C48** (the negation for homographies) The first frame is processed, then optical flow raises in
the second one: the result is not `None`, and the getter is not in its initial state. -/
theorem C48_homography_not_reset :
    ∃ (find : List (ℚ × ℚ) → List (ℚ × ℚ) → Option (Matrix (Fin 3) (Fin 3) ℚ × List Bool))
      (s : MotionEstimator ℚ Int Unit (Option (Matrix (Fin 3) (Fin 3) ℚ))),
      s = ((MotionEstimator.create none).update toyFlow none (homographyGetter (9 / 10) find) 0 none).1 ∧
      toyFlow.sparse (-1) 0 s.prevPts s.prevMask = none ∧
      (s.update toyFlow none (homographyGetter (9 / 10) find) (-1) none).2 ≠ none ∧
      (s.update toyFlow none (homographyGetter (9 / 10) find) (-1) none).1.getter ≠ none := by
  have hdet : ∃ t, homography (1 : Matrix (Fin 3) (Fin 3) ℚ) = some t := by
    unfold homography; rw [if_neg (by simp)]; exact ⟨_, rfl⟩
  obtain ⟨t, ht⟩ := hdet
  have hs : ((MotionEstimator.create (K := ℚ) none).update toyFlow none
      (homographyGetter (9 / 10) fun _ _ => some (1, [false])) 0 none).1 =
      (⟨some 0, none, none, some 1⟩ : MotionEstimator ℚ Int Unit _) := by
    have hsp : toyFlow.sparse 0 0 none none =
        some ([(0, 0), (5, 0), (0, 5), (5, 5)], [(0, 0), (5, 0), (0, 5), (5, 5)]) := by decide +kernel
    unfold MotionEstimator.update MotionEstimator.create
    simp only [Option.getD_none, hsp, Option.map_some]
    rw [homographyGetter_many (by decide) (by decide)]
    simp [ht]
  refine ⟨fun _ _ => some (1, [false]), _, rfl, ?_, ?_⟩
  · rw [hs]; decide +kernel
  · rw [hs]
    obtain ⟨t', _, h⟩ := C48_homography_few_points (fl := toyFlow) (thr := 9 / 10)
      (find := fun _ _ => some (1, [false]))
      (⟨some 0, none, none, some 1⟩ : MotionEstimator ℚ Int Unit _) (-1) none (r := 0) (m := none)
      (Or.inl ⟨rfl, rfl⟩) (M := 1) (by simp) rfl (by
        intro c p h
        rw [show toyFlow.sparse (-1) 0 none none = none by decide +kernel] at h
        cases h)
    rw [h]
    simp

end Norfair.Props
