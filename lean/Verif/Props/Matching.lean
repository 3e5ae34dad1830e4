import Verif.Lemmas.Matching
import Verif.Lemmas.Float32
import Mathlib.Logic.Equiv.Defs
import Mathlib.Tactic.IntervalCases

/-!
Property theorems C01-C04: `Tracker.match_dets_and_objs`.

`MatchReturns thr fill M l` says that the Python call returns the index pairs `l` (any number of loop
rounds); `fill` is whatever value the matrix holds after storing `distance_threshold + 1`.
-/

namespace Norfair.Props

open Norfair Norfair.Spec

variable {D : Type} [LinearOrder D]

/-- a concrete 3x3 matrix with a tie, used in the examples -/
def sampleMat : Mat ℚ :=
  ⟨3, 3, fun i j => if i = 0 then (if j = 0 then 5 else if j = 1 then 1 else 7)
    else if i = 1 then (if j = 0 then 2 else if j = 1 then 1 else 9)
    else (if j = 0 then 2 else if j = 1 then 4 else 20)⟩

/-! ### C01 -/

/-- **C01** Whatever the call returns is one-to-one, in range and strictly below the threshold. -/
theorem C01_matching_one_to_one (thr fill : D) (M : Mat D) (l : List (Nat × Nat))
    (h : MatchReturns thr fill M l) :
    (l.map Prod.fst).Nodup ∧ (l.map Prod.snd).Nodup ∧
    ∀ p ∈ l, p.1 < M.rows ∧ p.2 < M.cols ∧ M.val p.1 p.2 < thr := by
  have g := matchReturns_greedy h
  exact ⟨g.rowsNodup, g.colsNodup,
    fun p hp => ⟨(g.inRange p hp).1, (g.inRange p hp).2, g.below p hp⟩⟩

example : MatchReturns (10 : ℚ) 11 sampleMat [(0, 1), (1, 0)] := ⟨4, by decide +kernel⟩

/-! ### C02 -/

/-- **C02** The result is the greedy matching: ordered by distance (ties in row-major order), and
every pair below the threshold is blocked by a matched pair in its row or column that is at least as
good. -/
theorem C02_matching_greedy (thr fill : D) (M : Mat D) (l : List (Nat × Nat))
    (h : MatchReturns thr fill M l) : GreedyMatching M.rows M.cols M.val thr l :=
  matchReturns_greedy h

/-- The specification of C02 leaves no freedom: it determines the returned list completely. -/
theorem C02_spec_determines_result (rows cols : Nat) (d : Nat → Nat → D) (thr : D)
    (l l' : List (Nat × Nat)) (h : GreedyMatching rows cols d thr l)
    (h' : GreedyMatching rows cols d thr l') : l = l' :=
  greedy_unique l l' rows cols d [] h h'

/-- **C02** (maximality, spelled out) no unmatched detection and unmatched object remain whose distance
is below the threshold. -/
theorem C02_matching_maximal (thr fill : D) (M : Mat D) (l : List (Nat × Nat))
    (h : MatchReturns thr fill M l) (i j : Nat) (hi : i < M.rows) (hj : j < M.cols)
    (hi' : i ∉ l.map Prod.fst) (hj' : j ∉ l.map Prod.snd) : thr ≤ M.val i j := by
  by_contra hlt
  obtain ⟨p, hp, hor, _⟩ := (matchReturns_greedy h).stable i hi j hj (not_le.mp hlt)
  rcases hor with e | e
  · exact hi' (e ▸ List.mem_map_of_mem hp)
  · exact hj' (e ▸ List.mem_map_of_mem hp)

example : MatchReturns (10 : ℚ) 11 sampleMat [(0, 1), (1, 0)] ∧ (2 : Nat) ∉ [(0, 1), (1, 0)].map Prod.fst :=
  ⟨⟨4, by decide +kernel⟩, by decide⟩

/-! ### C03 -/

/-- **C03** If the stored `threshold + 1` is not below the threshold, the call returns, after at most
`min rows cols` loop rounds, on every matrix. -/
theorem C03_matching_terminates (thr fill : D) (hfill : ¬ fill < thr) (M : Mat D) :
    ∃ l, matchDetsAndObjsFuel (min M.rows M.cols + 1) thr fill M = some l ∧
      MatchReturns thr fill M l ∧ l.length ≤ min M.rows M.cols := by
  obtain ⟨l, hl⟩ := matchDetsAndObjs_isSome thr fill hfill M
  have hr : MatchReturns thr fill M l := ⟨_, hl⟩
  refine ⟨l, hl, hr, ?_⟩
  have g := matchReturns_greedy hr
  have h1 : l.length ≤ M.rows := by
    have := (List.Nodup.subperm g.rowsNodup (l₂ := List.range M.rows) (by
      intro x hx
      obtain ⟨p, hp, rfl⟩ := List.mem_map.mp hx
      exact List.mem_range.mpr (g.inRange p hp).1)).length_le
    simpa using this
  have h2 : l.length ≤ M.cols := by
    have := (List.Nodup.subperm g.colsNodup (l₂ := List.range M.cols) (by
      intro x hx
      obtain ⟨p, hp, rfl⟩ := List.mem_map.mp hx
      exact List.mem_range.mpr (g.inRange p hp).2)).length_le
    simpa using this
  omega

/-- **C03** (result independent of the bound) the value used by the tracker model is the value of the
unbounded loop. -/
theorem C03_returns_unique (thr fill : D) (M : Mat D) (l l' : List (Nat × Nat))
    (h : MatchReturns thr fill M l) (h' : MatchReturns thr fill M l') : l = l' :=
  C02_spec_determines_result _ _ _ _ _ _ (matchReturns_greedy h) (matchReturns_greedy h')

/-- **C03** exact characterisation: the call fails to return exactly if the stored fill value is below
the threshold and some pair can be matched. -/
theorem C03_diverges_iff (thr fill : D) (M : Mat D) :
    MatchDiverges thr fill M ↔
      fill < thr ∧ ∃ i < M.rows, ∃ j < M.cols, M.val i j < thr := by
  constructor
  · intro h
    have hfill : fill < thr := by
      by_contra hf
      obtain ⟨l, hl, _⟩ := C03_matching_terminates thr fill hf M
      rw [h] at hl; cases hl
    refine ⟨hfill, ?_⟩
    by_contra hno
    push Not at hno
    have h1 := h 1
    unfold matchDetsAndObjsFuel at h1
    split at h1
    · rename_i hs
      obtain ⟨hr, hc, hv, _⟩ := M.min_facts hs
      rw [matchLoop_succ, hv, if_neg (not_lt.mpr (hno _ hr _ hc))] at h1
      cases h1
    · cases h1
  · rintro ⟨hfill, i, hi, j, hj, hij⟩ fuel
    have hs : 0 < M.size := lt_of_le_of_lt (Nat.zero_le _) (Mat.index_lt hi hj)
    unfold matchDetsAndObjsFuel
    rw [if_pos hs]
    apply matchLoop_diverges thr fill hfill fuel M hs
    rcases (M.min_facts hs).2.2.2 i hi j hj with h | ⟨h, _⟩
    · exact lt_trans h hij
    · simp only at h; rw [h]; exact hij

/-- **C03 (partial)** With the float32 matrices that norfair's distances produce, every threshold
between -2^24 - 1 and 2^24 - 1 (about ±16.7 million) terminates on every matrix.  Missing for the full property: large
thresholds, where it is false (`C03_float32_threshold_diverges`). -/
theorem C03_float32_terminates_partial (thr : ℚ) (h1 : -(2 : ℚ) ^ 24 < thr + 1)
    (h2 : thr + 1 < (2 : ℚ) ^ 24) (M : Mat ℚ) :
    ∃ l, MatchReturns thr (fillFloat32 thr) M l ∧ l.length ≤ min M.rows M.cols := by
  obtain ⟨l, _, h, h'⟩ := C03_matching_terminates thr (fillFloat32 thr)
    (not_lt.mpr (le_fillFloat32_of_small h1 h2)) M
  exact ⟨l, h, h'⟩

/-- **C03 (partial)** ... and so does every threshold, of any size, that is itself a float32 number. -/
theorem C03_float32_exact_terminates_partial (thr : ℚ) (h64 : toFloat64 thr = thr)
    (h32 : toFloat32 thr = thr) (M : Mat ℚ) :
    ∃ l, MatchReturns thr (fillFloat32 thr) M l ∧ l.length ≤ min M.rows M.cols := by
  obtain ⟨l, _, h, h'⟩ := C03_matching_terminates thr (fillFloat32 thr)
    (not_lt.mpr (le_fillFloat32_of_exact h64 h32)) M
  exact ⟨l, h, h'⟩

example : -(2 : ℚ) ^ 24 < (100 : ℚ) + 1 ∧ (100 : ℚ) + 1 < (2 : ℚ) ^ 24 := by norm_num
example : toFloat64 1000000000 = 1000000000 ∧ toFloat32 1000000000 = 1000000000 := by
  decide +kernel

/-- **C03 (negation)** the full property is false of the code: with `distance_threshold = 1000000030`
the stored value of `threshold + 1` is `1000000000`, and a single detection at distance 0 from a single
object makes the loop run for ever. -/
theorem C03_float32_threshold_diverges :
    MatchDiverges (1000000030 : ℚ) (fillFloat32 1000000030) ⟨1, 1, fun _ _ => 0⟩ := by
  rw [C03_diverges_iff]
  exact ⟨by decide +kernel, 0, by decide, 0, by decide, by norm_num⟩

/-! ### C04 -/

/-- **C04** If the below-threshold distances are pairwise different, reordering detections (`σ`) and
objects (`τ`) reorders the result accordingly and changes nothing else. -/
theorem C04_matching_order_independent (thr fill : D) (hfill : ¬ fill < thr) (M : Mat D)
    (σ τ : Equiv.Perm Nat) (hσ : ∀ i, σ i < M.rows ↔ i < M.rows) (hτ : ∀ j, τ j < M.cols ↔ j < M.cols)
    (hdist : ∀ i < M.rows, ∀ j < M.cols, ∀ i' < M.rows, ∀ j' < M.cols,
      M.val i j < thr → M.val i j = M.val i' j' → i = i' ∧ j = j')
    (l : List (Nat × Nat)) (h : MatchReturns thr fill M l) :
    MatchReturns thr fill ⟨M.rows, M.cols, fun i j => M.val (σ i) (τ j)⟩
      (l.map (fun p => (σ.symm p.1, τ.symm p.2))) := by
  set N : Mat D := ⟨M.rows, M.cols, fun i j => M.val (σ i) (τ j)⟩ with hN
  obtain ⟨l', hl'⟩ := matchDetsAndObjs_isSome thr fill hfill N
  have hret : MatchReturns thr fill N l' := ⟨_, hl'⟩
  have g := matchReturns_greedy h
  have hs1 : ∀ i, i < M.rows → σ.symm i < M.rows := by
    intro i hi; rw [← hσ]; simpa using hi
  have hs2 : ∀ j, j < M.cols → τ.symm j < M.cols := by
    intro j hj; rw [← hτ]; simpa using hj
  have hpre : ∀ p q : Nat × Nat, p.1 < M.rows → p.2 < M.cols → q.1 < M.rows → q.2 < M.cols →
      M.val p.1 p.2 < thr → Precedes M.cols M.val p q →
      Precedes N.cols N.val (σ.symm p.1, τ.symm p.2) (σ.symm q.1, τ.symm q.2) := by
    intro p q hp1 hp2 hq1 hq2 hlt hpq
    unfold Precedes at hpq ⊢
    simp only [hN, Equiv.apply_symm_apply]
    rcases hpq with h' | ⟨h', _⟩
    · left; exact h'
    · right
      obtain ⟨e1, e2⟩ := hdist _ hp1 _ hp2 _ hq1 _ hq2 hlt h'
      exact ⟨h', by rw [e1, e2]⟩
  have g' : GreedyMatching N.rows N.cols N.val thr (l.map (fun p => (σ.symm p.1, τ.symm p.2))) := by
    refine ⟨?_, ?_, ?_, ?_, ?_, ?_⟩
    · intro p hp
      obtain ⟨q, hq, rfl⟩ := List.mem_map.mp hp
      exact ⟨hs1 _ (g.inRange q hq).1, hs2 _ (g.inRange q hq).2⟩
    · intro p hp
      obtain ⟨q, hq, rfl⟩ := List.mem_map.mp hp
      simpa [hN] using g.below q hq
    · have : (l.map (fun p => (σ.symm p.1, τ.symm p.2))).map Prod.fst
          = (l.map Prod.fst).map σ.symm := by simp [List.map_map, Function.comp_def]
      rw [this]; exact g.rowsNodup.map σ.symm.injective
    · have : (l.map (fun p => (σ.symm p.1, τ.symm p.2))).map Prod.snd
          = (l.map Prod.snd).map τ.symm := by simp [List.map_map, Function.comp_def]
      rw [this]; exact g.colsNodup.map τ.symm.injective
    · rw [List.pairwise_map]
      refine g.sorted.imp_of_mem ?_
      intro p q hp hq hpq
      exact hpre p q (g.inRange p hp).1 (g.inRange p hp).2 (g.inRange q hq).1 (g.inRange q hq).2
        (g.below p hp) hpq
    · intro i hi j hj hij
      have hi' : σ i < M.rows := (hσ i).mpr hi
      have hj' : τ j < M.cols := (hτ j).mpr hj
      obtain ⟨p, hp, hor, hp'⟩ := g.stable (σ i) hi' (τ j) hj' hij
      refine ⟨(σ.symm p.1, τ.symm p.2), List.mem_map_of_mem hp, ?_, ?_⟩
      · rcases hor with e | e
        · left; simp [e]
        · right; simp [e]
      · have := hpre p (σ i, τ j) (g.inRange p hp).1 (g.inRange p hp).2 hi' hj' (g.below p hp) hp'
        simpa using this
  rw [C02_spec_determines_result _ _ _ _ _ _ g' (matchReturns_greedy hret)]
  exact hret

/-- a matrix with distinct entries, and its image under swapping both detections -/
example : MatchReturns (10 : ℚ) 11 ⟨2, 2, fun i j => (3 * i + j + 1 : ℚ)⟩ [(0, 0), (1, 1)] ∧
    MatchReturns (10 : ℚ) 11
      ⟨2, 2, fun i j => (3 * ((Equiv.swap 0 1 : Equiv.Perm Nat) i : ℚ) + j + 1)⟩ [(1, 0), (0, 1)] :=
  ⟨⟨3, by decide +kernel⟩, ⟨3, by decide +kernel⟩⟩

/-- Ties do depend on the order: the hypothesis of C04 is needed. -/
example : ∃ M : Mat ℚ, MatchReturns (10 : ℚ) 11 M [(0, 0)] ∧
    MatchReturns (10 : ℚ) 11 ⟨M.rows, M.cols, fun i j => M.val ((Equiv.swap 0 1 : Equiv.Perm Nat) i) j⟩ [(0, 0)] :=
  ⟨⟨2, 1, fun _ _ => 1⟩, ⟨3, by decide +kernel⟩, ⟨3, by decide +kernel⟩⟩

end Norfair.Props
