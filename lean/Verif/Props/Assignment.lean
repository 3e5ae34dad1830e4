import Verif.Props.Matching
import Verif.Props.TrackerRounds
import Verif.Spec.Assignment
import Mathlib.Algebra.BigOperators.Group.Finset.Basic
import Mathlib.Algebra.Order.BigOperators.Group.Finset
import Mathlib.Algebra.Order.Ring.Rat
import Mathlib.Tactic.Linarith
import Mathlib.Tactic.Ring

/-! C101: greedy matching compared with all other assignments. -/

namespace Norfair.Props

open Norfair Norfair.Spec

open Finset in
/-- Each pair of `S` has a pair of `L` in its row or column that weighs at least as much: then `S` weighs at most twice as
much as `L`. -/
theorem weight_le {W : Type} [AddCommMonoid W] [LinearOrder W] [IsOrderedAddMonoid W] (S L : Finset (Nat × Nat))
    (w : Nat × Nat → W) (h0 : ∀ p ∈ L, 0 ≤ w p) (hr : ∀ q ∈ S, ∀ q' ∈ S, q.1 = q'.1 → q = q')
    (hc : ∀ q ∈ S, ∀ q' ∈ S, q.2 = q'.2 → q = q')
    (h : ∀ q ∈ S, ∃ p ∈ L, (p.1 = q.1 ∨ p.2 = q.2) ∧ w q ≤ w p) : ∑ q ∈ S, w q ≤ 2 • ∑ p ∈ L, w p := by
  have hn : ∀ (P : Nat × Nat → Prop) [DecidablePred P] (T : Finset (Nat × Nat)), T ⊆ L →
      0 ≤ ∑ p ∈ T with P p, w p := fun P _ T hT => sum_nonneg fun p hp => h0 p (hT (mem_filter.mp hp).1)
  have h1 : ∀ q ∈ S, w q ≤ (∑ p ∈ L with p.1 = q.1, w p) + ∑ p ∈ L with p.2 = q.2, w p := by
    intro q hq
    obtain ⟨p, hp, e | e, hw⟩ := h q hq
    · have := single_le_sum (f := w) (s := L.filter fun p => p.1 = q.1)
        (fun p hp => h0 p (mem_filter.mp hp).1) (mem_filter.mpr ⟨hp, e⟩)
      exact (hw.trans this).trans (le_add_of_nonneg_right (hn _ L subset_rfl))
    · have := single_le_sum (f := w) (s := L.filter fun p => p.2 = q.2)
        (fun p hp => h0 p (mem_filter.mp hp).1) (mem_filter.mpr ⟨hp, e⟩)
      exact (hw.trans this).trans (le_add_of_nonneg_left (hn _ L subset_rfl))
  have h2 : ∀ (g : Nat × Nat → Nat), (∀ q ∈ S, ∀ q' ∈ S, g q = g q' → q = q') →
      ∑ q ∈ S, ∑ p ∈ L with g p = g q, w p ≤ ∑ p ∈ L, w p := by
    intro g hg
    simp only [sum_filter]
    rw [sum_comm]
    refine sum_le_sum fun p hp => ?_
    by_cases he : ∃ q ∈ S, g p = g q
    · obtain ⟨q, hq, e⟩ := he
      rw [sum_eq_single_of_mem q hq]
      · rw [if_pos e]
      · intro q' hq' hne
        exact if_neg fun e' => hne (hg _ hq' _ hq (e'.symm.trans e))
    · rw [sum_eq_zero fun q hq => if_neg fun e => he ⟨q, hq, e⟩]
      exact h0 p hp
  calc ∑ q ∈ S, w q ≤ ∑ q ∈ S, ((∑ p ∈ L with p.1 = q.1, w p) + ∑ p ∈ L with p.2 = q.2, w p) := sum_le_sum h1
    _ = _ := sum_add_distrib
    _ ≤ ∑ p ∈ L, w p + ∑ p ∈ L, w p := add_le_add (h2 Prod.fst hr) (h2 Prod.snd hc)
    _ = _ := (two_nsmul _).symm

section
variable {D : Type} [LinearOrder D]

theorem greedy_half {rows cols : Nat} {d : Nat → Nat → D} {thr : D} {l : List (Nat × Nat)}
    (g : GreedyMatching rows cols d thr l) (t : D) (ht : t ≤ thr) (S : Finset (Nat × Nat))
    (hS : Assignment rows cols d t S) : S.card ≤ 2 * (l.filter fun p => d p.1 p.2 < t).length := by
  have hl : (l.filter fun p => d p.1 p.2 < t).Nodup := (List.Nodup.of_map _ g.rowsNodup).filter _
  have := weight_le S (l.filter fun p => d p.1 p.2 < t).toFinset (fun _ => (1 : Nat)) (fun _ _ => Nat.zero_le _)
    hS.sameRow hS.sameCol (by
      intro q hq
      obtain ⟨p, hp, hor, hpre⟩ := g.stable q.1 (hS.inRange q hq).1 q.2 (hS.inRange q hq).2
        ((hS.below q hq).trans_le ht)
      refine ⟨p, ?_, hor, le_rfl⟩
      rw [List.mem_toFinset, List.mem_filter]
      refine ⟨hp, decide_eq_true ?_⟩
      rcases hpre with e | ⟨e, _⟩
      · exact e.trans (hS.below q hq)
      · exact e ▸ hS.below q hq)
  rw [Finset.sum_const, Finset.sum_const, List.toFinset_card_of_nodup hl] at this
  simpa using this

/-- **C101** (how many) For every distance `t` up to the threshold, any assignment of detections to objects with
distances below `t` has at most twice as many pairs as the matching has below `t`. In particular no assignment below the
threshold has more than twice as many pairs. -/
theorem C101_half_as_many (thr fill : D) (M : Mat D) (l : List (Nat × Nat)) (h : MatchReturns thr fill M l) (t : D)
    (ht : t ≤ thr) (S : Finset (Nat × Nat)) (hS : Assignment M.rows M.cols M.val t S) :
    S.card ≤ 2 * (l.filter fun p => M.val p.1 p.2 < t).length :=
  greedy_half (matchReturns_greedy h) t ht S hS

/-- **C101** (mutually nearest) If in an assignment below the threshold each detection and its object are nearer to each
other than to any other object or detection, then all its pairs are matched. -/
theorem C101_mutually_nearest (thr fill : D) (M : Mat D) (l : List (Nat × Nat)) (h : MatchReturns thr fill M l)
    (S : Finset (Nat × Nat)) (hS : Assignment M.rows M.cols M.val thr S)
    (hrow : ∀ q ∈ S, ∀ j < M.cols, j ≠ q.2 → M.val q.1 q.2 < M.val q.1 j)
    (hcol : ∀ q ∈ S, ∀ i < M.rows, i ≠ q.1 → M.val q.1 q.2 < M.val i q.2) : ∀ q ∈ S, q ∈ l := by
  intro q hq
  have g := matchReturns_greedy h
  obtain ⟨p, hp, hor, hpre⟩ := g.stable q.1 (hS.inRange q hq).1 q.2 (hS.inRange q hq).2 (hS.below q hq)
  have hle : M.val p.1 p.2 ≤ M.val q.1 q.2 := by
    rcases hpre with e | ⟨e, _⟩
    · exact e.le
    · exact e.le
  have : p = q := by
    by_contra hne
    rcases hor with e | e
    · have hj : p.2 ≠ q.2 := fun e' => hne (Prod.ext e e')
      have := hrow q hq p.2 (g.inRange p hp).2 hj
      rw [← e] at this
      exact absurd hle (not_le.mpr (e ▸ this))
    · have hi : p.1 ≠ q.1 := fun e' => hne (Prod.ext e' e)
      have := hcol q hq p.1 (g.inRange p hp).1 hi
      rw [← e] at this
      exact absurd hle (not_le.mpr (e ▸ this))
  exact this ▸ hp

end

/-- **C101** (how near) Counting for each pair how much its distance is below the threshold, no assignment gains more than
twice as much as the matching. -/
theorem C101_half_the_gain {D : Type} [LinearOrder D] [AddCommGroup D] [IsOrderedAddMonoid D] (thr fill : D) (M : Mat D)
    (l : List (Nat × Nat)) (h : MatchReturns thr fill M l) (S : Finset (Nat × Nat))
    (hS : Assignment M.rows M.cols M.val thr S) :
    ∑ q ∈ S, (thr - M.val q.1 q.2) ≤ 2 • (l.map fun p => thr - M.val p.1 p.2).sum := by
  have g := matchReturns_greedy h
  have hl : l.Nodup := List.Nodup.of_map _ g.rowsNodup
  rw [← List.sum_toFinset _ hl]
  refine weight_le S l.toFinset _ ?_ hS.sameRow hS.sameCol ?_
  · intro p hp
    exact sub_nonneg.mpr (g.below p (List.mem_toFinset.mp hp)).le
  · intro q hq
    obtain ⟨p, hp, hor, hpre⟩ := g.stable q.1 (hS.inRange q hq).1 q.2 (hS.inRange q hq).2 (hS.below q hq)
    refine ⟨p, List.mem_toFinset.mpr hp, hor, sub_le_sub_left ?_ _⟩
    rcases hpre with e | ⟨e, _⟩
    · exact e.le
    · exact e.le

/-- **C101** (a call) In every call of `update` (scalar distance), if `n` initialized objects could be given detections of
their own at distances below the threshold, then at least `n / 2` of them are matched. -/
theorem C101_call {K L D F X : Type} [LinearOrder K] [Zero K] [LinearOrder D] [OrderTop D] [Zero D] [DecidableEq L]
    {cfg : Cfg K L D F X} {f} (hf : cfg.dist = .scalar f)
    {w w' : World K L D F X} (hw : Reachable cfg w) {dets : Option (List Ref)} {period : Int}
    {ct : Option (CoordTrans K)} {act : List (Obj K L D F)} (h : update cfg w dets period ct = (w', .ok act))
    (S : Finset (Nat × Nat)) (hr : ∀ q ∈ S, ∀ q' ∈ S, q.1 = q'.1 → q = q') (hc : ∀ q ∈ S, ∀ q' ∈ S, q.2 = q'.2 → q = q')
    (hS : ∀ q ∈ S, ∃ r o, (dets.getD [])[q.1]? = some r ∧ (compared cfg ct w.objs false)[q.2]? = some o ∧
      ∀ x, ScalarDist f (startHeap w dets ct r) ⟨o, startHeap w dets ct o.lastDet, o.past.map (startHeap w dets ct)⟩ x →
        x < cfg.thr) :
    ∃ pairs : List (Nat × Nat), S.card ≤ 2 * pairs.length ∧ (pairs.map Prod.fst).Nodup ∧ (pairs.map Prod.snd).Nodup ∧
      ∀ p ∈ pairs, ∃ r o, (dets.getD [])[p.1]? = some r ∧ (compared cfg ct w.objs false)[p.2]? = some o ∧
        ∀ o' ∈ w'.objs, o'.initId = o.initId → o'.lastDet = r := by
  obtain ⟨h1, d1, d2, pairs1, pairs2, rest1, rest2, _, R, _⟩ := C64_two_greedy_rounds hf hw h
  refine ⟨pairs1, ?_, R.greedy.rowsNodup, R.greedy.colsNodup, fun p hp => ?_⟩
  · have := greedy_half R.greedy cfg.thr le_rfl S ⟨?_, ?_, hr, hc⟩
    · exact this.trans (Nat.mul_le_mul_left _ (List.length_filter_le _ _))
    · intro q hq
      obtain ⟨r, o, e1, e2, _⟩ := hS q hq
      exact ⟨(List.getElem?_eq_some_iff.mp e1).1, (List.getElem?_eq_some_iff.mp e2).1⟩
    · intro q hq
      obtain ⟨r, o, e1, e2, e3⟩ := hS q hq
      exact e3 _ (R.dist _ _ _ _ e1 e2)
  · obtain ⟨r, o, e1, e2, e3⟩ := R.outcome p hp
    exact ⟨r, o, e1, e2, fun o' h1 h2 => (e3 o' h1 h2).1⟩

/-- the returned list of a matrix, from the specification of C02 -/
theorem returns_of_greedy {D : Type} [LinearOrder D] (thr fill : D) (hfill : ¬ fill < thr) (M : Mat D)
    (l : List (Nat × Nat)) (h : GreedyMatching M.rows M.cols M.val thr l) : MatchReturns thr fill M l := by
  obtain ⟨l', _, h', _⟩ := C03_matching_terminates thr fill hfill M
  exact C02_spec_determines_result _ _ _ _ _ _ h (matchReturns_greedy h') ▸ h'

/-- blocks `[[1, 2], [2, 10]]` along the diagonal -/
def blocks (n : Nat) : Mat ℚ :=
  ⟨2 * n, 2 * n, fun i j => if i / 2 = j / 2 then (if i % 2 = 0 ∧ j % 2 = 0 then 1 else if i % 2 = 1 ∧ j % 2 = 1 then 10 else 2)
    else 10⟩

/-- **C101** (not better) The bound is attained, for any number of objects: `n` pairs are matched where `2 n` could be,
with distances at most 2. -/
theorem C101_bound_attained (n : Nat) :
    ∃ l S, MatchReturns (10 : ℚ) 11 (blocks n) l ∧ Assignment (blocks n).rows (blocks n).cols (blocks n).val 10 S ∧
      l.length = n ∧ S.card = 2 * n := by
  refine ⟨(List.range n).map fun k => (2 * k, 2 * k),
    (Finset.range (2 * n)).image fun i => (i, if i % 2 = 0 then i + 1 else i - 1), ?_, ?_, by simp, ?_⟩
  · refine returns_of_greedy _ _ (by norm_num) _ _ ⟨?_, ?_, ?_, ?_, ?_, ?_⟩
    · intro p hp
      obtain ⟨k, hk, rfl⟩ := List.mem_map.mp hp
      have := List.mem_range.mp hk
      simp only [blocks]
      omega
    · intro p hp
      obtain ⟨k, hk, rfl⟩ := List.mem_map.mp hp
      simp only [blocks, Nat.mul_mod_right, and_self, if_true]
      norm_num
    · rw [List.map_map]
      exact List.Nodup.map (fun a b h => by simp only [Function.comp] at h; omega) List.nodup_range
    · rw [List.map_map]
      exact List.Nodup.map (fun a b h => by simp only [Function.comp] at h; omega) List.nodup_range
    · rw [List.pairwise_map]
      refine List.pairwise_lt_range.imp ?_
      intro a b hab
      refine .inr ⟨by simp only [blocks, Nat.mul_mod_right, and_self, if_true], ?_⟩
      simp only [blocks]
      have : 2 * a * (2 * n) ≤ 2 * b * (2 * n) := Nat.mul_le_mul_right _ (by omega)
      omega
    · intro i hi j hj hlt
      simp only [blocks] at hi hj hlt
      have e : i / 2 = j / 2 := by
        by_contra e
        rw [if_neg e] at hlt
        exact lt_irrefl _ hlt
      rw [if_pos e] at hlt
      refine ⟨(2 * (i / 2), 2 * (i / 2)), List.mem_map.mpr ⟨i / 2, List.mem_range.mpr (by omega), rfl⟩, ?_, ?_⟩
      · by_contra hno
        rw [if_neg (by omega), if_pos (by omega)] at hlt
        exact lt_irrefl _ hlt
      · simp only [Precedes, blocks, Nat.mul_mod_right, and_self, if_true, if_pos e]
        split_ifs with h1 h2
        · right
          refine ⟨rfl, ?_⟩
          have e1 : 2 * (i / 2) = i := by omega
          have e2 : j = i := by omega
          rw [e1, e2]
        · left; norm_num
        · left; norm_num
  · refine ⟨?_, ?_, ?_, ?_⟩
    · intro q hq
      obtain ⟨i, hi, rfl⟩ := Finset.mem_image.mp hq
      have := Finset.mem_range.mp hi
      simp only [blocks]
      split_ifs <;> omega
    · intro q hq
      obtain ⟨i, hi, rfl⟩ := Finset.mem_image.mp hq
      simp only [blocks]
      rcases Nat.mod_two_eq_zero_or_one i with h | h
      · rw [if_pos h, if_pos (by omega), if_neg (by omega), if_neg (by omega)]
        norm_num
      · rw [if_neg (by omega : ¬ i % 2 = 0), if_pos (by omega), if_neg (by omega), if_neg (by omega)]
        norm_num
    · intro q hq q' hq' e
      obtain ⟨i, _, rfl⟩ := Finset.mem_image.mp hq
      obtain ⟨j, _, rfl⟩ := Finset.mem_image.mp hq'
      simp only at e
      rw [e]
    · intro q hq q' hq' e
      obtain ⟨i, _, rfl⟩ := Finset.mem_image.mp hq
      obtain ⟨j, _, rfl⟩ := Finset.mem_image.mp hq'
      have : i = j := by
        simp only at e
        split_ifs at e <;> omega
      rw [this]
  · rw [Finset.card_image_of_injective _ fun a b h => (Prod.mk.inj h).1, Finset.card_range]

/-- the distances `1 2` and `2 c` -/
def detour (c : ℚ) : Mat ℚ := ⟨2, 2, fun i j => if i = 0 ∧ j = 0 then 1 else if i = 1 ∧ j = 1 then c else 2⟩

/-- **C101** (not the smallest sum) The sum of the distances is not bounded by the smallest one: with the same number of
pairs it is `1 + c` instead of 4, for any `c` from 2 on that is below the threshold. -/
theorem C101_sum_unbounded (c thr : ℚ) (hc : 2 ≤ c) (ht : c < thr) :
    MatchReturns thr (thr + 1) (detour c) [(0, 0), (1, 1)] ∧
    Assignment 2 2 (detour c).val thr {(0, 1), (1, 0)} ∧
    ([(0, 0), (1, 1)].map fun p => (detour c).val p.1 p.2).sum = 1 + c ∧
    (∑ q ∈ ({(0, 1), (1, 0)} : Finset (Nat × Nat)), (detour c).val q.1 q.2) = 4 := by
  refine ⟨returns_of_greedy _ _ (by linarith) _ _ ⟨by simp [detour], ?_, by decide, by decide, ?_, ?_⟩, ⟨by decide, ?_, by decide,
    by decide⟩, ?_, ?_⟩
  · intro p hp
    simp only [List.mem_cons, List.not_mem_nil, or_false] at hp
    rcases hp with rfl | rfl <;> simp [detour] <;> linarith
  · simp only [List.pairwise_cons, List.mem_cons, List.not_mem_nil, or_false, forall_eq, Precedes, detour]
    refine ⟨.inl ?_, by simp⟩
    simp
    linarith
  · intro i hi j hj _
    simp only [detour] at hi hj
    refine ⟨(if i = 0 ∨ j = 0 then (0, 0) else (1, 1)), ?_, ?_, ?_⟩
    · split_ifs <;> simp
    · split_ifs with h <;> simp <;> omega
    · interval_cases i <;> interval_cases j <;> simp [Precedes, detour]
  · intro q hq
    simp only [Finset.mem_insert, Finset.mem_singleton] at hq
    rcases hq with rfl | rfl <;> simp [detour] <;> linarith
  · simp [detour]
  · simp [detour]
    norm_num

/-- C101: a matching of two pairs; `{(0, 1), (2, 0)}` is another assignment below the threshold -/
example : MatchReturns (10 : ℚ) 11 sampleMat [(0, 1), (1, 0)] ∧
    Assignment sampleMat.rows sampleMat.cols sampleMat.val 10 {(0, 1), (2, 0)} := by
  refine ⟨⟨4, by decide +kernel⟩, ⟨by decide +kernel, by decide +kernel, by decide +kernel, by decide +kernel⟩⟩

/-- C101: mutually nearest pairs -/
example : Assignment 2 2 (fun i j => if i = j then 1 else 3 + i : Nat → Nat → Nat) 5 {(0, 0), (1, 1)} ∧
    (∀ q ∈ ({(0, 0), (1, 1)} : Finset (Nat × Nat)), ∀ j < 2, j ≠ q.2 →
      (if q.1 = q.2 then 1 else 3 + q.1) < if q.1 = j then 1 else 3 + q.1) := by
  refine ⟨⟨by decide +kernel, by decide +kernel, by decide +kernel, by decide +kernel⟩, by decide +kernel⟩

open Norfair.Toy in
/-- C101: objects at 0 and 9, detections at 8 and 17; both could be matched, one is -/
example : (∀ q ∈ ({(0, 0), (1, 1)} : Finset (Nat × Nat)), ∃ r o, ([8, 17] : List Ref)[q.1]? = some r ∧
      (compared cfg none (run cfg w0 [[0, 9], [0, 9]]).objs false)[q.2]? = some o ∧
      ∀ x, ScalarDist dist (startHeap (run cfg w0 [[0, 9], [0, 9]]) (some [8, 17]) none r)
        ⟨o, startHeap (run cfg w0 [[0, 9], [0, 9]]) (some [8, 17]) none o.lastDet,
          o.past.map (startHeap (run cfg w0 [[0, 9], [0, 9]]) (some [8, 17]) none)⟩ x → x < cfg.thr) ∧
    (update cfg (run cfg w0 [[0, 9], [0, 9]]) (some [8, 17]) 1 none).1.objs.map (fun o => (o.id, o.lastDet)) =
      [(some 1, 0), (some 2, 8), (none, 17)] := by
  refine ⟨?_, by decide +kernel⟩
  have hx : ∀ (r : Ref) (o : TObj), (startHeap (run cfg w0 [[0, 9], [0, 9]]) (some [8, 17]) none r).label = o.label →
      (∃ y, dist (startHeap (run cfg w0 [[0, 9], [0, 9]]) (some [8, 17]) none r)
        ⟨o, startHeap (run cfg w0 [[0, 9], [0, 9]]) (some [8, 17]) none o.lastDet,
          o.past.map (startHeap (run cfg w0 [[0, 9], [0, 9]]) (some [8, 17]) none)⟩ = some (some y) ∧ y < 10) →
      ∀ x, ScalarDist dist (startHeap (run cfg w0 [[0, 9], [0, 9]]) (some [8, 17]) none r)
        ⟨o, startHeap (run cfg w0 [[0, 9], [0, 9]]) (some [8, 17]) none o.lastDet,
          o.past.map (startHeap (run cfg w0 [[0, 9], [0, 9]]) (some [8, 17]) none)⟩ x → x < 10 := by
    rintro r o hl ⟨y, hy, hlt⟩ x (⟨_, e⟩ | ⟨e, _⟩)
    · rw [hy] at e
      cases e
      exact hlt
    · exact absurd hl e
  intro q hq
  simp only [Finset.mem_insert, Finset.mem_singleton] at hq
  rcases hq with rfl | rfl
  · exact ⟨8, (compared cfg none (run cfg w0 [[0, 9], [0, 9]]).objs false)[0]'(by decide +kernel), by decide +kernel, by
      rw [List.getElem?_eq_getElem], hx _ _ (by decide +kernel) ⟨8, by decide +kernel, by decide +kernel⟩⟩
  · exact ⟨17, (compared cfg none (run cfg w0 [[0, 9], [0, 9]]).objs false)[1]'(by decide +kernel), by decide +kernel, by
      rw [List.getElem?_eq_getElem], hx _ _ (by decide +kernel) ⟨8, by decide +kernel, by decide +kernel⟩⟩

end Norfair.Props
