import Verif.Model.Matching
import Verif.Spec.Matching
import Mathlib.Data.Finset.Card
import Mathlib.Data.Finset.Range
import Mathlib.Tactic.Ring
import Mathlib.Tactic.Push

namespace Norfair

open Spec

variable {D : Type} [LinearOrder D]

theorem argmin_spec (f : Nat → D) : ∀ n, 0 < n →
    argmin f n < n ∧ ∀ k < n, f (argmin f n) < f k ∨ (f (argmin f n) = f k ∧ argmin f n ≤ k) := by
  intro n
  induction n with
  | zero => intro h; omega
  | succ n ih =>
    intro _
    by_cases hn : n = 0
    · subst hn
      refine ⟨by simp [argmin], ?_⟩
      intro k hk
      have : k = 0 := by omega
      subst this
      right; simp [argmin]
    · obtain ⟨h1, h2⟩ := ih (by omega)
      by_cases hlt : f n < f (argmin f n)
      · have e : argmin f (n + 1) = n := by simp [argmin, hn, hlt]
        rw [e]
        refine ⟨by omega, ?_⟩
        intro k hk
        by_cases hkn : k = n
        · subst hkn; right; exact ⟨rfl, le_refl _⟩
        · left
          rcases h2 k (by omega) with h | ⟨h, _⟩
          · exact lt_trans hlt h
          · rw [← h]; exact hlt
      · have e : argmin f (n + 1) = argmin f n := by simp [argmin, hn, hlt]
        rw [e]
        refine ⟨by omega, ?_⟩
        intro k hk
        by_cases hkn : k = n
        · subst hkn
          rcases lt_or_eq_of_le (not_lt.mp hlt) with h | h
          · left; exact h
          · right; exact ⟨h, by omega⟩
        · exact h2 k (by omega)

namespace Mat

theorem flat_pair {α : Type} (M : Mat α) {a b : Nat} (hb : b < M.cols) :
    M.flat (a * M.cols + b) = M.val a b := by
  unfold flat
  rw [Nat.mul_comm, Nat.mul_add_div (by omega), Nat.mul_add_mod]
  rw [Nat.div_eq_of_lt hb, Nat.mod_eq_of_lt hb, Nat.add_zero]

theorem index_lt {rows cols a b : Nat} (ha : a < rows) (hb : b < cols) :
    a * cols + b < rows * cols := by
  calc a * cols + b < a * cols + cols := by omega
    _ = (a + 1) * cols := by ring
    _ ≤ rows * cols := Nat.mul_le_mul_right _ ha

@[simp] theorem blank_rows {α : Type} (M : Mat α) (i j : Nat) (v : α) :
    (M.blank i j v).rows = M.rows := rfl
@[simp] theorem blank_cols {α : Type} (M : Mat α) (i j : Nat) (v : α) :
    (M.blank i j v).cols = M.cols := rfl
@[simp] theorem blank_size {α : Type} (M : Mat α) (i j : Nat) (v : α) :
    (M.blank i j v).size = M.size := rfl

theorem blank_val {α : Type} (M : Mat α) (i j : Nat) (v : α) (a b : Nat) :
    (M.blank i j v).val a b = if a = i ∨ b = j then v else M.val a b := rfl

/-- row and column of the minimum -/
def minRow (M : Mat D) : Nat := argmin M.flat M.size / M.cols
def minCol (M : Mat D) : Nat := argmin M.flat M.size % M.cols

theorem min_facts (M : Mat D) (h : 0 < M.size) :
    M.minRow < M.rows ∧ M.minCol < M.cols ∧
    M.flat (argmin M.flat M.size) = M.val M.minRow M.minCol ∧
    ∀ a < M.rows, ∀ b < M.cols, Precedes M.cols M.val (M.minRow, M.minCol) (a, b) := by
  have hc : 0 < M.cols := by
    rcases Nat.eq_zero_or_pos M.cols with h0 | h0
    · simp [size, h0] at h
    · exact h0
  obtain ⟨h1, h2⟩ := argmin_spec M.flat M.size h
  have e : M.minRow * M.cols + M.minCol = argmin M.flat M.size := by
    unfold minRow minCol; exact Nat.div_add_mod' _ _
  refine ⟨?_, Nat.mod_lt _ hc, rfl, ?_⟩
  · unfold minRow
    exact Nat.div_lt_of_lt_mul (by rw [Nat.mul_comm]; exact h1)
  · intro a ha b hb
    have := h2 (a * M.cols + b) (index_lt ha hb)
    rw [flat_pair M hb] at this
    unfold Precedes
    simp only [e]
    exact this

end Mat

theorem matchLoop_succ (thr fill : D) (fuel : Nat) (M : Mat D) :
    matchLoop thr fill (fuel + 1) M =
      if M.flat (argmin M.flat M.size) < thr then
        (matchLoop thr fill fuel (M.blank M.minRow M.minCol fill)).map
          (fun l => (M.minRow, M.minCol) :: l)
      else some [] := rfl

/-- The main correctness statement about the loop. -/
theorem matchLoop_greedy (thr fill : D) (hfill : ¬ fill < thr) :
    ∀ (fuel : Nat) (M : Mat D) (l : List (Nat × Nat)), 0 < M.size →
      matchLoop thr fill fuel M = some l → GreedyMatching M.rows M.cols M.val thr l := by
  intro fuel
  induction fuel with
  | zero => intro M l _ h; simp [matchLoop] at h
  | succ fuel ih =>
    intro M l hs h
    rw [matchLoop_succ] at h
    obtain ⟨hr, hc, hv, hp⟩ := M.min_facts hs
    split at h
    · rename_i hlt
      rw [hv] at hlt
      obtain ⟨l', hl', rfl⟩ := Option.map_eq_some_iff.mp h
      have g := ih _ l' (by simpa using hs) hl'
      -- entries of `l'` avoid the blanked row and column
      have avoid : ∀ p ∈ l', p.1 ≠ M.minRow ∧ p.2 ≠ M.minCol := by
        intro p hp'
        have hb := g.below p hp'
        rw [Mat.blank_val] at hb
        constructor
        · intro e; apply hfill; simpa [e] using hb
        · intro e; apply hfill; simpa [e] using hb
      have same : ∀ a b, a ≠ M.minRow → b ≠ M.minCol →
          (M.blank M.minRow M.minCol fill).val a b = M.val a b := by
        intro a b ha hb; rw [Mat.blank_val]; simp [ha, hb]
      have samep : ∀ p ∈ l', (M.blank M.minRow M.minCol fill).val p.1 p.2 = M.val p.1 p.2 :=
        fun p hp' => same _ _ (avoid p hp').1 (avoid p hp').2
      refine ⟨?_, ?_, ?_, ?_, ?_, ?_⟩
      · intro p hp'
        rcases List.mem_cons.mp hp' with rfl | hp'
        · exact ⟨hr, hc⟩
        · simpa using g.inRange p hp'
      · intro p hp'
        rcases List.mem_cons.mp hp' with rfl | hp'
        · exact hlt
        · rw [← samep p hp']; exact g.below p hp'
      · rw [List.map_cons, List.nodup_cons]
        refine ⟨?_, g.rowsNodup⟩
        intro hm
        obtain ⟨p, hp', e⟩ := List.mem_map.mp hm
        exact (avoid p hp').1 e
      · rw [List.map_cons, List.nodup_cons]
        refine ⟨?_, g.colsNodup⟩
        intro hm
        obtain ⟨p, hp', e⟩ := List.mem_map.mp hm
        exact (avoid p hp').2 e
      · rw [List.pairwise_cons]
        refine ⟨?_, ?_⟩
        · intro p hp'
          have := g.inRange p hp'
          exact hp p.1 (by simpa using this.1) p.2 (by simpa using this.2)
        · refine g.sorted.imp_of_mem ?_
          intro p q hp' hq' hpq
          unfold Precedes at hpq ⊢
          rw [samep p hp', samep q hq'] at hpq
          simpa using hpq
      · intro a ha b hb hab
        by_cases hblk : a = M.minRow ∨ b = M.minCol
        · refine ⟨(M.minRow, M.minCol), by simp, ?_, hp a ha b hb⟩
          rcases hblk with e | e
          · left; exact e.symm
          · right; exact e.symm
        · push Not at hblk
          have hs' := same a b hblk.1 hblk.2
          obtain ⟨p, hp', hor, hpre⟩ := g.stable a (by simpa using ha) b (by simpa using hb)
            (by rw [hs']; exact hab)
          refine ⟨p, List.mem_cons_of_mem _ hp', hor, ?_⟩
          unfold Precedes at hpre ⊢
          rw [samep p hp'] at hpre
          simp only [hs'] at hpre
          simpa using hpre
    · rename_i hlt
      rw [hv] at hlt
      have : l = [] := by simpa using h.symm
      subst this
      refine ⟨by simp, by simp, by simp, by simp, by simp, ?_⟩
      intro a ha b hb hab
      exfalso
      rcases hp a ha b hb with h' | ⟨h', _⟩
      · exact hlt (lt_trans h' hab)
      · simp only at h'; rw [← h'] at hab; exact hlt hab

/-- More fuel does not change the result. -/
theorem matchLoop_mono (thr fill : D) :
    ∀ (fuel fuel' : Nat) (M : Mat D) (l : List (Nat × Nat)), fuel ≤ fuel' →
      matchLoop thr fill fuel M = some l → matchLoop thr fill fuel' M = some l := by
  intro fuel
  induction fuel with
  | zero => intro _ M l _ h; simp [matchLoop] at h
  | succ fuel ih =>
    intro fuel' M l hle h
    obtain ⟨f, rfl⟩ : ∃ f, fuel' = f + 1 := ⟨fuel' - 1, by omega⟩
    rw [matchLoop_succ] at h ⊢
    split at h
    · rename_i hlt
      rw [if_pos hlt]
      obtain ⟨l', hl', rfl⟩ := Option.map_eq_some_iff.mp h
      rw [ih f _ l' (by omega) hl']
      rfl
    · rename_i hlt
      rw [if_neg hlt]; exact h

/-- rows that still hold a matchable entry -/
def liveRows (thr : D) (M : Mat D) : Finset Nat :=
  (Finset.range M.rows).filter (fun a => ∃ b ∈ Finset.range M.cols, M.val a b < thr)

/-- columns that still hold a matchable entry -/
def liveCols (thr : D) (M : Mat D) : Finset Nat :=
  (Finset.range M.cols).filter (fun b => ∃ a ∈ Finset.range M.rows, M.val a b < thr)

theorem liveRows_blank (thr fill : D) (hfill : ¬ fill < thr) (M : Mat D) (hs : 0 < M.size)
    (hlt : M.val M.minRow M.minCol < thr) :
    (liveRows thr (M.blank M.minRow M.minCol fill)).card < (liveRows thr M).card := by
  obtain ⟨hr, hc, _, _⟩ := M.min_facts hs
  apply Finset.card_lt_card
  rw [Finset.ssubset_iff_of_subset]
  · refine ⟨M.minRow, ?_, ?_⟩
    · simp only [liveRows, Finset.mem_filter, Finset.mem_range]
      exact ⟨hr, M.minCol, hc, hlt⟩
    · simp only [liveRows, Finset.mem_filter, Finset.mem_range, not_and, not_exists]
      intro _ b hb
      rw [Mat.blank_val]; simpa using hfill
  · intro a
    simp only [liveRows, Finset.mem_filter, Finset.mem_range]
    rintro ⟨ha, b, hb, hab⟩
    refine ⟨ha, b, hb, ?_⟩
    rw [Mat.blank_val] at hab
    split at hab
    · exact absurd hab hfill
    · exact hab

theorem liveCols_blank (thr fill : D) (hfill : ¬ fill < thr) (M : Mat D) (hs : 0 < M.size)
    (hlt : M.val M.minRow M.minCol < thr) :
    (liveCols thr (M.blank M.minRow M.minCol fill)).card < (liveCols thr M).card := by
  obtain ⟨hr, hc, _, _⟩ := M.min_facts hs
  apply Finset.card_lt_card
  rw [Finset.ssubset_iff_of_subset]
  · refine ⟨M.minCol, ?_, ?_⟩
    · simp only [liveCols, Finset.mem_filter, Finset.mem_range]
      exact ⟨hc, M.minRow, hr, hlt⟩
    · simp only [liveCols, Finset.mem_filter, Finset.mem_range, not_and, not_exists]
      intro _ b hb
      rw [Mat.blank_val]; simpa using hfill
  · intro a
    simp only [liveCols, Finset.mem_filter, Finset.mem_range]
    rintro ⟨ha, b, hb, hab⟩
    refine ⟨ha, b, hb, ?_⟩
    rw [Mat.blank_val] at hab
    split at hab
    · exact absurd hab hfill
    · exact hab

theorem matchLoop_terminates_rows (thr fill : D) (hfill : ¬ fill < thr) :
    ∀ (fuel : Nat) (M : Mat D), 0 < M.size → (liveRows thr M).card < fuel →
      ∃ l, matchLoop thr fill fuel M = some l := by
  intro fuel
  induction fuel with
  | zero => intro M _ h; omega
  | succ fuel ih =>
    intro M hs h
    rw [matchLoop_succ]
    split
    · rename_i hlt
      rw [(M.min_facts hs).2.2.1] at hlt
      obtain ⟨l, hl⟩ := ih (M.blank M.minRow M.minCol fill) (by simpa using hs)
        (by have := liveRows_blank thr fill hfill M hs hlt; omega)
      exact ⟨_, by rw [hl]; rfl⟩
    · exact ⟨_, rfl⟩

theorem matchLoop_terminates_cols (thr fill : D) (hfill : ¬ fill < thr) :
    ∀ (fuel : Nat) (M : Mat D), 0 < M.size → (liveCols thr M).card < fuel →
      ∃ l, matchLoop thr fill fuel M = some l := by
  intro fuel
  induction fuel with
  | zero => intro M _ h; omega
  | succ fuel ih =>
    intro M hs h
    rw [matchLoop_succ]
    split
    · rename_i hlt
      rw [(M.min_facts hs).2.2.1] at hlt
      obtain ⟨l, hl⟩ := ih (M.blank M.minRow M.minCol fill) (by simpa using hs)
        (by have := liveCols_blank thr fill hfill M hs hlt; omega)
      exact ⟨_, by rw [hl]; rfl⟩
    · exact ⟨_, rfl⟩

theorem liveRows_card_le (thr : D) (M : Mat D) : (liveRows thr M).card ≤ M.rows := by
  unfold liveRows
  exact (Finset.card_filter_le _ _).trans (by simp)

theorem liveCols_card_le (thr : D) (M : Mat D) : (liveCols thr M).card ≤ M.cols := by
  unfold liveCols
  exact (Finset.card_filter_le _ _).trans (by simp)

/-- `min rows cols + 1` loop tests are enough. -/
theorem matchDetsAndObjs_isSome (thr fill : D) (hfill : ¬ fill < thr) (M : Mat D) :
    ∃ l, matchDetsAndObjs thr fill M = some l := by
  unfold matchDetsAndObjs matchDetsAndObjsFuel
  split
  · rename_i hs
    rcases Nat.le_total M.rows M.cols with h | h
    · exact matchLoop_terminates_rows thr fill hfill _ M hs
        (by have := liveRows_card_le thr M; omega)
    · exact matchLoop_terminates_cols thr fill hfill _ M hs
        (by have := liveCols_card_le thr M; omega)
  · exact ⟨[], rfl⟩

theorem matchDetsAndObjsFuel_greedy (fuel : Nat) (thr fill : D) (hfill : ¬ fill < thr) (M : Mat D)
    {l : List (Nat × Nat)} (h : matchDetsAndObjsFuel fuel thr fill M = some l) :
    GreedyMatching M.rows M.cols M.val thr l := by
  unfold matchDetsAndObjsFuel at h
  split at h
  · rename_i hs
    exact matchLoop_greedy thr fill hfill _ M l hs h
  · rename_i hs
    have : l = [] := by simpa using h.symm
    subst this
    refine ⟨by simp, by simp, by simp, by simp, by simp, ?_⟩
    intro a ha b hb
    exfalso
    exact hs (lt_of_le_of_lt (Nat.zero_le _) (Mat.index_lt ha hb))

theorem matchDetsAndObjs_greedy (thr fill : D) (hfill : ¬ fill < thr) (M : Mat D)
    {l : List (Nat × Nat)} (h : matchDetsAndObjs thr fill M = some l) :
    GreedyMatching M.rows M.cols M.val thr l :=
  matchDetsAndObjsFuel_greedy _ thr fill hfill M h

/-- If the fill value is itself below the threshold, the loop never ends once entered. -/
theorem matchLoop_diverges (thr fill : D) (hfill : fill < thr) :
    ∀ (fuel : Nat) (M : Mat D), 0 < M.size → M.val M.minRow M.minCol < thr →
      matchLoop thr fill fuel M = none := by
  intro fuel
  induction fuel with
  | zero => intro M _ _; rfl
  | succ fuel ih =>
    intro M hs hlt
    rw [matchLoop_succ]
    have hv := (M.min_facts hs).2.2.1
    rw [if_pos (by rw [hv]; exact hlt)]
    have hs' : 0 < (M.blank M.minRow M.minCol fill).size := by simpa using hs
    rw [ih _ hs' ?_]
    · rfl
    · obtain ⟨hr, hc, _, _⟩ := M.min_facts hs
      obtain ⟨_, _, _, hp'⟩ := (M.blank M.minRow M.minCol fill).min_facts hs'
      have := hp' M.minRow (by simpa using hr) M.minCol (by simpa using hc)
      have e : (M.blank M.minRow M.minCol fill).val M.minRow M.minCol = fill := by
        rw [Mat.blank_val]; simp
      rcases this with h | ⟨h, _⟩
      · simp only at h; rw [e] at h; exact lt_trans h hfill
      · simp only at h; rw [e] at h; rw [h]; exact hfill

/-- whatever the call returns is a greedy matching -/
theorem matchReturns_greedy {thr fill : D} {M : Mat D} {l : List (Nat × Nat)}
    (h : MatchReturns thr fill M l) : GreedyMatching M.rows M.cols M.val thr l := by
  obtain ⟨fuel, h⟩ := h
  by_cases hfill : fill < thr
  · by_cases hs : 0 < M.size
    · by_cases hlt : M.val M.minRow M.minCol < thr
      · simp only [matchDetsAndObjsFuel, if_pos hs,
          matchLoop_diverges thr fill hfill fuel M hs hlt] at h
        cases h
      · -- nothing is below the threshold: the loop body is never entered
        cases fuel with
        | zero => simp [matchDetsAndObjsFuel, hs, matchLoop] at h
        | succ fuel =>
          simp only [matchDetsAndObjsFuel, if_pos hs, matchLoop_succ] at h
          rw [(M.min_facts hs).2.2.1, if_neg hlt] at h
          have : l = [] := by simpa using h.symm
          subst this
          refine ⟨by simp, by simp, by simp, by simp, by simp, ?_⟩
          intro a ha b hb hab
          exfalso
          rcases (M.min_facts hs).2.2.2 a ha b hb with h' | ⟨h', _⟩
          · exact hlt (lt_trans h' hab)
          · simp only at h'; rw [← h'] at hab; exact hlt hab
    · simp only [matchDetsAndObjsFuel, if_neg hs] at h
      have : l = [] := by simpa using h.symm
      subst this
      refine ⟨by simp, by simp, by simp, by simp, by simp, ?_⟩
      intro a ha b hb
      exact absurd (lt_of_le_of_lt (Nat.zero_le _) (Mat.index_lt ha hb)) hs
  · exact matchDetsAndObjsFuel_greedy fuel thr fill hfill M h

/-! ### uniqueness of greedy matchings -/

theorem precedes_total (cols : Nat) (d : Nat → Nat → D) (p q : Nat × Nat) :
    Precedes cols d p q ∨ Precedes cols d q p := by
  unfold Precedes
  rcases lt_trichotomy (d p.1 p.2) (d q.1 q.2) with h | h | h
  · left; left; exact h
  · rcases Nat.le_total (p.1 * cols + p.2) (q.1 * cols + q.2) with h' | h'
    · left; right; exact ⟨h, h'⟩
    · right; right; exact ⟨h.symm, h'⟩
  · right; left; exact h

theorem precedes_trans {cols : Nat} {d : Nat → Nat → D} {p q r : Nat × Nat}
    (h1 : Precedes cols d p q) (h2 : Precedes cols d q r) : Precedes cols d p r := by
  unfold Precedes at *
  rcases h1 with h1 | ⟨h1, h1'⟩ <;> rcases h2 with h2 | ⟨h2, h2'⟩
  · left; exact lt_trans h1 h2
  · left; rw [← h2]; exact h1
  · left; rw [h1]; exact h2
  · right; exact ⟨h1.trans h2, by omega⟩

theorem precedes_antisymm {cols : Nat} {d : Nat → Nat → D} {p q : Nat × Nat}
    (hp : p.2 < cols) (hq : q.2 < cols)
    (h1 : Precedes cols d p q) (h2 : Precedes cols d q p) : p = q := by
  unfold Precedes at *
  have e : p.1 * cols + p.2 = q.1 * cols + q.2 := by
    rcases h1 with h1 | ⟨h1, h1'⟩ <;> rcases h2 with h2 | ⟨h2, h2'⟩
    · exact absurd h2 (not_lt_of_gt h1)
    · rw [h2] at h1; exact absurd h1 (lt_irrefl _)
    · rw [h1] at h2; exact absurd h2 (lt_irrefl _)
    · omega
  have h1 : p.1 = q.1 := by
    have := congrArg (· / cols) e
    simp only [Nat.mul_comm _ cols, Nat.mul_add_div (by omega : cols > 0),
      Nat.div_eq_of_lt hp, Nat.div_eq_of_lt hq] at this
    omega
  have h2 : p.2 = q.2 := by rw [h1] at e; omega
  exact Prod.ext h1 h2

/-- A greedy matching is determined by the matrix and the threshold. -/
theorem greedy_unique {thr : D} :
    ∀ (l l' : List (Nat × Nat)) (rows cols : Nat) (d : Nat → Nat → D) (S : List (Nat × Nat)),
      GreedyMatching rows cols d thr (S ++ l) → GreedyMatching rows cols d thr (S ++ l') →
      l = l' := by
  -- two matchings which agree on a prefix agree on the next element
  have key : ∀ (x : Nat × Nat) (l l' S : List (Nat × Nat)) (rows cols : Nat) (d : Nat → Nat → D),
      GreedyMatching rows cols d thr (S ++ x :: l) → GreedyMatching rows cols d thr (S ++ l') →
      ∃ y t, l' = y :: t ∧ Precedes cols d y x := by
    intro x l l' S rows cols d g g'
    have hx := g.inRange x (by simp)
    obtain ⟨p, hp, hor, hpre⟩ := g'.stable x.1 hx.1 x.2 hx.2 (g.below x (by simp))
    rcases List.mem_append.mp hp with hpS | hpl
    · exfalso
      have hne : p.1 ≠ x.1 ∧ p.2 ≠ x.2 := by
        constructor
        · intro e
          have := g.rowsNodup
          rw [List.map_append, List.nodup_append] at this
          exact this.2.2 _ (List.mem_map_of_mem hpS) _ (List.mem_map_of_mem List.mem_cons_self) e
        · intro e
          have := g.colsNodup
          rw [List.map_append, List.nodup_append] at this
          exact this.2.2 _ (List.mem_map_of_mem hpS) _ (List.mem_map_of_mem List.mem_cons_self) e
      rcases hor with h | h
      · exact hne.1 h
      · exact hne.2 h
    · cases l' with
      | nil => simp at hpl
      | cons y t =>
        refine ⟨y, t, rfl, ?_⟩
        rcases List.mem_cons.mp hpl with rfl | hpt
        · exact hpre
        · have hs := g'.sorted
          rw [List.pairwise_append] at hs
          exact precedes_trans ((List.pairwise_cons.mp hs.2.1).1 p hpt) hpre
  intro l
  induction l with
  | nil =>
    intro l' rows cols d S g g'
    cases l' with
    | nil => rfl
    | cons y t =>
      obtain ⟨_, _, h, _⟩ := key y t [] S rows cols d g' g
      cases h
  | cons x l ih =>
    intro l' rows cols d S g g'
    obtain ⟨y, t, rfl, hyx⟩ := key x l l' S rows cols d g g'
    obtain ⟨x', t', e, hxy⟩ := key y t (x :: l) S rows cols d g' g
    cases e
    have hx := g.inRange x (by simp)
    have hy := g'.inRange y (by simp)
    have : x = y := precedes_antisymm hx.2 hy.2 hxy hyx
    subst this
    rw [ih t rows cols d (S ++ [x]) (by simpa using g) (by simpa using g')]

end Norfair
