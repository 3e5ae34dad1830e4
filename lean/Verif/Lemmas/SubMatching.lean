import Verif.Lemmas.Matching

/-! Greedy matchings of parts of a matrix. -/

namespace Norfair

open Norfair.Spec

variable {D : Type} [LinearOrder D]

/-- `ρ` and `γ` select some of the rows and columns (in any order) -/
structure Selects (rows cols rows' cols' : Nat) (ρ γ : Nat → Nat) : Prop where
  row : ∀ i < rows', ρ i < rows
  col : ∀ j < cols', γ j < cols
  rowInj : ∀ i < rows', ∀ i' < rows', ρ i = ρ i' → i = i'
  colInj : ∀ j < cols', ∀ j' < cols', γ j = γ j' → j = j'

theorem exists_preimage {α β : Type} (f : α → β) (P : α → Prop) (m : List β) (h : ∀ b ∈ m, ∃ a, P a ∧ f a = b) :
    ∃ l : List α, l.map f = m ∧ ∀ a ∈ l, P a := by
  induction m with
  | nil => exact ⟨[], rfl, by simp⟩
  | cons b m ih =>
    obtain ⟨a, ha, rfl⟩ := h b (by simp)
    obtain ⟨l, rfl, hl⟩ := ih (fun b hb => h b (by simp [hb]))
    exact ⟨a :: l, rfl, by simpa using ⟨ha, hl⟩⟩

theorem greedy_pull {rows cols rows' cols' : Nat} {d d' : Nat → Nat → D} {thr : D} {l : List (Nat × Nat)}
    (g : GreedyMatching rows cols d thr l) {ρ γ : Nat → Nat} (hs : Selects rows cols rows' cols' ρ γ)
    (hd : ∀ i < rows', ∀ j < cols', d' i j = d (ρ i) (γ j)) (sel : Nat → Bool)
    (hsel : ∀ i < rows, sel i = true ↔ ∃ i' < rows', ρ i' = i)
    (hsep : ∀ i < rows, ∀ j < cols, d i j < thr → (sel i = true ↔ ∃ j' < cols', γ j' = j))
    (hpre : ∀ i < rows', ∀ j < cols', ∀ i' < rows', ∀ j' < cols', d (ρ i) (γ j) < thr →
      Precedes cols d (ρ i, γ j) (ρ i', γ j') → Precedes cols' d' (i, j) (i', j')) :
    ∃ l', GreedyMatching rows' cols' d' thr l' ∧ l'.map (Prod.map ρ γ) = l.filter (fun p => sel p.1) := by
  obtain ⟨l', hl', hP⟩ := exists_preimage (Prod.map ρ γ) (fun p : Nat × Nat => p.1 < rows' ∧ p.2 < cols')
    (l.filter (fun p => sel p.1)) (by
      intro p hp
      obtain ⟨hp, hsp⟩ := List.mem_filter.mp hp
      obtain ⟨hr, hc⟩ := g.inRange p hp
      obtain ⟨i, hi, ei⟩ := (hsel _ hr).mp hsp
      obtain ⟨j, hj, ej⟩ := (hsep _ hr _ hc (g.below p hp)).mp hsp
      exact ⟨(i, j), ⟨hi, hj⟩, Prod.ext ei ej⟩)
  have hmem : ∀ p ∈ l', Prod.map ρ γ p ∈ l := by
    intro p hp
    have : Prod.map ρ γ p ∈ l'.map (Prod.map ρ γ) := List.mem_map_of_mem hp
    rw [hl'] at this
    exact (List.mem_filter.mp this).1
  refine ⟨l', ⟨hP, ?_, ?_, ?_, ?_, ?_⟩, hl'⟩
  · intro p hp
    rw [hd _ (hP p hp).1 _ (hP p hp).2]
    exact g.below _ (hmem p hp)
  · have h1 : ((l'.map Prod.fst).map ρ).Nodup := by
      have : (l'.map Prod.fst).map ρ = (l'.map (Prod.map ρ γ)).map Prod.fst := by simp [List.map_map, Function.comp_def]
      rw [this, hl']
      exact (List.filter_sublist.map _).nodup g.rowsNodup
    exact List.Nodup.of_map ρ h1
  · have h1 : ((l'.map Prod.snd).map γ).Nodup := by
      have : (l'.map Prod.snd).map γ = (l'.map (Prod.map ρ γ)).map Prod.snd := by simp [List.map_map, Function.comp_def]
      rw [this, hl']
      exact (List.filter_sublist.map _).nodup g.colsNodup
    exact List.Nodup.of_map γ h1
  · have h1 : (l'.map (Prod.map ρ γ)).Pairwise (Precedes cols d) := by
      rw [hl']; exact g.sorted.sublist List.filter_sublist
    rw [List.pairwise_map] at h1
    refine h1.imp_of_mem ?_
    intro p q hp hq hpq
    exact hpre _ (hP p hp).1 _ (hP p hp).2 _ (hP q hq).1 _ (hP q hq).2 (g.below _ (hmem p hp)) hpq
  · intro i hi j hj hij
    rw [hd i hi j hj] at hij
    obtain ⟨p, hp, hor, hpp⟩ := g.stable (ρ i) (hs.row i hi) (γ j) (hs.col j hj) hij
    obtain ⟨hr, hc⟩ := g.inRange p hp
    have hsp : sel p.1 = true := by
      rcases hor with e | e
      · exact (hsel _ hr).mpr ⟨i, hi, e.symm⟩
      · exact (hsep _ hr _ hc (g.below p hp)).mpr ⟨j, hj, e.symm⟩
    have : p ∈ l'.map (Prod.map ρ γ) := by rw [hl']; exact List.mem_filter.mpr ⟨hp, hsp⟩
    obtain ⟨q, hq, rfl⟩ := List.mem_map.mp this
    obtain ⟨q1, q2⟩ := hP q hq
    refine ⟨q, hq, ?_, hpre _ q1 _ q2 _ hi _ hj (g.below _ hp) hpp⟩
    rcases hor with e | e
    · exact Or.inl (hs.rowInj _ q1 _ hi e)
    · exact Or.inr (hs.colInj _ q2 _ hj e)

/-- order-preserving selections keep the order of handling -/
theorem precedes_of_mono {cols cols' : Nat} {d d' : Nat → Nat → D} {ρ γ : Nat → Nat} {rows' : Nat}
    (hρ : ∀ i < rows', ∀ i' < rows', i < i' → ρ i < ρ i') (hγ : ∀ j < cols', ∀ j' < cols', j < j' → γ j < γ j')
    (hc : ∀ j < cols', γ j < cols)
    (hd : ∀ i < rows', ∀ j < cols', d' i j = d (ρ i) (γ j)) {i j i' j' : Nat} (hi : i < rows') (hj : j < cols')
    (hi' : i' < rows') (hj' : j' < cols') (h : Precedes cols d (ρ i, γ j) (ρ i', γ j')) :
    Precedes cols' d' (i, j) (i', j') := by
  unfold Precedes at h ⊢
  simp only at h ⊢
  rw [hd i hi j hj, hd i' hi' j' hj']
  refine h.imp id (fun ⟨h1, h2⟩ => ⟨h1, ?_⟩)
  have c1 := hc j hj
  have c2 := hc j' hj'
  rcases lt_trichotomy i i' with hlt | rfl | hlt
  · have : (i + 1) * cols' ≤ i' * cols' := Nat.mul_le_mul_right _ hlt
    rw [Nat.add_mul] at this
    omega
  · have h3 : γ j ≤ γ j' := by omega
    have : j ≤ j' := by
      by_contra hn
      have := hγ j' hj' j hj (by omega)
      omega
    omega
  · have h3 := hρ i' hi' i hi hlt
    have : (ρ i' + 1) * cols ≤ ρ i * cols := Nat.mul_le_mul_right _ h3
    rw [Nat.add_mul] at this
    omega

/-- if the code's loop returns at all, it returns the greedy matching -/
theorem matchDetsAndObjs_eq {thr fill : D} {M : Mat D} {l : List (Nat × Nat)}
    (g : GreedyMatching M.rows M.cols M.val thr l)
    (hf : fill < thr → ∀ i < M.rows, ∀ j < M.cols, ¬ M.val i j < thr) : matchDetsAndObjs thr fill M = some l := by
  have hsome : ∃ l', matchDetsAndObjs thr fill M = some l' := by
    by_cases hfill : fill < thr
    · unfold matchDetsAndObjs matchDetsAndObjsFuel
      split
      · rename_i hs
        obtain ⟨hr, hc, hv, _⟩ := M.min_facts hs
        rw [matchLoop_succ, hv, if_neg (hf hfill _ hr _ hc)]
        exact ⟨_, rfl⟩
      · exact ⟨_, rfl⟩
    · exact matchDetsAndObjs_isSome thr fill hfill M
  obtain ⟨l', h⟩ := hsome
  rw [h, greedy_unique l l' _ _ _ [] g (matchReturns_greedy ⟨_, h⟩)]

theorem matchDetsAndObjs_fill {thr fill : D} {M : Mat D} {l : List (Nat × Nat)}
    (h : matchDetsAndObjs thr fill M = some l) (hfill : fill < thr) :
    ∀ i < M.rows, ∀ j < M.cols, ¬ M.val i j < thr := by
  intro i hi j hj hij
  have hs : 0 < M.size := lt_of_le_of_lt (Nat.zero_le _) (Mat.index_lt hi hj)
  unfold matchDetsAndObjs matchDetsAndObjsFuel at h
  rw [if_pos hs, matchLoop_diverges thr fill hfill _ M hs] at h
  · cases h
  · rcases (M.min_facts hs).2.2.2 i hi j hj with h | ⟨h, _⟩
    · exact lt_trans h hij
    · simp only at h; rw [h]; exact hij

/-- the matching of a selection of rows and columns is the selection of the matching, if the rest is separated -/
theorem matchDetsAndObjs_pull {thr fill : D} {M N : Mat D} {l : List (Nat × Nat)}
    (h : matchDetsAndObjs thr fill M = some l) {ρ γ : Nat → Nat} (hs : Selects M.rows M.cols N.rows N.cols ρ γ)
    (hd : ∀ i < N.rows, ∀ j < N.cols, N.val i j = M.val (ρ i) (γ j)) (sel : Nat → Bool)
    (hsel : ∀ i < M.rows, sel i = true ↔ ∃ i' < N.rows, ρ i' = i)
    (hsep : ∀ i < M.rows, ∀ j < M.cols, M.val i j < thr → (sel i = true ↔ ∃ j' < N.cols, γ j' = j))
    (hpre : ∀ i < N.rows, ∀ j < N.cols, ∀ i' < N.rows, ∀ j' < N.cols, M.val (ρ i) (γ j) < thr →
      Precedes M.cols M.val (ρ i, γ j) (ρ i', γ j') → Precedes N.cols N.val (i, j) (i', j')) :
    ∃ l', matchDetsAndObjs thr fill N = some l' ∧ l'.map (Prod.map ρ γ) = l.filter (fun p => sel p.1) := by
  obtain ⟨l', g, e⟩ := greedy_pull (matchReturns_greedy ⟨_, h⟩) hs hd sel hsel hsep hpre
  refine ⟨l', matchDetsAndObjs_eq g ?_, e⟩
  intro hf i hi j hj
  rw [hd i hi j hj]
  exact matchDetsAndObjs_fill h hf _ (hs.row i hi) _ (hs.col j hj)

end Norfair
