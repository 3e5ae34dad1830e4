import Verif.Lemmas.World

/-! Positions in a list of the elements that a filter keeps. -/

namespace Norfair

variable {α β : Type}

/-- the position in `l` of the element at position `i` of `l.filter q` -/
def emb (q : α → Bool) : List α → Nat → Nat
  | [], i => i
  | x :: l, i =>
    if q x then
      match i with
      | 0 => 0
      | i + 1 => emb q l i + 1
    else emb q l i + 1

theorem emb_lt (q : α → Bool) (l : List α) (i : Nat) (h : i < (l.filter q).length) : emb q l i < l.length := by
  induction l generalizing i with
  | nil => exact h
  | cons x l ih =>
    unfold emb
    by_cases hx : q x = true
    · rw [List.filter_cons_of_pos hx] at h
      rw [if_pos hx]
      cases i with
      | zero => simp
      | succ i => simpa using ih i (by simpa using h)
    · rw [List.filter_cons_of_neg hx] at h
      rw [if_neg hx]
      simpa using ih i h

theorem emb_get (q : α → Bool) (l : List α) (i : Nat) (h : i < (l.filter q).length) :
    l[emb q l i]? = (l.filter q)[i]? := by
  induction l generalizing i with
  | nil => exact absurd h (by simp)
  | cons x l ih =>
    unfold emb
    by_cases hx : q x = true
    · rw [List.filter_cons_of_pos hx] at h ⊢
      rw [if_pos hx]
      cases i with
      | zero => simp
      | succ i => simpa using ih i (by simpa using h)
    · rw [List.filter_cons_of_neg hx] at h ⊢
      rw [if_neg hx]
      simpa using ih i h

theorem emb_take (q : α → Bool) (l : List α) (i : Nat) (h : i < (l.filter q).length) :
    (l.take (emb q l i)).filter q = (l.filter q).take i := by
  induction l generalizing i with
  | nil => exact absurd h (by simp)
  | cons x l ih =>
    unfold emb
    by_cases hx : q x = true
    · rw [List.filter_cons_of_pos hx] at h ⊢
      rw [if_pos hx]
      cases i with
      | zero => simp
      | succ i =>
        rw [List.take_succ_cons, List.filter_cons_of_pos hx, List.take_succ_cons, ih i (by simpa using h)]
    · rw [List.filter_cons_of_neg hx] at h ⊢
      rw [if_neg hx, List.take_succ_cons, List.filter_cons_of_neg hx, ih i h]

theorem emb_mono (q : α → Bool) (l : List α) (i j : Nat) (h : i < j) (hj : j < (l.filter q).length) :
    emb q l i < emb q l j := by
  induction l generalizing i j with
  | nil => exact absurd hj (by simp)
  | cons x l ih =>
    unfold emb
    by_cases hx : q x = true
    · rw [List.filter_cons_of_pos hx] at hj
      rw [if_pos hx, if_pos hx]
      cases j with
      | zero => omega
      | succ j =>
        cases i with
        | zero => simp
        | succ i => simpa using ih i j (by omega) (by simpa using hj)
    · rw [List.filter_cons_of_neg hx] at hj
      rw [if_neg hx, if_neg hx]
      simpa using ih i j h hj

theorem emb_inj (q : α → Bool) (l : List α) (i j : Nat) (hi : i < (l.filter q).length)
    (hj : j < (l.filter q).length) (h : emb q l i = emb q l j) : i = j := by
  rcases lt_trichotomy i j with h1 | h1 | h1
  · have := emb_mono q l i j h1 hj; omega
  · exact h1
  · have := emb_mono q l j i h1 hi; omega

theorem emb_surj (q : α → Bool) (l : List α) (i : Nat) {x : α} (hi : l[i]? = some x) (hx : q x = true) :
    ∃ i' < (l.filter q).length, emb q l i' = i := by
  induction l generalizing i with
  | nil => simp at hi
  | cons y l ih =>
    cases i with
    | zero =>
      simp only [List.getElem?_cons_zero, Option.some.injEq] at hi
      subst hi
      exact ⟨0, by rw [List.filter_cons_of_pos hx]; simp, by simp [emb, hx]⟩
    | succ i =>
      obtain ⟨i', h1, h2⟩ := ih i (by simpa using hi)
      by_cases hy : q y = true
      · exact ⟨i' + 1, by rw [List.filter_cons_of_pos hy]; simpa using h1, by simp [emb, hy, h2]⟩
      · exact ⟨i', by rw [List.filter_cons_of_neg hy]; exact h1, by simp [emb, hy, h2]⟩

theorem emb_sel (q : α → Bool) (l : List α) (i : Nat) (h : i < (l.filter q).length) :
    ∃ x, l[emb q l i]? = some x ∧ q x = true := by
  refine ⟨(l.filter q)[i], ?_, ?_⟩
  · rw [emb_get q l i h, List.getElem?_eq_getElem h]
  · exact (List.mem_filter.mp (List.getElem_mem h)).2

theorem emb_map (f : α → β) (q : β → Bool) (l : List α) (i : Nat) : emb q (l.map f) i = emb (q ∘ f) l i := by
  induction l generalizing i with
  | nil => rfl
  | cons x l ih =>
    rw [List.map_cons]
    unfold emb
    simp only [Function.comp]
    cases i with
    | zero => rw [ih]
    | succ i => simp only [ih]

theorem emb_congr {q q' : α → Bool} {l : List α} (h : ∀ x ∈ l, q x = q' x) (i : Nat) : emb q l i = emb q' l i := by
  induction l generalizing i with
  | nil => rfl
  | cons x l ih =>
    unfold emb
    rw [h x (by simp)]
    cases i with
    | zero => rw [ih (fun x hx => h x (by simp [hx]))]
    | succ i => simp only [ih (fun x hx => h x (by simp [hx]))]

theorem filter_zipIdx_emb (q : α → Bool) (P P' : Nat → Bool) (l : List α) (n m : Nat)
    (h : ∀ i < (l.filter q).length, P' (m + i) = P (n + emb q l i)) :
    (((l.filter q).zipIdx m).filter (fun p => P' p.2)).map Prod.fst =
      (((l.zipIdx n).filter (fun p => P p.2)).map Prod.fst).filter q := by
  induction l generalizing n m with
  | nil => rfl
  | cons x l ih =>
    by_cases hx : q x = true
    · rw [List.filter_cons_of_pos hx] at h ⊢
      have h0 : P' m = P n := by
        have := h 0 (by simp)
        simpa [emb, hx] using this
      have ih' := ih (n + 1) (m + 1) (by
        intro i hi
        have := h (i + 1) (by simpa using hi)
        simp only [emb, hx, if_true] at this
        rw [show m + 1 + i = m + (i + 1) by omega, this]
        congr 1
        omega)
      rw [List.zipIdx_cons, List.zipIdx_cons]
      cases hP : P n with
      | true =>
        rw [List.filter_cons_of_pos (by simpa [h0] using hP), List.filter_cons_of_pos (by simpa using hP), List.map_cons, List.map_cons,
          List.filter_cons_of_pos hx, ih']
      | false =>
        rw [List.filter_cons_of_neg (by simp [h0, hP]), List.filter_cons_of_neg (by simp [hP]), ih']
    · rw [List.filter_cons_of_neg hx] at h ⊢
      have ih' := ih (n + 1) m (by
        intro i hi
        have := h i hi
        simp only [emb, hx] at this
        rw [this]
        simp only [Bool.false_eq_true, if_false]
        congr 1
        omega)
      rw [List.zipIdx_cons, ih']
      cases hP : P n with
      | true => rw [List.filter_cons_of_pos (by simpa using hP), List.map_cons, List.filter_cons_of_neg hx]
      | false => rw [List.filter_cons_of_neg (by simp [hP])]

theorem unmatchedOf_emb (q : α → Bool) (l : List α) {idx idx' : List Nat}
    (h : ∀ i < (l.filter q).length, i ∈ idx' ↔ emb q l i ∈ idx) :
    unmatchedOf (l.filter q) idx' = (unmatchedOf l idx).filter q := by
  unfold unmatchedOf
  refine filter_zipIdx_emb q (fun i => !(idx.contains i)) (fun i => !(idx'.contains i)) l 0 0 ?_
  intro i hi
  simp only [Nat.zero_add, List.contains_eq_mem]
  congr 1
  exact decide_eq_decide.mpr (h i hi)

theorem unmatchedOf_map (f : α → β) (l : List α) (idx : List Nat) :
    unmatchedOf (l.map f) idx = (unmatchedOf l idx).map f := by
  unfold unmatchedOf
  rw [List.zipIdx_map, List.filter_map, List.map_map, List.map_map]
  rfl

end Norfair
