import Verif.Model.Distances

/-! The loop of `VectorizedDistance.get_distances` in closed form. -/

set_option linter.unusedSectionVars false

namespace Norfair

variable {K L D : Type}

theorem idxOf?_filter_range (n : Nat) (p : Nat → Bool) (i : Nat) :
    ((List.range n).filter p).idxOf? i =
      if i < n ∧ p i = true then some ((List.range i).countP p) else none := by
  induction n with
  | zero => simp
  | succ n ih =>
    rw [List.range_succ, List.filter_append]
    unfold List.idxOf? at ih ⊢
    rw [List.findIdx?_append, ih]
    by_cases h1 : i < n ∧ p i = true
    · rw [if_pos h1, if_pos ⟨by omega, h1.2⟩]; rfl
    · rw [if_neg h1]
      by_cases h2 : i = n
      · subst h2
        by_cases hp : p i = true
        · rw [if_pos ⟨by omega, hp⟩]
          simp [List.filter_cons, hp, List.findIdx?_cons, List.countP_eq_length_filter]
        · rw [if_neg (fun h => hp h.2)]
          simp [List.filter_cons, hp]
      · rw [if_neg (fun h => h1 ⟨by omega, h.2⟩)]
        by_cases hp : p n = true
        · simp [List.filter_cons, hp, List.findIdx?_cons]; exact fun h => h2 h.symm
        · simp [List.filter_cons, hp]

theorem countP_range_take (l : List String) (s : String) (i : Nat) (hi : i ≤ l.length) :
    (List.range i).countP (fun k => decide (l[k]? = some s)) = (l.take i).countP (fun a => decide (a = s)) := by
  induction i with
  | zero => simp
  | succ i ih =>
    have hl : i < l.length := by omega
    rw [List.range_succ, List.countP_append, ih (by omega), ← List.take_concat_get' l i hl,
      List.countP_append]
    simp [List.countP_cons, List.getElem?_eq_getElem hl]

/-- position of the `i`-th element among those with the same string -/
theorem idx_spec (l : List String) (s : String) (i : Nat) :
    ((List.range l.length).filter fun k => decide (l[k]? = some s)).idxOf? i =
      if l[i]? = some s then some ((l.take i).countP (fun a => decide (a = s))) else none := by
  rw [idxOf?_filter_range]
  by_cases h : l[i]? = some s
  · obtain ⟨hi, _⟩ := List.getElem?_eq_some_iff.mp h
    rw [if_pos ⟨hi, by simpa using h⟩, if_pos h, countP_range_take l s i (by omega)]
  · rw [if_neg (fun hh => h (by simpa using hh.2)), if_neg h]

theorem filter_map_ne_nil {α : Type} {g : α → String} {pts : α → List K} {l : List α} {s : String}
    (h : s ∈ l.map g) : ((l.filter fun a => decide (g a = s)).map pts).isEmpty = false := by
  obtain ⟨a, ha, rfl⟩ := List.mem_map.mp h
  have : a ∈ l.filter fun b => decide (g b = g a) := List.mem_filter.mpr ⟨ha, by simp⟩
  cases h2 : (l.filter fun b => decide (g b = g a)) with
  | nil => rw [h2] at this; cases this
  | cons x xs => rfl

section
variable {C O : Type} (strC : C → String) (strO : O → String) (ptsC : C → List K) (ptsO : O → List K)
  (f : List (List K) → List (List K) → Option (Mat (Option D))) (objects : List O) (cands : List C)

/-- the distances for one label -/
def vcall (s : String) : Option (Mat (Option D)) :=
  f ((cands.filter (fun c => strC c = s)).map ptsC) ((objects.filter (fun o => strO o = s)).map ptsO)

theorem vectorizedLoop_spec : ∀ (ss : List String) (M : Mat (Option D)), ss.Nodup →
    (∀ s ∈ ss, s ∈ cands.map strC ∧ s ∈ objects.map strO) →
    vectorizedLoop (cands.map strC) (objects.map strO) strC strO ptsC ptsO f objects cands ss M =
      if ∃ s ∈ ss, vcall strC strO ptsC ptsO f objects cands s = none then none
      else some ⟨M.rows, M.cols, fun i j =>
        match (cands.map strC)[i]?, (objects.map strO)[j]? with
        | some s, some t =>
          if s = t ∧ s ∈ ss then
            match vcall strC strO ptsC ptsO f objects cands s with
            | some R => R.val (((cands.map strC).take i).countP fun a => decide (a = s))
                (((objects.map strO).take j).countP fun a => decide (a = s))
            | none => M.val i j
          else M.val i j
        | _, _ => M.val i j⟩ := by
  intro ss
  induction ss with
  | nil =>
    intro M _ _
    simp only [vectorizedLoop, List.not_mem_nil, false_and, exists_false, if_false, and_false]
    congr 1
    have : M.val = fun i j => match (cands.map strC)[i]?, (objects.map strO)[j]? with
        | some s, some t => M.val i j
        | x, x_1 => M.val i j := by
      funext i j
      cases (cands.map strC)[i]? <;> cases (objects.map strO)[j]? <;> rfl
    rw [← this]
  | cons s ss ih =>
    intro M hn hm
    obtain ⟨hs1, hs2⟩ := hm s (List.mem_cons_self ..)
    simp only [vectorizedLoop]
    rw [filter_map_ne_nil hs1, filter_map_ne_nil hs2]
    simp only [Bool.or_self, Bool.false_eq_true, if_false]
    cases hv : vcall strC strO ptsC ptsO f objects cands s with
    | none =>
      rw [if_pos ⟨s, List.mem_cons_self .., hv⟩]
      unfold vcall at hv
      rw [hv]
    | some R =>
      have hv' := hv
      unfold vcall at hv'
      rw [hv']
      simp only
      rw [ih _ (List.nodup_cons.mp hn).2 (fun t ht => hm t (List.mem_cons_of_mem _ ht))]
      have hsplit : (∃ t ∈ s :: ss, vcall strC strO ptsC ptsO f objects cands t = none) ↔
          ∃ t ∈ ss, vcall strC strO ptsC ptsO f objects cands t = none := by
        constructor
        · rintro ⟨t, ht, e⟩
          rcases List.mem_cons.mp ht with rfl | ht
          · rw [hv] at e; cases e
          · exact ⟨t, ht, e⟩
        · rintro ⟨t, ht, e⟩; exact ⟨t, List.mem_cons_of_mem _ ht, e⟩
      by_cases hx : ∃ t ∈ ss, vcall strC strO ptsC ptsO f objects cands t = none
      · rw [if_pos hx, if_pos (hsplit.mpr hx)]
      · rw [if_neg hx, if_neg (fun h => hx (hsplit.mp h))]
        congr 2
        funext i j
        simp only [idx_spec]
        cases hc : (cands.map strC)[i]? with
        | none => simp
        | some a =>
          cases ho : (objects.map strO)[j]? with
          | none => simp
          | some b =>
            simp only [Option.some.injEq]
            by_cases hab : a = b
            · subst hab
              by_cases has : a = s
              · subst has
                have : a ∉ ss := (List.nodup_cons.mp hn).1
                simp [this, hv]
              · have h1 : a ∈ s :: ss ↔ a ∈ ss := by simp [has]
                simp only [true_and, h1, if_neg has]
            · simp only [hab, false_and, if_false]
              by_cases has : a = s
              · subst has
                rw [if_neg (fun h : b = a => hab h.symm)]; simp
              · simp [has]

end

/-- `VectorizedDistance.get_distances` in closed form, if numpy converts the labels like `str()` -/
theorem vectorizedGetDistances_eq [Top D] {C O : Type} (str : L → String) (labC : C → L) (labO : O → L)
    (ptsC : C → List K) (ptsO : O → List K)
    (f : List (List K) → List (List K) → Option (Mat (Option D))) (objects : List O) (cands : List C) :
    vectorizedGetDistances (List.map str) str labC labO ptsC ptsO f objects cands =
      vectorizedDistances (fun c => str (labC c)) (fun o => str (labO o)) ptsC ptsO f objects cands := by
  unfold vectorizedGetDistances
  simp only [List.map_map, Function.comp_def]
  split
  · rename_i h
    unfold vectorizedDistances
    rw [if_neg]
    · congr 2
      funext i j
      rcases (Bool.or_eq_true ..).mp h with h | h
      · rw [List.isEmpty_iff.mp h]
        cases cands[i]? <;> rfl
      · rw [List.isEmpty_iff.mp h]; rfl
    · rcases (Bool.or_eq_true ..).mp h with h | h
      · rw [List.isEmpty_iff.mp h]; simp
      · rw [List.isEmpty_iff.mp h]; simp
  · generalize hss : (List.insertionSort (fun a b => a ≤ b)
      (List.filter (fun s => decide (s ∈ List.map (fun c => str (labC c)) cands))
      (List.map (fun o => str (labO o)) objects).dedup)) = ss
    have hp : ss.Perm (List.filter (fun s => decide (s ∈ List.map (fun c => str (labC c)) cands))
      (List.map (fun o => str (labO o)) objects).dedup) := hss ▸ List.perm_insertionSort _ _
    have hnd : ss.Nodup := hp.nodup_iff.mpr ((List.nodup_dedup _).filter _)
    have hmem : ∀ s, s ∈ ss ↔ s ∈ cands.map (fun c => str (labC c)) ∧ s ∈ objects.map (fun o => str (labO o)) := by
      intro s
      rw [hp.mem_iff, List.mem_filter, List.mem_dedup, decide_eq_true_eq, and_comm]
    rw [vectorizedLoop_spec _ _ _ _ _ _ _ ss _ hnd (fun s hs => (hmem s).mp hs)]
    unfold vectorizedDistances
    simp only
    have hc : (∃ s ∈ ss, vcall (fun c => str (labC c)) (fun o => str (labO o)) ptsC ptsO f objects cands s = none) ↔
        (cands.any fun c => objects.any fun o => decide (str (labC c) = str (labO o)) &&
          (f (List.map ptsC (List.filter (fun c_1 => decide (str (labC c_1) = str (labC c))) cands))
            (List.map ptsO (List.filter (fun o => decide (str (labO o) = str (labC c))) objects))).isNone) = true := by
      simp only [List.any_eq_true, Bool.and_eq_true, decide_eq_true_eq, Option.isNone_iff_eq_none]
      constructor
      · rintro ⟨s, hs, e⟩
        obtain ⟨h1, h2⟩ := (hmem s).mp hs
        obtain ⟨c, hc, rfl⟩ := List.mem_map.mp h1
        obtain ⟨o, ho, e2⟩ := List.mem_map.mp h2
        exact ⟨c, hc, o, ho, e2.symm, e⟩
      · rintro ⟨c, hc, o, ho, e, h⟩
        exact ⟨str (labC c), (hmem _).mpr ⟨List.mem_map.mpr ⟨c, hc, rfl⟩, List.mem_map.mpr ⟨o, ho, e.symm⟩⟩, h⟩
    by_cases h : (∃ s ∈ ss, vcall (fun c => str (labC c)) (fun o => str (labO o)) ptsC ptsO f objects cands s = none)
    · rw [if_pos h, if_pos (hc.mp h)]
    · rw [if_neg h, if_neg (fun hh => h (hc.mpr hh))]
      congr 2
      funext i j
      simp only [List.getElem?_map]
      cases hi : cands[i]? with
      | none => rfl
      | some c =>
        cases hj : objects[j]? with
        | none => rfl
        | some o =>
          simp only [Option.map_some]
          by_cases hs : str (labC c) = str (labO o)
          · have hin : str (labC c) ∈ ss := (hmem _).mpr ⟨List.mem_map.mpr ⟨c, List.mem_of_getElem? hi, rfl⟩,
              List.mem_map.mpr ⟨o, List.mem_of_getElem? hj, hs.symm⟩⟩
            rw [if_pos ⟨hs, hin⟩, if_pos hs]
            unfold vcall
            simp only [← List.map_take, List.countP_map, Function.comp_def]
            rfl
          · rw [if_neg (fun h => hs h.1), if_neg hs]

end Norfair
