import Verif.Model.Tracker
import Verif.Lemmas.Matching

/-! Lemmas on finding and replacing tracked objects, and on index lists. -/

namespace Norfair

variable {K L D F X : Type}

namespace World

/-- identities of the tracked objects, in order -/
def keys (w : World K L D F X) : List Nat := w.objs.map (·.initId)

theorem find_some {w : World K L D F X} {k : Nat} {o : Obj K L D F} (h : w.find k = some o) :
    o ∈ w.objs ∧ o.initId = k := by
  unfold find at h
  exact ⟨List.mem_of_find?_eq_some h, by simpa using List.find?_some h⟩

theorem find_isSome_of_mem {w : World K L D F X} {k : Nat} (h : k ∈ w.keys) :
    ∃ o, w.find k = some o := by
  unfold keys at h
  obtain ⟨o, ho, rfl⟩ := List.mem_map.mp h
  unfold find
  cases hf : w.objs.find? (fun p => decide (p.initId = o.initId)) with
  | some p => exact ⟨p, rfl⟩
  | none =>
    rw [List.find?_eq_none] at hf
    exact absurd (hf o ho) (by simp)

theorem mem_keys_of_find {w : World K L D F X} {k : Nat} {o : Obj K L D F}
    (h : w.find k = some o) : k ∈ w.keys :=
  (find_some h).2 ▸ List.mem_map_of_mem (find_some h).1

theorem eq_of_mem_of_key {w : World K L D F X} (hn : w.keys.Nodup) {o p : Obj K L D F}
    (ho : o ∈ w.objs) (hp : p ∈ w.objs) (h : o.initId = p.initId) : o = p :=
  List.inj_on_of_nodup_map hn ho hp h

theorem find_of_mem {w : World K L D F X} (hn : w.keys.Nodup) {o : Obj K L D F}
    (ho : o ∈ w.objs) : w.find o.initId = some o := by
  obtain ⟨p, hp⟩ := find_isSome_of_mem (w := w) (k := o.initId) (List.mem_map_of_mem ho)
  rw [hp, eq_of_mem_of_key hn (find_some hp).1 ho (find_some hp).2]

@[simp] theorem put_heap (w : World K L D F X) (o) : (w.put o).heap = w.heap := rfl
@[simp] theorem put_gcount (w : World K L D F X) (o) : (w.put o).gcount = w.gcount := rfl
@[simp] theorem put_count (w : World K L D F X) (o) : (w.put o).count = w.count := rfl
@[simp] theorem put_initCount (w : World K L D F X) (o) : (w.put o).initCount = w.initCount := rfl

@[simp] theorem put_keys (w : World K L D F X) (o : Obj K L D F) : (w.put o).keys = w.keys := by
  unfold keys put
  simp only [List.map_map]
  apply List.map_congr_left
  intro p _
  simp only [Function.comp]
  split
  · rename_i h; exact h.symm
  · rfl

theorem mem_put {w : World K L D F X} {o p : Obj K L D F} (h : p ∈ (w.put o).objs) :
    (p = o ∧ o.initId ∈ w.keys) ∨ (p ∈ w.objs ∧ p.initId ≠ o.initId) := by
  unfold put at h
  simp only [List.mem_map] at h
  obtain ⟨q, hq, h⟩ := h
  split at h
  · rename_i he; left; exact ⟨h.symm, he ▸ List.mem_map_of_mem hq⟩
  · rename_i he; subst h; right; exact ⟨hq, he⟩

theorem find_put_self {w : World K L D F X} {o : Obj K L D F} (h : o.initId ∈ w.keys) :
    (w.put o).find o.initId = some o := by
  obtain ⟨p, hp⟩ := find_isSome_of_mem (w := w.put o) (k := o.initId) (by simpa using h)
  rcases mem_put (find_some hp).1 with ⟨e, _⟩ | ⟨_, e⟩
  · rw [hp, e]
  · exact absurd (find_some hp).2 e

theorem find_put_ne (w : World K L D F X) {o : Obj K L D F} {k : Nat} (h : k ≠ o.initId) :
    (w.put o).find k = w.find k := by
  unfold find put
  simp only
  induction w.objs with
  | nil => rfl
  | cons q l ih =>
    simp only [List.map_cons, List.find?_cons]
    by_cases hq : q.initId = o.initId
    · have h1 : (decide (o.initId = k)) = false := by simpa using fun e => h e.symm
      have h2 : (decide (q.initId = k)) = false := by simpa using fun e => h (by rw [← e, hq])
      simp [hq, h1, ih]
    · simp only [hq, if_false, ih]

theorem find_congr_objs {w w' : World K L D F X} (h : w'.objs = w.objs) (k : Nat) :
    w'.find k = w.find k := by unfold find; rw [h]

theorem put_put (w : World K L D F X) {o p : Obj K L D F} (h : o.initId = p.initId) :
    (w.put o).put p = w.put p := by
  unfold put
  simp only [List.map_map]
  congr 1
  apply List.map_congr_left
  intro q _
  simp only [Function.comp]
  by_cases hq : q.initId = o.initId
  · have hq2 : q.initId = p.initId := hq.trans h
    simp [h, hq2]
  · have hq2 : ¬ q.initId = p.initId := by rwa [← h]
    simp [hq, hq2]

theorem mem_keysWhere {w : World K L D F X} {ks : List Nat} {p : Obj K L D F → Bool} {k : Nat} :
    k ∈ w.keysWhere ks p ↔ k ∈ ks ∧ ∃ o, w.find k = some o ∧ p o = true := by
  unfold keysWhere
  rw [List.mem_filter]
  constructor
  · rintro ⟨h1, h2⟩
    refine ⟨h1, ?_⟩
    cases hf : w.find k with
    | none => rw [hf] at h2; cases h2
    | some o => rw [hf] at h2; exact ⟨o, rfl, h2⟩
  · rintro ⟨h1, o, h2, h3⟩
    exact ⟨h1, by rw [h2]; exact h3⟩

/-- when all keys are tracked, the list of objects is position by position the list of keys -/
theorem objects_getElem? {w : World K L D F X} {ks : List Nat} (h : ∀ k ∈ ks, k ∈ w.keys)
    (j : Nat) : (w.objects ks)[j]? = ks[j]?.bind w.find := by
  unfold objects
  induction ks generalizing j with
  | nil => simp
  | cons k ks ih =>
    obtain ⟨o, ho⟩ := find_isSome_of_mem (h k (by simp))
    rw [List.filterMap_cons_some ho]
    cases j with
    | zero => simp [ho]
    | succ j => simpa using ih (fun k hk => h k (by simp [hk])) j

theorem objects_length {w : World K L D F X} {ks : List Nat} (h : ∀ k ∈ ks, k ∈ w.keys) :
    (w.objects ks).length = ks.length := by
  unfold objects
  induction ks with
  | nil => rfl
  | cons k ks ih =>
    obtain ⟨o, ho⟩ := find_isSome_of_mem (h k (by simp))
    rw [List.filterMap_cons_some ho]
    simp [ih (fun k hk => h k (by simp [hk]))]

end World

/-! ### unmatchedOf -/

theorem mem_unmatchedOf {α : Type} {l : List α} {idx : List Nat} {a : α} :
    a ∈ unmatchedOf l idx ↔ ∃ i, l[i]? = some a ∧ i ∉ idx := by
  unfold unmatchedOf
  simp only [List.mem_map, List.mem_filter, Prod.exists, exists_and_right, exists_eq_right]
  constructor
  · rintro ⟨i, h1, h2⟩
    exact ⟨i, by simpa [List.mem_zipIdx_iff_getElem?] using h1, by simpa using h2⟩
  · rintro ⟨i, h1, h2⟩
    exact ⟨i, by simpa [List.mem_zipIdx_iff_getElem?] using h1, by simpa using h2⟩

theorem unmatchedOf_subset {α : Type} {l : List α} {idx : List Nat} {a : α}
    (h : a ∈ unmatchedOf l idx) : a ∈ l := by
  obtain ⟨i, h, _⟩ := mem_unmatchedOf.mp h
  exact List.mem_of_getElem? h

theorem unmatchedOf_sublist {α : Type} (l : List α) (idx : List Nat) :
    (unmatchedOf l idx).Sublist l := by
  unfold unmatchedOf
  have h := ((List.filter_sublist (p := fun p : α × Nat => !(idx.contains p.2)) (l := l.zipIdx))).map Prod.fst
  rwa [List.zipIdx_map_fst] at h

theorem unmatchedOf_nil {α : Type} (l : List α) : unmatchedOf l [] = l := by
  unfold unmatchedOf
  rw [List.filter_eq_self.mpr (by simp), List.zipIdx_map_fst]

end Norfair
