import Verif.Model.RunDir
import Verif.Props.InformationFile
import Mathlib.Data.List.TakeWhile

/-!
Property theorems C121: the directory of a new run.
-/

namespace Norfair.Props

open Norfair

/-- `increment_path` gives the path itself if it may exist or does not exist. -/
theorem C121_same (u : Unicode) (existing : List Str) (path sep : Str) (existOk : Bool)
    (h : existOk = true ∨ path ∉ existing) : incrementPath u existing path existOk sep = some path := by
  unfold incrementPath
  rw [if_pos]
  by_cases hc : path ∈ existing
  · rcases h with rfl | h
    · simp [hc]
    · exact absurd hc h
  · simp [hc]

/-- a character of `\d` is no `/` -/
def SlashNoDigit (u : Unicode) : Prop := u.decimal '/' = none

theorem numberAt_iff {u : Unicode} {key s : Str} : u.numberAt key s = true ↔
    ∃ c t, (u.decimal c).isSome ∧ s = key ++ c :: t := by
  unfold Unicode.numberAt
  rw [Bool.and_eq_true, List.isPrefixOf_iff_prefix]
  constructor
  · rintro ⟨⟨r, rfl⟩, h⟩
    rw [List.drop_left] at h
    cases r with
    | nil => simp at h
    | cons c t => exact ⟨c, t, by simpa using h, rfl⟩
  · rintro ⟨c, t, hc, rfl⟩
    refine ⟨List.prefix_append _ _, ?_⟩
    rw [List.drop_left]
    simpa using hc

theorem takeWhile_all {p : Char → Bool} {l : Str} (h : ∀ c ∈ l, p c = true) : l.takeWhile p = l := by
  induction l with
  | nil => rfl
  | cons a l ih =>
    rw [List.takeWhile_cons_of_pos (h a List.mem_cons_self), ih fun c hc => h c (List.mem_cons_of_mem _ hc)]

/-- the search finds the number at the end if the key with a digit is nowhere before -/
theorem searchNumber_last {u : Unicode} {key ds : Str} (hslash : SlashNoDigit u) (hkey : '/' ∉ key) (hk0 : key ≠ [])
    (hds : ds ≠ [])
    (hdig : ∀ c ∈ ds, (u.decimal c).isSome) : ∀ (pre : Str), (pre = [] ∨ pre.getLast? = some '/') →
    (∀ c, (u.decimal c).isSome → ¬ (key ++ [c]) <:+: pre) →
    u.searchNumber key (pre ++ (key ++ ds)) = some ds := by
  intro pre
  induction pre with
  | nil =>
    intro _ _
    obtain ⟨c, t, rfl⟩ := List.exists_cons_of_ne_nil hds
    obtain ⟨k, ks, rfl⟩ := List.exists_cons_of_ne_nil hk0
    have hn : u.numberAt (k :: ks) ((k :: ks) ++ c :: t) = true :=
      numberAt_iff.mpr ⟨c, t, hdig c List.mem_cons_self, rfl⟩
    show u.searchNumber (k :: ks) (k :: (ks ++ c :: t)) = _
    rw [Unicode.searchNumber]
    rw [show k :: (ks ++ c :: t) = (k :: ks) ++ c :: t from rfl, if_pos hn, List.drop_left]
    congr 1
    exact takeWhile_all hdig
  | cons a pre ih =>
    intro hlast hinf
    have hl : (a :: pre).getLast? = some '/' := by
      rcases hlast with h | h
      · cases h
      · exact h
    have hno : ¬ u.numberAt key (a :: (pre ++ (key ++ ds))) = true := by
      intro h
      obtain ⟨c, t, hc, he⟩ := numberAt_iff.mp h
      have he' : (a :: pre) ++ (key ++ ds) = (key ++ [c]) ++ t := by simpa using he
      rcases List.append_eq_append_iff.mp he' with ⟨m, h1, h2⟩ | ⟨m, h1, h2⟩
      · have hmem : '/' ∈ a :: pre := List.mem_of_getLast? hl
        have : '/' ∈ key ++ [c] := by rw [h1]; exact List.mem_append_left _ hmem
        rcases List.mem_append.mp this with h3 | h3
        · exact hkey h3
        · rw [← List.mem_singleton.mp h3, hslash] at hc
          cases hc
      · exact hinf c hc (by rw [h1]; exact (List.prefix_append _ _).isInfix)
    show u.searchNumber key (a :: (pre ++ (key ++ ds))) = _
    rw [Unicode.searchNumber, if_neg hno]
    apply ih
    · cases pre with
      | nil => exact Or.inl rfl
      | cons b l => right; simpa using hl
    · intro c hc hi
      exact hinf c hc (hi.trans (List.suffix_cons _ _).isInfix)

/-- what the search finds are digits -/
theorem searchNumber_digits {u : Unicode} {key ds : Str} : ∀ {s : Str}, u.searchNumber key s = some ds →
    ∃ n, u.parseInt ds = some n := by
  have hparse : ∀ l : Str, (∀ c ∈ l, (u.decimal c).isSome = true) → ∃ n, u.parseInt l = some n := by
    intro l hl
    have : ∃ ns, l.mapM u.decimal = some ns := by
      induction l with
      | nil => exact ⟨[], rfl⟩
      | cons a l ih =>
        obtain ⟨ns, hns⟩ := ih fun c hc => hl c (List.mem_cons_of_mem _ hc)
        obtain ⟨d, hd⟩ := Option.isSome_iff_exists.mp (hl a List.mem_cons_self)
        exact ⟨d :: ns, by rw [List.mapM_cons, hd, hns]; rfl⟩
    obtain ⟨ns, hns⟩ := this
    exact ⟨_, by unfold Unicode.parseInt; rw [hns]; rfl⟩
  intro s
  induction s with
  | nil => intro h; cases h
  | cons c s ih =>
    intro h
    rw [Unicode.searchNumber] at h
    split at h
    · cases h
      exact hparse _ fun c hc =>
        List.mem_takeWhile_imp (p := fun c => (u.decimal c).isSome) hc
    · exact ih h

theorem pathTail_append {parent name : Str} (hp : parent = [] ∨ parent.getLast? = some '/') (hn : '/' ∉ name) :
    pathTail (parent ++ name) = name := by
  unfold pathTail
  rw [List.reverse_append]
  have h1 : ∀ c ∈ name.reverse, (decide (c ≠ '/')) = true := by
    intro c hc
    rw [decide_eq_true_eq]
    rintro rfl
    exact hn (List.mem_reverse.mp hc)
  rw [List.takeWhile_append_of_pos h1]
  rcases hp with rfl | hp
  · simp
  · have : parent.reverse.head? = some '/' := by rw [List.head?_reverse]; exact hp
    cases hr : parent.reverse with
    | nil => simp
    | cons a l =>
      rw [hr] at this
      cases this
      simp

theorem pathStem_plain {parent name : Str} (hp : parent = [] ∨ parent.getLast? = some '/') (hn : '/' ∉ name)
    (hd : '.' ∉ name) : pathStem (parent ++ name) = name := by
  unfold pathStem
  rw [pathTail_append hp hn]
  have : name.reverse.dropWhile (fun c => decide (c ≠ '.')) = [] := by
    rw [List.dropWhile_eq_nil_iff]
    intro c hc
    rw [decide_eq_true_eq]
    rintro rfl
    exact hd (List.mem_reverse.mp hc)
  simp only [this]
  simp

theorem parsed_all {α β : Type} {f : α → Option β} {l : List α} (h : ∀ a ∈ l, ∃ b, f a = some b) :
    ∃ bs, l.mapM f = some bs ∧ ∀ a ∈ l, ∀ b, f a = some b → b ∈ bs := by
  induction l with
  | nil => exact ⟨[], rfl, by simp⟩
  | cons a l ih =>
    obtain ⟨bs, hbs, hmem⟩ := ih fun c hc => h c (List.mem_cons_of_mem _ hc)
    obtain ⟨b, hb⟩ := h a List.mem_cons_self
    refine ⟨b :: bs, by rw [List.mapM_cons, hb, hbs]; rfl, ?_⟩
    intro c hc d hd
    rcases List.mem_cons.mp hc with rfl | hc
    · rw [hb] at hd
      cases hd
      exact List.mem_cons_self
    · exact List.mem_cons_of_mem _ (hmem c hc d hd)

/-- **C121** (the part that holds) If the directory exists and may not be used again, the new one has a number larger
than all existing ones, so it does not exist: if the name has no suffix, and the name and the separator followed by a
digit are nowhere in the path of the project. -/
theorem C121_fresh_partial {u : Unicode} (hu : UnicodeOk u) (hslash : SlashNoDigit u) {existing : List Str}
    {parent name sep : Str} (hp : parent = [] ∨ parent.getLast? = some '/') (hn : '/' ∉ name) (hn0 : name ≠ [])
    (hd : '.' ∉ name) (hsep : '/' ∉ sep)
    (hinf : ∀ c, (u.decimal c).isSome → ¬ (name ++ sep ++ [c]) <:+: parent) (hex : parent ++ name ∈ existing) :
    ∃ n, incrementPath u existing (parent ++ name) false sep = some (parent ++ name ++ sep ++ natStr n) ∧
      (∀ m, parent ++ name ++ sep ++ natStr m ∈ existing → m < n) ∧
      parent ++ name ++ sep ++ natStr n ∉ existing := by
  unfold incrementPath
  rw [if_neg (by simp [hex]), pathStem_plain hp hn hd]
  simp only
  set found := (globPrefix existing (parent ++ name ++ sep)).filterMap (u.searchNumber (name ++ sep)) with hf
  obtain ⟨is, his, hmem⟩ := parsed_all (f := u.parseInt) (l := found) (by
    intro a ha
    rw [hf] at ha
    obtain ⟨d, _, hd⟩ := List.mem_filterMap.mp ha
    exact searchNumber_digits hd)
  rw [his]
  have hkey : ∀ m, parent ++ name ++ sep ++ natStr m ∈ existing → m ∈ is := by
    intro m hm
    have hchars : ∀ c ∈ natStr m, (u.decimal c).isSome = true := by
      obtain ⟨ds, h1, -, h3, -⟩ := natStr_eq m
      rw [h1]
      intro c hc
      obtain ⟨d, hd, rfl⟩ := List.mem_map.mp hc
      rw [hu.ascii d (h3 d (List.mem_reverse.mp hd))]
      rfl
    have hne : natStr m ≠ [] := by
      obtain ⟨ds, h1, h2, -, -⟩ := natStr_eq m
      rw [h1]
      simpa using h2
    have hfound : natStr m ∈ found := by
      rw [hf]
      refine List.mem_filterMap.mpr ⟨parent ++ name ++ sep ++ natStr m, ?_, ?_⟩
      · unfold globPrefix
        rw [List.mem_filter]
        refine ⟨hm, ?_⟩
        rw [Bool.and_eq_true, List.isPrefixOf_iff_prefix, List.drop_left]
        refine ⟨List.prefix_append _ _, ?_⟩
        rw [Bool.not_eq_true', List.contains_eq_mem, decide_eq_false_iff_not]
        intro hc
        have := hchars _ hc
        rw [hslash] at this
        cases this
      · rw [List.append_assoc, List.append_assoc, ← List.append_assoc name]
        exact searchNumber_last hslash (by simp [hn, hsep]) (by simp [hn0]) hne hchars parent hp hinf
    exact hmem _ hfound m (parseInt_natStr u hu m)
  refine ⟨_, rfl, ?_⟩
  have hlt : ∀ m, parent ++ name ++ sep ++ natStr m ∈ existing →
      m < (match is.max? with | some m => m + 1 | none => 2) := by
    intro m hm
    have hmi := hkey m hm
    cases hmax : is.max? with
    | none => rw [List.max?_eq_none_iff.mp hmax] at hmi; cases hmi
    | some k =>
      have := (List.max?_eq_some_iff.mp hmax).2 m hmi
      simp only
      omega
  exact ⟨hlt, fun h => lt_irrefl _ (hlt _ h)⟩

/-- **C121** is false if the project has a directory with the name and a number in its path: the number of the parent
is taken for the number of the run. -/
theorem C121_false_parent : incrementPath toyUnicode ["runs/exp2/exp".toList, "runs/exp2/exp3".toList]
    "runs/exp2/exp".toList false [] = some "runs/exp2/exp3".toList := by decide +kernel

/-- **C121** is false if the name has a suffix: the existing numbers are not found. -/
theorem C121_false_suffix : incrementPath toyUnicode ["runs/v1.0".toList, "runs/v1.02".toList]
    "runs/v1.0".toList false [] = some "runs/v1.02".toList := by decide +kernel

/-- C121: the third run -/
example : ∃ n, incrementPath toyUnicode ["runs/exp".toList, "runs/exp2".toList] ("runs/".toList ++ "exp".toList) false [] =
      some ("runs/".toList ++ "exp".toList ++ [] ++ natStr n) ∧
    (∀ m, "runs/".toList ++ "exp".toList ++ [] ++ natStr m ∈ ["runs/exp".toList, "runs/exp2".toList] → m < n) ∧
    "runs/".toList ++ "exp".toList ++ [] ++ natStr n ∉ ["runs/exp".toList, "runs/exp2".toList] := by
  refine C121_fresh_partial toyUnicode_ok (by unfold SlashNoDigit; decide) (Or.inr (by decide)) (by decide) (by decide)
    (by decide) (by decide) ?_ (by decide)
  intro c _ h
  have := h.subset (show 'e' ∈ _ by simp)
  revert this
  decide

example : incrementPath toyUnicode ["runs/exp".toList, "runs/exp2".toList] "runs/exp".toList false [] =
    some "runs/exp3".toList := by decide +kernel

end Norfair.Props
