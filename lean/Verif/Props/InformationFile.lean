import Verif.Model.Metrics
import Mathlib.Data.Nat.Digits.Lemmas
import Mathlib.Data.List.Basic
import Mathlib.Tactic.IntervalCases

/-!
C58: `InformationFile`.
-/

namespace Norfair.Props

open Norfair

/-! ### Lines -/

/-- the string has no character that ends a line -/
def OneLine (s : Str) : Prop := ∀ c ∈ s, isLineBreak c = false

instance (s : Str) : Decidable (OneLine s) := by unfold OneLine; infer_instance

theorem splitlines_append (l : Str) (hl : OneLine l) (b : Char) (hb : isLineBreak b = true) (s : Str) :
    splitlines (l ++ b :: s) = l :: splitlines s := by
  induction l with
  | nil => simp [splitlines, hb]
  | cons c l ih =>
    have hc := hl c (List.mem_cons_self ..)
    rw [List.cons_append, splitlines, ih (fun c h => hl c (List.mem_cons_of_mem _ h))]
    simp [hc]

theorem splitlines_oneLine (l : Str) (hl : OneLine l) : splitlines l = if l = [] then [] else [l] := by
  induction l with
  | nil => rfl
  | cons c l ih =>
    have hc := hl c (List.mem_cons_self ..)
    rw [splitlines, ih (fun c h => hl c (List.mem_cons_of_mem _ h))]
    by_cases h : l = [] <;> simp [hc, h]

theorem universalNewlines_append (l : Str) (hl : '\r' ∉ l) (s : Str) :
    universalNewlines (l ++ s) = l ++ universalNewlines s := by
  induction l with
  | nil => rfl
  | cons c l ih =>
    have hc : c ≠ '\r' := fun h => hl (h ▸ List.mem_cons_self ..)
    rw [List.cons_append, universalNewlines, ih (fun h => hl (List.mem_cons_of_mem _ h)), List.cons_append]
    · exact fun h => absurd h hc
    · intro s' h; exact absurd h hc
    · intro c' s' h; exact absurd h hc

/-- the three ways to end the lines of a file -/
def lineEnds : List Str := ["\n".toList, "\r\n".toList, "\r".toList]

theorem universalNewlines_end (e : Str) (he : e ∈ lineEnds) (l : Str) (hl : '\r' ∉ l)
    (s : Str) (hs : e = "\r".toList → s.head? ≠ some '\n') :
    universalNewlines (l ++ e ++ s) = l ++ '\n' :: universalNewlines s := by
  rw [List.append_assoc, universalNewlines_append l hl]
  congr 1
  simp only [lineEnds, List.mem_cons, List.not_mem_nil, or_false] at he
  rcases he with rfl | rfl | rfl
  · show universalNewlines ('\n' :: s) = _
    rw [universalNewlines]
    all_goals simp
  · show universalNewlines ('\r' :: '\n' :: s) = _
    rw [universalNewlines]
  · show universalNewlines ('\r' :: s) = _
    cases s with
    | nil => rfl
    | cons c s =>
      have hc : c ≠ '\n' := fun h => hs rfl (by simp [h])
      rw [universalNewlines]
      intro h; exact absurd h hc

theorem OneLine.noCr {l : Str} (h : OneLine l) : '\r' ∉ l := fun hm => by
  have := h _ hm
  revert this
  decide

theorem OneLine.noLf {l : Str} (h : OneLine l) : '\n' ∉ l := fun hm => by
  have := h _ hm
  revert this
  decide

/-- C58: the lines of a file are read back, whichever of the three usual line ends it uses, and whether or
not the last line is ended. -/
theorem C58_lines (lines : List Str) (hl : ∀ l ∈ lines, OneLine l) (e : Str) (he : e ∈ lineEnds)
    (last : Str) (hlast : OneLine last) :
    infoLines ((lines.flatMap fun l => l ++ e) ++ last) = lines ++ if last = [] then [] else [last] := by
  unfold infoLines
  have key : universalNewlines ((lines.flatMap fun l => l ++ e) ++ last) =
      (lines.flatMap fun l => l ++ ['\n']) ++ last := by
    have hne : ∀ (ls : List Str), (∀ l ∈ ls, OneLine l) → e = "\r".toList →
        ((ls.flatMap fun l => l ++ e) ++ last).head? ≠ some '\n' := by
      intro ls hls hr
      have : ∀ l, OneLine l → l.head? ≠ some '\n' := fun l h hh =>
        h.noLf (List.mem_of_mem_head? (by rw [hh]; rfl))
      cases ls with
      | nil => simpa using this last hlast
      | cons l ls =>
        cases l with
        | nil => subst hr; simp
        | cons c l => simpa using this _ (hls _ (List.mem_cons_self ..))
    induction lines with
    | nil => simpa [universalNewlines] using universalNewlines_append last hlast.noCr []
    | cons l ls ih =>
      have hls := fun l h => hl l (List.mem_cons_of_mem _ h)
      rw [List.flatMap_cons, List.append_assoc, universalNewlines_end e he l
        (hl l (List.mem_cons_self ..)).noCr _ (hne ls hls), ih hls]
      simp
  rw [key]
  clear key
  induction lines with
  | nil => simpa using splitlines_oneLine last hlast
  | cons l ls ih =>
    rw [List.flatMap_cons, List.append_assoc, List.append_assoc, List.singleton_append,
      splitlines_append l (hl l (List.mem_cons_self ..)) _ (by decide),
      ih (fun l h => hl l (List.mem_cons_of_mem _ h)), List.cons_append]

/-! ### Search -/

/-- facts about Unicode: the ten ASCII digits, and decimal characters are digits -/
structure UnicodeOk (u : Unicode) : Prop where
  ascii : ∀ d < 10, u.decimal (digitChar d) = some d
  decimal : ∀ c d, u.decimal c = some d → u.isDigit c = true

/-- the value of a variable, from the rest of its line: an `int` only if there is something and all
characters are digits, the rest as it is otherwise -/
def ValueOf (u : Unicode) (rest : Str) : InfoValue → Prop
  | .str s => s = rest ∧ (rest = [] ∨ ∃ c ∈ rest, u.isDigit c = false)
  | .int n => rest ≠ [] ∧ (∀ c ∈ rest, u.isDigit c = true) ∧ u.parseInt rest = some n

/-- C58: `search` looks for the first line that begins with the name, skips one more character and takes
the rest; an `int` is returned only if all characters of the rest are digits, a string (the rest as it is)
exactly if one is not or the rest is empty. -/
theorem C58_search_partial (u : Unicode) (lines : List Str) (name : Str) (v : InfoValue) :
    infoSearch u lines name = some v ↔ ∃ pre line post, lines = pre ++ line :: post ∧
      (∀ l ∈ pre, ¬ name <+: l) ∧ name <+: line ∧
      ValueOf u (line.drop (name.length + 1)) v := by
  induction lines with
  | nil => simp [infoSearch, infoFind]
  | cons l ls ih =>
    have hp : (l.take name.length = name) ↔ name <+: l := by
      rw [List.prefix_iff_eq_take]; exact eq_comm
    by_cases h : name <+: l
    · have h1 : infoFind name (l :: ls) = some (l.drop (name.length + 1)) := by
        rw [infoFind, if_pos (hp.mpr h)]
      have hiff : u.strIsDigit (l.drop (name.length + 1)) = true ↔ l.drop (name.length + 1) ≠ [] ∧
          ∀ c ∈ l.drop (name.length + 1), u.isDigit c = true := by
        simp [Unicode.strIsDigit]
      constructor
      · intro hv
        refine ⟨[], l, ls, rfl, by simp, h, ?_⟩
        unfold infoSearch at hv
        simp only [h1] at hv
        by_cases hd : u.strIsDigit (l.drop (name.length + 1)) = true
        · rw [if_pos hd] at hv
          obtain ⟨n, hn, rfl⟩ := Option.map_eq_some_iff.mp hv
          exact ⟨(hiff.mp hd).1, (hiff.mp hd).2, hn⟩
        · rw [if_neg hd] at hv
          cases hv
          refine ⟨rfl, ?_⟩
          by_contra hc
          push Not at hc
          refine hd (hiff.mpr ⟨hc.1, fun c hm => ?_⟩)
          simpa using hc.2 c hm
      · rintro ⟨pre, line, post, he, hpre, -, hv⟩
        have hnil : pre = [] := by
          cases pre with
          | nil => rfl
          | cons q pre =>
            rw [List.cons_append, List.cons.injEq] at he
            exact absurd (he.1 ▸ h) (hpre q (List.mem_cons_self ..))
        subst hnil
        rw [List.nil_append, List.cons.injEq] at he
        obtain ⟨rfl, rfl⟩ := he
        unfold infoSearch
        simp only [h1]
        cases v with
        | str s =>
          obtain ⟨rfl, hv⟩ := hv
          rw [if_neg]
          intro hd
          obtain ⟨ha, hb⟩ := hiff.mp hd
          rcases hv with hv | ⟨c, hc, hf⟩
          · exact ha hv
          · rw [hb c hc] at hf; cases hf
        | int n =>
          rw [if_pos (hiff.mpr ⟨hv.1, hv.2.1⟩), hv.2.2]
          rfl
    · have h1 : infoSearch u (l :: ls) name = infoSearch u ls name := by
        unfold infoSearch
        rw [infoFind, if_neg (fun hh => h (hp.mp hh))]
      rw [h1, ih]
      constructor
      · rintro ⟨pre, line, post, rfl, hpre, hv⟩
        refine ⟨l :: pre, line, post, rfl, ?_, hv⟩
        intro q hq
        rcases List.mem_cons.mp hq with rfl | hq
        · exact h
        · exact hpre q hq
      · rintro ⟨pre, line, post, he, hpre, hn, hv⟩
        cases pre with
        | nil =>
          rw [List.nil_append, List.cons.injEq] at he
          exact absurd (he.1 ▸ hn) h
        | cons q pre =>
          rw [List.cons_append, List.cons.injEq] at he
          exact ⟨pre, line, post, he.2, fun l hl => hpre l (List.mem_cons_of_mem _ hl), hn, hv⟩

/-- C58: if no line begins with the name, `search` raises -/
theorem C58_missing (u : Unicode) (lines : List Str) (name : Str) (h : ∀ l ∈ lines, ¬ name <+: l) :
    infoSearch u lines name = none := by
  cases hv : infoSearch u lines name with
  | none => rfl
  | some v =>
    obtain ⟨pre, line, post, rfl, -, hn, -⟩ := (C58_search_partial u lines name v).mp hv
    exact absurd hn (h line (by simp))

/-- C58: if the digits of the value are decimal, `search` raises only if no line begins with the name -/
theorem C58_found_partial (u : Unicode) (hu : ∀ c, u.isDigit c = true → (u.decimal c).isSome)
    (lines : List Str) (name : Str) (h : infoSearch u lines name = none) : ∀ l ∈ lines, ¬ name <+: l := by
  intro l hl hn
  have : ∃ r, infoFind name lines = some r := by
    clear h
    induction lines with
    | nil => cases hl
    | cons q ls ih =>
      rw [infoFind]
      split
      · exact ⟨_, rfl⟩
      · rename_i hq
        rcases List.mem_cons.mp hl with rfl | hl
        · exact absurd (List.prefix_iff_eq_take.mp hn).symm hq
        · exact ih hl
  obtain ⟨r, hr⟩ := this
  unfold infoSearch at h
  simp only [hr] at h
  split at h
  · rename_i hd
    rw [Option.map_eq_none_iff, Unicode.parseInt, Option.map_eq_none_iff] at h
    have hall : ∀ c ∈ r, u.isDigit c = true := by
      simp only [Unicode.strIsDigit, Bool.and_eq_true, List.all_eq_true] at hd
      exact hd.2
    have : ∀ s : Str, (∀ c ∈ s, u.isDigit c = true) → ∃ ds, s.mapM u.decimal = some ds := by
      intro s
      induction s with
      | nil => intro _; exact ⟨[], rfl⟩
      | cons c s ih =>
        intro hs
        obtain ⟨ds, hds⟩ := ih fun c h => hs c (List.mem_cons_of_mem _ h)
        obtain ⟨d, hd⟩ := Option.isSome_iff_exists.mp (hu c (hs c (List.mem_cons_self ..)))
        exact ⟨d :: ds, by simp [List.mapM_cons, hd, hds]⟩
    obtain ⟨ds, hds⟩ := this r hall
    rw [hds] at h
    cases h
  · cases h

theorem foldl_digits (ds : List Nat) : (ds.reverse).foldl (fun n d => 10 * n + d) 0 = Nat.ofDigits 10 ds := by
  rw [List.foldl_reverse]
  induction ds with
  | nil => rfl
  | cons d ds ih =>
    rw [List.foldr_cons, ih, Nat.ofDigits_cons, add_comm]

theorem mapM_decimal (u : Unicode) (hu : UnicodeOk u) (ds : List Nat) (h : ∀ d ∈ ds, d < 10) :
    (ds.map digitChar).mapM u.decimal = some ds := by
  induction ds with
  | nil => rfl
  | cons d ds ih =>
    simp [List.mapM_cons, hu.ascii d (h d (List.mem_cons_self ..)),
      ih fun d hd => h d (List.mem_cons_of_mem _ hd)]

theorem natStr_eq (n : Nat) : ∃ ds : List Nat, natStr n = (ds.reverse).map digitChar ∧ ds ≠ [] ∧
    (∀ d ∈ ds, d < 10) ∧ Nat.ofDigits 10 ds = n := by
  by_cases h : n = 0
  · exact ⟨[0], by subst h; rfl, by simp, by simp, by subst h; rfl⟩
  · refine ⟨Nat.digits 10 n, by rw [natStr, if_neg h, List.map_reverse], ?_, ?_, Nat.ofDigits_digits 10 n⟩
    · simpa [Nat.digits_eq_nil_iff_eq_zero] using h
    · intro d hd; exact Nat.digits_lt_base (by norm_num) hd

theorem parseInt_natStr (u : Unicode) (hu : UnicodeOk u) (n : Nat) : u.parseInt (natStr n) = some n := by
  obtain ⟨ds, h1, -, h3, h4⟩ := natStr_eq n
  rw [Unicode.parseInt, h1, mapM_decimal u hu _ (by simpa using h3), Option.map_some, foldl_digits, h4]

theorem strIsDigit_natStr (u : Unicode) (hu : UnicodeOk u) (n : Nat) : u.strIsDigit (natStr n) = true := by
  obtain ⟨ds, h1, h2, h3, -⟩ := natStr_eq n
  rw [h1, Unicode.strIsDigit]
  simp only [Bool.and_eq_true, List.all_eq_true]
  refine ⟨by simpa using h2, fun c hc => ?_⟩
  obtain ⟨d, hd, rfl⟩ := List.mem_map.mp hc
  exact hu.decimal _ d (hu.ascii d (h3 d (List.mem_reverse.mp hd)))

/-- C58: a number written in a file of lines `name=value` is read back, for every number, whichever line
ends the file uses, if no earlier line begins with the name. -/
theorem C58_number (u : Unicode) (hu : UnicodeOk u) (before after : List Str) (name : Str) (n : Nat) (sep : Char)
    (hb : ∀ l ∈ before, OneLine l ∧ ¬ name <+: l) (ha : ∀ l ∈ after, OneLine l)
    (hn : OneLine (name ++ sep :: natStr n)) (e : Str) (he : e ∈ lineEnds) :
    infoSearch u (infoLines ((before ++ (name ++ sep :: natStr n) :: after).flatMap fun l => l ++ e)) name =
      some (.int n) := by
  have := C58_lines (before ++ (name ++ sep :: natStr n) :: after) (by
    intro l hl
    rcases List.mem_append.mp hl with hl | hl
    · exact (hb l hl).1
    · rcases List.mem_cons.mp hl with rfl | hl
      · exact hn
      · exact ha l hl) e he [] (by intro c hc; cases hc)
  rw [List.append_nil, if_pos rfl, List.append_nil] at this
  rw [this, C58_search_partial]
  have hd : (name ++ sep :: natStr n).drop (name.length + 1) = natStr n := by
    rw [List.drop_append]; simp
  refine ⟨before, _, after, rfl, fun l hl => (hb l hl).2, List.prefix_append _ _, ?_⟩
  rw [hd]
  have h1 := strIsDigit_natStr u hu n
  simp only [Unicode.strIsDigit, Bool.and_eq_true, List.all_eq_true] at h1
  exact ⟨by intro h; rw [h] at h1; exact absurd h1.1 (by simp), h1.2, parseInt_natStr u hu n⟩

/-! ### Examples -/

/-- ASCII digits and one digit that is not decimal -/
def toyUnicode : Unicode where
  isDigit c := ('0' ≤ c && c ≤ '9') || c == '²'
  decimal c := if '0' ≤ c ∧ c ≤ '9' then some (c.toNat - '0'.toNat) else none

theorem toyUnicode_ok : UnicodeOk toyUnicode where
  ascii := by decide
  decimal := by
    intro c d h
    simp only [toyUnicode] at h ⊢
    split at h
    · rename_i hc; simp [hc]
    · cases h

/-- C58: digits that are not decimal make `search` raise although there is a line -/
theorem C58_superscript : infoSearch toyUnicode ["seqLength=²".toList] "seqLength".toList = none ∧
    (∃ l ∈ ["seqLength=²".toList], "seqLength".toList <+: l) := by
  decide +kernel

/-- C58_lines, C58_number: a file -/
example : infoLines "[Sequence]\r\nname=x\r\nseqLength=600".toList =
      ["[Sequence]".toList, "name=x".toList, "seqLength=600".toList] ∧
    infoSearch toyUnicode (infoLines "[Sequence]\r\nname=x\r\nseqLength=600".toList) "seqLength".toList =
      some (.int 600) ∧
    infoSearch toyUnicode (infoLines "[Sequence]\nname=x\nseqLength= 600".toList) "seqLength".toList =
      some (.str " 600".toList) ∧
    infoSearch toyUnicode (infoLines "[Sequence]\nname=x".toList) "seqLength".toList = none := by
  decide +kernel

/-- C58_number: hypotheses -/
example : (∀ l ∈ ["[Sequence]".toList, "name=x".toList], OneLine l ∧ ¬ "seqLength".toList <+: l) ∧
    OneLine ("seqLength".toList ++ '=' :: natStr 600) ∧ "\r\n".toList ∈ lineEnds := by
  decide +kernel

/-- C58_missing -/
example : ∀ l ∈ ["[Sequence]".toList, "name=x".toList], ¬ "seqLength".toList <+: l := by decide +kernel

end Norfair.Props
