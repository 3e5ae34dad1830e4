import Verif.Model.GenIndex
import Mathlib.Data.List.Infix

/-!
C147: the links of the first page of the documentation.
-/

namespace Norfair.Props

open Norfair

/-- `text` is in `s` -/
abbrev Occurs (text : String) (s : Str) : Prop := text.toList <:+: s

/-- no end of `x` goes on as `y`, and `y` is not at the beginning of one -/
def NoOverlap (x y : Str) : Prop := ∀ z ∈ x.tails, z ≠ [] → ¬ z <+: y ∧ ¬ y <+: z

instance (x y : Str) : Decidable (NoOverlap x y) := by unfold NoOverlap; infer_instance

theorem NoOverlap.tail {c : Char} {x y : Str} (h : NoOverlap (c :: x) y) : NoOverlap x y := fun z hz hne =>
  h z (by rw [List.mem_tails] at hz ⊢; exact hz.trans (List.suffix_cons c x)) hne

/-- what is at the beginning of the result was at the beginning of the text -/
theorem dropDocs_prefix (p : Str) (x : Str) : ∀ (n : Nat) (s : Str), NoOverlap x p → x <+: dropDocs p n s → x <+: s := by
  induction x with
  | nil => intro n s _ _; exact List.nil_prefix
  | cons c x ih =>
    intro n s ha h
    have hno : ∀ t, ¬ (c :: x <+: p ++ t) := fun t ht => by
      obtain ⟨h1, h2⟩ := ha (c :: x) (by simp) (by simp)
      rcases List.prefix_or_prefix_of_prefix ht (List.prefix_append p t) with e | e
      · exact h1 e
      · exact h2 e
    cases s with
    | nil => cases n <;> exact h
    | cons d s =>
      cases n with
      | zero => exact h
      | succ n =>
        unfold dropDocs at h
        split at h
        · exact absurd h (hno _)
        · split at h
          · exact absurd h (hno _)
          · rw [List.cons_prefix_cons] at h ⊢
            exact ⟨h.1, ih n s ha.tail h.2⟩

theorem infix_append {q p t : Str} (ha : NoOverlap p q) (h : q <:+: p ++ t) : q <:+: t := by
  induction p with
  | nil => exact h
  | cons c p ih =>
    rw [List.cons_append, List.infix_cons_iff] at h
    rcases h with h | h
    · exfalso
      obtain ⟨h1, h2⟩ := ha (c :: p) (by simp) (by simp)
      rcases List.prefix_or_prefix_of_prefix h (show c :: p <+: c :: (p ++ t) from List.prefix_append (c :: p) t) with e | e
      · exact h2 e
      · exact h1 e
    · exact ih ha.tail h

/-- a text that does not fit to the links is in the result only if it was there -/
theorem dropDocs_keeps (p q : Str) (h1 : NoOverlap q p) (h2 : NoOverlap p q) (hq : q ≠ []) : ∀ (n : Nat) (s : Str),
    q <:+: dropDocs p n s → q <:+: s := by
  intro n
  induction n with
  | zero => intro s h; cases s <;> exact h
  | succ n ih =>
    intro s h
    cases s with
    | nil => exact h
    | cons c s =>
      unfold dropDocs at h
      split at h
      · exact (ih _ (infix_append h2 h)).trans (List.drop_suffix _ _).isInfix
      · split at h
        · exact (ih _ (infix_append h2 h)).trans (List.drop_suffix _ _).isInfix
        · rename_i a b
          have h0 := h
          rw [List.infix_cons_iff] at h ⊢
          rcases h with h | h
          · left
            refine dropDocs_prefix p q (n + 1) (c :: s) h1 ?_
            unfold dropDocs
            rw [if_neg a, if_neg b]
            exact h
          · exact .inr (ih s h)

/-- a link to `docs` is left only if `docs` was in it twice -/
theorem dropDocs_twice (c : Char) (p w : Str) (hw : w = "docs/".toList ∨ w = "/docs/".toList) (h1 : NoOverlap w (c :: p))
    (h2 : NoOverlap (p ++ w) (c :: p)) (h3 : NoOverlap p (c :: p ++ w)) : ∀ (n : Nat) (s : Str), s.length ≤ n →
    c :: p ++ w <:+: dropDocs (c :: p) n s →
      (c :: p) ++ "docs/".toList ++ w <:+: s ∨ (c :: p) ++ "/docs/".toList ++ w <:+: s := by
  intro n
  induction n with
  | zero =>
    intro s hs h
    cases s with
    | nil => exact absurd (List.infix_nil.mp h) (by simp)
    | cons => simp at hs
  | succ n ih =>
    intro s hs h
    cases s with
    | nil => exact absurd (List.infix_nil.mp h) (by simp)
    | cons d s =>
      have link : ∀ v : Str, c :: p ++ v <+: d :: s →
          c :: p ++ w <:+: c :: p ++ dropDocs (c :: p) n ((d :: s).drop (c :: p ++ v).length) →
          (c :: p) ++ v ++ w <:+: d :: s ∨ ((c :: p) ++ "docs/".toList ++ w <:+: d :: s ∨
            (c :: p) ++ "/docs/".toList ++ w <:+: d :: s) := by
        intro v hv h
        obtain ⟨s', e⟩ := hv
        have hd : (d :: s).drop (c :: p ++ v).length = s' := by rw [← e, List.drop_left]
        rw [hd] at h
        rw [List.cons_append, List.cons_append, List.infix_cons_iff] at h
        rcases h with h | h
        · left
          rw [← List.cons_append, ← List.cons_append, List.prefix_append_right_inj] at h
          obtain ⟨r, hr⟩ := dropDocs_prefix (c :: p) w n s' h1 h
          exact ⟨[], r, by rw [← e, ← hr]; simp⟩
        · right
          rw [← List.cons_append] at h
          have hl : s'.length ≤ n := by
            have := congrArg List.length e
            simp at this hs
            omega
          rcases ih s' hl (infix_append h3 h) with h | h
          · exact .inl (h.trans (e ▸ (List.suffix_append _ _).isInfix))
          · exact .inr (h.trans (e ▸ (List.suffix_append _ _).isInfix))
      unfold dropDocs at h
      split at h
      · rename_i a
        rcases link _ a h with h | h
        · exact .inr h
        · exact h
      · split at h
        · rename_i a
          rcases link _ a h with h | h
          · exact .inl h
          · exact h
        · rename_i a b
          rw [List.infix_cons_iff] at h
          rcases h with h | h
          · exfalso
            rw [List.cons_append, List.cons_prefix_cons] at h
            have h' : c :: p ++ w <+: d :: s := by
              rw [List.cons_append, List.cons_prefix_cons]
              exact ⟨h.1, dropDocs_prefix (c :: p) (p ++ w) n s h2 h.2⟩
            rcases hw with rfl | rfl
            · exact b h'
            · exact a h'
          · rcases ih s (by simpa using hs) h with h | h
            · exact .inl (h.trans (List.suffix_cons d s).isInfix)
            · exact .inr (h.trans (List.suffix_cons d s).isInfix)

/-- without a link to `docs` nothing changes -/
theorem dropDocs_same (p : Str) : ∀ (n : Nat) (s : Str), ¬ p ++ "docs/".toList <:+: s → ¬ p ++ "/docs/".toList <:+: s →
    dropDocs p n s = s := by
  intro n
  induction n with
  | zero => intro s _ _; cases s <;> rfl
  | succ n ih =>
    intro s h1 h2
    cases s with
    | nil => rfl
    | cons c s =>
      unfold dropDocs
      rw [if_neg (fun h => h2 h.isInfix), if_neg (fun h => h1 h.isInfix),
        ih s (fun h => h1 (h.trans (List.suffix_cons c s).isInfix)) (fun h => h2 (h.trans (List.suffix_cons c s).isInfix))]

theorem dropDocs_sublist (p : Str) : ∀ (n : Nat) (s : Str), (dropDocs p n s).Sublist s := by
  intro n
  induction n with
  | zero => intro s; cases s <;> exact List.Sublist.refl _
  | succ n ih =>
    intro s
    cases s with
    | nil => exact List.Sublist.refl _
    | cons c s =>
      have link : ∀ v : Str, p ++ v <+: c :: s → (p ++ dropDocs p n ((c :: s).drop (p ++ v).length)).Sublist (c :: s) := by
        rintro v ⟨s', e⟩
        rw [← e, List.drop_left, List.append_assoc]
        exact List.Sublist.append (List.Sublist.refl p) ((ih s').trans (List.sublist_append_right v s'))
      unfold dropDocs
      split
      · rename_i h; exact link _ h
      · split
        · rename_i h; exact link _ h
        · exact (ih s).cons_cons c

/-- **C147** (the part that holds) If no link of the README goes to a folder `docs` in `docs`, no link of the first page goes to `docs`. -/
theorem C147_links_partial (readme : Str)
    (h1 : ¬ Occurs "](docs/docs/" readme) (h2 : ¬ Occurs "](/docs/docs/" readme)
    (h3 : ¬ Occurs "](docs//docs/" readme) (h4 : ¬ Occurs "](/docs//docs/" readme)
    (h5 : ¬ Occurs "src=\"docs/docs/" readme) (h6 : ¬ Occurs "src=\"/docs/docs/" readme)
    (h7 : ¬ Occurs "src=\"docs//docs/" readme) (h8 : ¬ Occurs "src=\"/docs//docs/" readme) :
    ¬ Occurs "](docs/" (indexText readme) ∧ ¬ Occurs "](/docs/" (indexText readme) ∧
    ¬ Occurs "src=\"docs/" (indexText readme) ∧ ¬ Occurs "src=\"/docs/" (indexText readme) := by
  have last : ∀ (q t : Str), '\n' ∉ q → q ≠ [] → q <:+: t ++ "\n".toList → q <:+: t := by
    intro q t hn hq h
    rw [show "\n".toList = ['\n'] from rfl, List.infix_concat_iff] at h
    rcases h with h | h
    · exfalso
      obtain ⟨q', rfl⟩ : ∃ q', q = q' ++ ['\n'] := by
        rcases List.suffix_concat_iff.mp h with h | ⟨q', e, -⟩
        · exact absurd h hq
        · exact ⟨q', e⟩
      exact hn (by simp)
    · exact h
  have first : ∀ n s, (∀ w, w = "docs/".toList ∨ w = "/docs/".toList → "](".toList ++ w <:+: dropDocs "](".toList n s → s.length ≤ n →
      "](".toList ++ "docs/".toList ++ w <:+: s ∨ "](".toList ++ "/docs/".toList ++ w <:+: s) := by
    intro n s w hw h hn
    rcases hw with rfl | rfl
    · exact dropDocs_twice ']' "(".toList _ (.inl rfl) (by decide +kernel) (by decide +kernel) (by decide +kernel) n s hn h
    · exact dropDocs_twice ']' "(".toList _ (.inr rfl) (by decide +kernel) (by decide +kernel) (by decide +kernel) n s hn h
  have second : ∀ n s, (∀ w, w = "docs/".toList ∨ w = "/docs/".toList → "src=\"".toList ++ w <:+: dropDocs "src=\"".toList n s →
      s.length ≤ n → "src=\"".toList ++ "docs/".toList ++ w <:+: s ∨ "src=\"".toList ++ "/docs/".toList ++ w <:+: s) := by
    intro n s w hw h hn
    rcases hw with rfl | rfl
    · exact dropDocs_twice 's' "rc=\"".toList _ (.inl rfl) (by decide +kernel) (by decide +kernel) (by decide +kernel) n s hn h
    · exact dropDocs_twice 's' "rc=\"".toList _ (.inr rfl) (by decide +kernel) (by decide +kernel) (by decide +kernel) n s hn h
  unfold indexText
  refine ⟨fun h => ?_, fun h => ?_, fun h => ?_, fun h => ?_⟩
  · have h := dropDocs_keeps _ _ (by decide +kernel) (by decide +kernel) (by decide) _ _ (last _ _ (by decide +kernel) (by decide) h)
    rcases first _ _ "docs/".toList (.inl rfl) h (le_refl _) with h | h
    · exact h1 h
    · exact h2 h
  · have h := dropDocs_keeps _ _ (by decide +kernel) (by decide +kernel) (by decide) _ _ (last _ _ (by decide +kernel) (by decide) h)
    rcases first _ _ "/docs/".toList (.inr rfl) h (le_refl _) with h | h
    · exact h3 h
    · exact h4 h
  · rcases second _ _ "docs/".toList (.inl rfl) (last _ _ (by decide +kernel) (by decide) h) (le_refl _) with h | h
    · exact h5 (dropDocs_keeps _ _ (by decide +kernel) (by decide +kernel) (by decide) _ _ h)
    · exact h6 (dropDocs_keeps _ _ (by decide +kernel) (by decide +kernel) (by decide) _ _ h)
  · rcases second _ _ "/docs/".toList (.inr rfl) (last _ _ (by decide +kernel) (by decide) h) (le_refl _) with h | h
    · exact h7 (dropDocs_keeps _ _ (by decide +kernel) (by decide +kernel) (by decide) _ _ h)
    · exact h8 (dropDocs_keeps _ _ (by decide +kernel) (by decide +kernel) (by decide) _ _ h)

/-- **C147** A README without such links is the first page, with a line break at the end. -/
theorem C147_same (readme : Str) (h1 : ¬ Occurs "](docs/" readme) (h2 : ¬ Occurs "](/docs/" readme)
    (h3 : ¬ Occurs "src=\"docs/" readme) (h4 : ¬ Occurs "src=\"/docs/" readme) : indexText readme = readme ++ ['\n'] := by
  unfold indexText
  have e := dropDocs_same "](".toList readme.length readme h1 h2
  simp only [e, dropDocs_same "src=\"".toList _ readme h3 h4]
  rfl

/-- **C147** Characters are only taken away, never changed or moved. -/
theorem C147_only_less (readme : Str) : (indexText readme).Sublist (readme ++ ['\n']) := by
  unfold indexText
  exact ((dropDocs_sublist _ _ _).trans (dropDocs_sublist _ _ _)).append (List.Sublist.refl _)

/-- `t` is `s` with the folder `docs` taken out of some of the links that begin with `p` -/
inductive Relinked (p : Str) : Str → Str → Prop
  | nil : Relinked p [] []
  | keep (c : Char) {s t : Str} : Relinked p s t → Relinked p (c :: s) (c :: t)
  | link {s t : Str} : Relinked p s t → Relinked p (p ++ "docs/".toList ++ s) (p ++ t)
  | root {s t : Str} : Relinked p s t → Relinked p (p ++ "/docs/".toList ++ s) (p ++ t)

theorem Relinked.refl (p : Str) : ∀ s : Str, Relinked p s s
  | [] => .nil
  | c :: s => .keep c (Relinked.refl p s)

theorem dropDocs_relinked (p : Str) : ∀ (n : Nat) (s : Str), Relinked p s (dropDocs p n s) := by
  intro n
  induction n with
  | zero => intro s; cases s <;> exact Relinked.refl p _
  | succ n ih =>
    intro s
    cases s with
    | nil => exact .nil
    | cons c s =>
      unfold dropDocs
      split
      · rename_i h
        obtain ⟨s', e⟩ := h
        rw [← e, List.drop_left]
        exact .root (ih s')
      · split
        · rename_i h
          obtain ⟨s', e⟩ := h
          rw [← e, List.drop_left]
          exact .link (ih s')
        · exact .keep c (ih s)

/-- **C147** The first page is the README with nothing but the folder `docs` taken out of links, those of markdown and then those of html. -/
theorem C147_only_docs (readme : Str) : ∃ markdown html : Str, Relinked "](".toList readme markdown ∧
    Relinked "src=\"".toList markdown html ∧ indexText readme = html ++ ['\n'] :=
  ⟨_, _, dropDocs_relinked _ _ _, dropDocs_relinked _ _ _, rfl⟩

/-! ### Examples and witnesses -/

/-- Relinked: other changes are not allowed -/
example : ¬ Relinked "](".toList "a".toList "b".toList := by
  intro h
  generalize hs : "a".toList = s at h
  generalize ht : "b".toList = t at h
  cases h with
  | nil => cases hs
  | keep c h => rw [show "a".toList = ['a'] from rfl] at hs; rw [show "b".toList = ['b'] from rfl] at ht; injection hs with h1; injection ht with h2; rw [← h1] at h2; exact absurd h2 (by decide)
  | link h => have := congrArg List.length hs; simp at this
  | root h => have := congrArg List.length hs; simp at this

/-- the forms of links in the README -/
example : indexText "![a](/docs/a.gif) <img src=\"docs/b.png\"> [d](https://x/docs/) [e](docs/e)".toList =
    "![a](a.gif) <img src=\"b.png\"> [d](https://x/docs/) [e](e)\n".toList := by decide +kernel

/-- C147_links_partial: the hypotheses hold for them -/
example : let s := "![a](/docs/a.gif) <img src=\"docs/b.png\"> [d](https://x/docs/) [e](docs/e)".toList
    ¬ Occurs "](docs/docs/" s ∧ ¬ Occurs "](/docs/docs/" s ∧ ¬ Occurs "](docs//docs/" s ∧ ¬ Occurs "](/docs//docs/" s ∧
    ¬ Occurs "src=\"docs/docs/" s ∧ ¬ Occurs "src=\"/docs/docs/" s ∧ ¬ Occurs "src=\"docs//docs/" s ∧
    ¬ Occurs "src=\"/docs//docs/" s ∧ Occurs "](docs/" s := by decide +kernel

/-- C147_same: hypotheses -/
example : let s := "[d](https://x/docs/) src='docs/a'".toList
    ¬ Occurs "](docs/" s ∧ ¬ Occurs "](/docs/" s ∧ ¬ Occurs "src=\"docs/" s ∧ ¬ Occurs "src=\"/docs/" s := by decide +kernel

/-- **C147** Not so: no link of the first page goes to `docs`. What was replaced is not looked at again, and links with other quotes, with
`./`, or by reference are not found. -/
theorem C147_false_links :
    indexText "[a](docs/docs/a) <img src='docs/b'> [c](./docs/c) [d]: docs/d".toList =
      "[a](docs/a) <img src='docs/b'> [c](./docs/c) [d]: docs/d\n".toList := by decide +kernel

end Norfair.Props
