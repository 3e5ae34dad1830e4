import Verif.Model.DeployDocs

/-!
C146: where the alias `latest` of the published documentation points to.
-/

namespace Norfair.Props

open Norfair

/-- `major.minor` of `d` is not above that of `e` -/
def DocLe (d e : PublishedDoc) : Prop := d.major < e.major ∨ d.major = e.major ∧ d.minor ≤ e.minor

/-- One documentation has the alias `latest`, no other has an alias, and its number is the highest -/
def SiteOk (site : List PublishedDoc) : Prop :=
  site = [] ∨ ∃ d ∈ site, d.aliases = ["latest"] ∧ ∀ e ∈ site, DocLe e d ∧ (e ≠ d → e.aliases = []) ∧
    (e.major = d.major → e.minor = d.minor → e = d)

theorem siteOk_latest {site : List PublishedDoc} {d : PublishedDoc} (hd : d ∈ site) (ha : d.aliases = ["latest"])
    (h : ∀ e ∈ site, DocLe e d ∧ (e ≠ d → e.aliases = []) ∧ (e.major = d.major → e.minor = d.minor → e = d)) :
    latestVersion site = some ⟨d.major, d.minor, 0, false⟩ := by
  unfold latestVersion
  cases hf : site.find? fun d => d.aliases = ["latest"] with
  | none =>
    have := List.find?_eq_none.mp hf d hd
    simp [ha] at this
  | some e =>
    have h1 := List.find?_some hf
    have h2 := List.mem_of_find?_eq_some hf
    have : e = d := by
      by_contra hne
      rw [(h e h2).2.1 hne] at h1
      simp at h1
    rw [this]
    rfl

/-- **C146** After any deployment from a good site the site is good: exactly one documentation has the alias `latest`, and it is the one
with the highest number. -/
theorem C146_step {site : List PublishedDoc} (h : SiteOk site) (v : PkgVersion) : SiteOk (deployDocs site v) := by
  rcases h with rfl | ⟨d, hd, ha, h⟩
  · refine .inr ⟨⟨v.major, v.minor, v, ["latest"]⟩, ?_, rfl, ?_⟩
    · simp [deployDocs, latestVersion, mikeDeploy]
    · simp [deployDocs, latestVersion, mikeDeploy, DocLe]
  · have hl := siteOk_latest hd ha h
    unfold deployDocs
    rw [hl]
    simp only
    by_cases hb : v.before ⟨d.major, d.minor, 0, false⟩ = true
    · rw [if_pos hb]
      have hle : v.major < d.major ∨ v.major = d.major ∧ v.minor ≤ d.minor := by
        simp [PkgVersion.before] at hb
        omega
      by_cases hs : v.major = d.major ∧ v.minor = d.minor
      · have hold : (site.find? fun e => e.major = v.major ∧ e.minor = v.minor) = some d := by
          cases hf : site.find? fun e => e.major = v.major ∧ e.minor = v.minor with
          | none =>
            have := List.find?_eq_none.mp hf d hd
            simp [hs.1, hs.2] at this
          | some e =>
            have h1 := List.find?_some hf
            simp at h1
            rw [(h e (List.mem_of_find?_eq_some hf)).2.2 (h1.1.trans hs.1) (h1.2.trans hs.2)]
        refine .inr ⟨⟨v.major, v.minor, v, ["latest"]⟩, ?_, rfl, ?_⟩
        · simp only [mikeDeploy, hold, Option.map_some, Option.getD_some, ha]
          exact List.mem_cons_self
        · intro e he
          simp only [mikeDeploy, hold, Option.map_some, Option.getD_some, ha, List.mem_cons, List.mem_map, List.mem_filter] at he
          rcases he with rfl | ⟨e, ⟨he, hne⟩, rfl⟩
          · exact ⟨.inr ⟨rfl, Nat.le_refl _⟩, fun hh => absurd rfl hh, fun _ _ => rfl⟩
          · have hed : e ≠ d := by
              rintro rfl
              simp [hs.1, hs.2] at hne
            refine ⟨?_, fun _ => ?_, fun h1 h2 => ?_⟩
            · have := (h e he).1
              simp only [DocLe] at this ⊢
              omega
            · simp [(h e he).2.1 hed]
            · have hne := of_decide_eq_true hne
              exact absurd ⟨h1, h2⟩ hne
      · have hne : ¬ (d.major = v.major ∧ d.minor = v.minor) := fun hh => hs ⟨hh.1.symm, hh.2.symm⟩
        have hold : ((site.find? fun e => e.major = v.major ∧ e.minor = v.minor).map (·.aliases)).getD [] = [] := by
          cases hf : site.find? fun e => e.major = v.major ∧ e.minor = v.minor with
          | none => rfl
          | some e =>
            have h1 := List.find?_some hf
            simp at h1
            have : e ≠ d := by rintro rfl; exact hne h1
            exact (h e (List.mem_of_find?_eq_some hf)).2.1 this
        refine .inr ⟨d, ?_, ha, ?_⟩
        · refine List.mem_cons_of_mem _ (List.mem_map.mpr ⟨d, List.mem_filter.mpr ⟨hd, decide_eq_true hne⟩, ?_⟩)
          simp
        · intro e he
          simp only [mikeDeploy, hold, List.mem_cons, List.mem_map, List.mem_filter] at he
          rcases he with rfl | ⟨e, ⟨he, -⟩, rfl⟩
          · exact ⟨hle, fun _ => rfl, fun h1 h2 => absurd ⟨h1.symm, h2.symm⟩ hne⟩
          · have e1 : ({ e with aliases := e.aliases.filter fun a => some a ≠ (none : Option String) } : PublishedDoc) = e := by
              cases e; simp
            rw [e1]
            exact h e he
    · rw [if_neg hb]
      have hge : d.major < v.major ∨ d.major = v.major ∧ d.minor ≤ v.minor := by
        simp [PkgVersion.before] at hb
        omega
      have hold : ((site.find? fun e => e.major = v.major ∧ e.minor = v.minor).map (·.aliases)).getD [] = [] ∨
          ((site.find? fun e => e.major = v.major ∧ e.minor = v.minor).map (·.aliases)).getD [] = ["latest"] := by
        cases hf : site.find? fun e => e.major = v.major ∧ e.minor = v.minor with
        | none => exact .inl rfl
        | some e =>
          by_cases hed : e = d
          · right; rw [hed]; exact ha
          · left; exact (h e (List.mem_of_find?_eq_some hf)).2.1 hed
      have hal : (if "latest" ∈ ((site.find? fun e => e.major = v.major ∧ e.minor = v.minor).map (·.aliases)).getD [] then
          ((site.find? fun e => e.major = v.major ∧ e.minor = v.minor).map (·.aliases)).getD [] else
          ((site.find? fun e => e.major = v.major ∧ e.minor = v.minor).map (·.aliases)).getD [] ++ ["latest"]) = ["latest"] := by
        rcases hold with e | e <;> rw [e] <;> simp
      refine .inr ⟨⟨v.major, v.minor, v, ["latest"]⟩, ?_, rfl, ?_⟩
      · simp only [mikeDeploy, hal]
        exact List.mem_cons_self
      · intro e he
        simp only [mikeDeploy, hal, List.mem_cons, List.mem_map, List.mem_filter] at he
        rcases he with rfl | ⟨e, ⟨he, hne⟩, rfl⟩
        · exact ⟨.inr ⟨rfl, Nat.le_refl _⟩, fun hh => absurd rfl hh, fun _ _ => rfl⟩
        · refine ⟨?_, fun _ => ?_, fun h1 h2 => ?_⟩
          · have := (h e he).1
            simp only [DocLe] at this ⊢
            omega
          · by_cases hed : e = d
            · simp [hed, ha]
            · simp [(h e he).2.1 hed]
          · have hne := of_decide_eq_true hne
            exact absurd ⟨h1, h2⟩ hne

/-- the numbers of all documentations are those that were deployed -/
theorem deployDocs_mem (site : List PublishedDoc) (v : PkgVersion) (a b : Nat) :
    (∃ e ∈ deployDocs site v, e.major = a ∧ e.minor = b) ↔ (v.major = a ∧ v.minor = b) ∨ ∃ e ∈ site, e.major = a ∧ e.minor = b := by
  unfold deployDocs
  generalize (match latestVersion site with
    | none => some "latest"
    | some l => if v.before l then none else some "latest") = al
  constructor
  · rintro ⟨e, he, h⟩
    rcases List.mem_cons.mp he with rfl | he
    · exact .inl h
    · obtain ⟨e', he', rfl⟩ := List.mem_map.mp he
      exact .inr ⟨e', (List.mem_filter.mp he').1, h⟩
  · rintro (h | ⟨e, he, h⟩)
    · exact ⟨_, List.mem_cons_self, h⟩
    · by_cases hs : e.major = v.major ∧ e.minor = v.minor
      · exact ⟨_, List.mem_cons_self, by dsimp only; omega⟩
      · exact ⟨_, List.mem_cons_of_mem _ (List.mem_map.mpr ⟨e, List.mem_filter.mpr ⟨he, decide_eq_true hs⟩, rfl⟩), h⟩

/-- **C146** (the part that holds) After any deployments, in any order, exactly one documentation has the alias `latest`, no other one has
an alias, and its `major.minor` is the highest of all versions that were deployed. The numbers of the documentations are those of
these versions. -/
theorem C146_latest_partial (vs : List PkgVersion) (hne : vs ≠ []) :
    ∃ d ∈ vs.foldl deployDocs [], d.aliases = ["latest"] ∧
      (∀ e ∈ vs.foldl deployDocs [], e ≠ d → e.aliases = []) ∧
      (∃ v ∈ vs, v.major = d.major ∧ v.minor = d.minor) ∧
      ∀ v ∈ vs, (v.major < d.major ∨ v.major = d.major ∧ v.minor ≤ d.minor) ∧
        ∃ e ∈ vs.foldl deployDocs [], e.major = v.major ∧ e.minor = v.minor := by
  have hok : ∀ (vs : List PkgVersion) (site : List PublishedDoc), SiteOk site → SiteOk (vs.foldl deployDocs site) := by
    intro vs
    induction vs with
    | nil => intro site h; exact h
    | cons v vs ih => intro site h; exact ih _ (C146_step h v)
  have hmem : ∀ (vs : List PkgVersion) (site : List PublishedDoc) (a b : Nat),
      (∃ e ∈ vs.foldl deployDocs site, e.major = a ∧ e.minor = b) ↔
        (∃ v ∈ vs, v.major = a ∧ v.minor = b) ∨ ∃ e ∈ site, e.major = a ∧ e.minor = b := by
    intro vs
    induction vs with
    | nil => intro site a b; simp
    | cons v vs ih =>
      intro site a b
      rw [List.foldl_cons, ih, deployDocs_mem]
      simp only [List.mem_cons, exists_eq_or_imp]
      constructor
      · rintro (h | h | h)
        · exact .inl (.inr h)
        · exact .inl (.inl h)
        · exact .inr h
      · rintro ((h | h) | h)
        · exact .inr (.inl h)
        · exact .inl h
        · exact .inr (.inr h)
  rcases hok vs [] (.inl rfl) with h0 | ⟨d, hd, ha, h⟩
  · obtain ⟨v, hv⟩ := List.exists_mem_of_ne_nil vs hne
    obtain ⟨e, he, -⟩ := (hmem vs [] v.major v.minor).mpr (.inl ⟨v, hv, rfl, rfl⟩)
    rw [h0] at he
    cases he
  · refine ⟨d, hd, ha, fun e he => (h e he).2.1, ?_, fun v hv => ?_⟩
    · rcases (hmem vs [] d.major d.minor).mp ⟨d, hd, rfl, rfl⟩ with h | ⟨e, he, -⟩
      · exact h
      · cases he
    · obtain ⟨e, he, h1, h2⟩ := (hmem vs [] v.major v.minor).mpr (.inl ⟨v, hv, rfl, rfl⟩)
      refine ⟨?_, e, he, h1, h2⟩
      have := (h e he).1
      simp only [DocLe] at this
      omega

/-- **C146** Each deployment publishes the documentation of the current version under its number. -/
theorem C146_current (site : List PublishedDoc) (v : PkgVersion) :
    ∃ d ∈ deployDocs site v, d.major = v.major ∧ d.minor = v.minor ∧ d.source = v :=
  ⟨_, List.mem_cons_self, rfl, rfl, rfl⟩

/-! ### Examples and witnesses -/

/-- an older version after a newer one; `C146_step`: the site is good before -/
example : [PkgVersion.mk 2 1 0 false, ⟨2, 2, 0, false⟩, ⟨2, 1, 1, false⟩].foldl deployDocs [] =
    [⟨2, 1, ⟨2, 1, 1, false⟩, []⟩, ⟨2, 2, ⟨2, 2, 0, false⟩, ["latest"]⟩] ∧
    SiteOk [⟨2, 1, ⟨2, 1, 1, false⟩, []⟩, ⟨2, 2, ⟨2, 2, 0, false⟩, ["latest"]⟩] := by
  have h : [PkgVersion.mk 2 1 0 false, ⟨2, 2, 0, false⟩, ⟨2, 1, 1, false⟩].foldl deployDocs [] =
    [⟨2, 1, ⟨2, 1, 1, false⟩, []⟩, ⟨2, 2, ⟨2, 2, 0, false⟩, ["latest"]⟩] := by decide +kernel
  refine ⟨h, ?_⟩
  rw [← h]
  simp only [List.foldl_cons, List.foldl_nil]
  exact C146_step (C146_step (C146_step (.inl rfl) _) _) _

/-- **C146** Not so: under `latest` is the documentation of the highest version. If 2.1.1 is deployed again after 2.1.5, or a pre-release of
2.1.0 after it, this replaces it; and a pre-release gets the alias. -/
theorem C146_false_source :
    [PkgVersion.mk 2 1 5 false, ⟨2, 1, 1, false⟩].foldl deployDocs [] = [⟨2, 1, ⟨2, 1, 1, false⟩, ["latest"]⟩] ∧
    [PkgVersion.mk 2 1 0 false, ⟨2, 1, 0, true⟩].foldl deployDocs [] = [⟨2, 1, ⟨2, 1, 0, true⟩, ["latest"]⟩] ∧
    [PkgVersion.mk 2 1 0 false, ⟨2, 2, 0, true⟩].foldl deployDocs [] =
      [⟨2, 2, ⟨2, 2, 0, true⟩, ["latest"]⟩, ⟨2, 1, ⟨2, 1, 0, false⟩, []⟩] := by
  decide +kernel

/-- **C146** Not so: `latest` never goes back. If the documentation has a second alias, it is not found, and any version gets it. -/
theorem C146_false_alias :
    deployDocs [⟨2, 2, ⟨2, 2, 0, false⟩, ["latest", "stable"]⟩] ⟨1, 0, 3, false⟩ =
      [⟨1, 0, ⟨1, 0, 3, false⟩, ["latest"]⟩, ⟨2, 2, ⟨2, 2, 0, false⟩, ["stable"]⟩] := by
  decide +kernel

end Norfair.Props
