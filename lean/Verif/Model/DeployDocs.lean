import Mathlib.Data.List.Basic

/-!
Model of `docs/deploy_docs.py`, the script that publishes the documentation. What `mike` keeps is a list of documentations, one for each
`major.minor`.
-/

namespace Norfair

/-- A version of the package, as `version.parse` gives it (`docs/deploy_docs.py` lines 20, 28, 34). Simplifications: three numbers, and all pre-releases (`2.2.0rc1`) of the same version are equal. -/
structure PkgVersion where
  major : Nat
  minor : Nat
  micro : Nat
  pre : Bool
  deriving DecidableEq

/-- `<` of `packaging.version` (used in `docs/deploy_docs.py` line 46): a pre-release is before its version -/
def PkgVersion.before (a b : PkgVersion) : Bool :=
  decide (a.major < b.major) || (decide (a.major = b.major) && (decide (a.minor < b.minor) || (decide (a.minor = b.minor) &&
    (decide (a.micro < b.micro) || (decide (a.micro = b.micro) && a.pre && !b.pre)))))

/-- a documentation that `mike` has (`docs/deploy_docs.py` lines 26, 56): its `major.minor`, the version it was built from, and its aliases -/
structure PublishedDoc where
  major : Nat
  minor : Nat
  source : PkgVersion
  aliases : List String
  deriving DecidableEq

/-- `get_latest_version` (`docs/deploy_docs.py` lines 24-29) on the documentations in the order of `mike list`. A line of `mike list` is
`major.minor`, or `major.minor [alias, alias]`, so it ends with `[latest]` if this is the only alias. Simplification: aliases have no
brackets. -/
def latestVersion (site : List PublishedDoc) : Option PkgVersion :=
  (site.find? fun d => d.aliases = ["latest"]).map fun d => ⟨d.major, d.minor, 0, false⟩

/-- `mike deploy -u major.minor [alias]` (`docs/deploy_docs.py` line 56): the documentation of this number is replaced and keeps its
aliases; with an alias, this is taken from the others and given to it. A new one is put in front; `mike list` has them sorted. -/
def mikeDeploy (site : List PublishedDoc) (major minor : Nat) (source : PkgVersion) (name : Option String) : List PublishedDoc :=
  let others := (site.filter fun d => ¬ (d.major = major ∧ d.minor = minor)).map fun d =>
    { d with aliases := d.aliases.filter fun a => some a ≠ name }
  let old := ((site.find? fun d => d.major = major ∧ d.minor = minor).map (·.aliases)).getD []
  ⟨major, minor, source, match name with
    | none => old
    | some a => if a ∈ old then old else old ++ [a]⟩ :: others

/-- the script (`docs/deploy_docs.py` lines 32-56), with the version in `pyproject.toml` -/
def deployDocs (site : List PublishedDoc) (current : PkgVersion) : List PublishedDoc :=
  let name := match latestVersion site with
    | none => some "latest"
    | some l => if current.before l then none else some "latest"
  mikeDeploy site current.major current.minor current name

end Norfair
