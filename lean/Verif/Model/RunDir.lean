import Verif.Model.Metrics

/-!
Model of `increment_path` of `demos/yolopv2/src/utils.py`: the directory of a new run. Strings are lists of characters.
-/

namespace Norfair

/-- `Path(path).stem`: the last component without its last suffix, where a dot at the beginning or at the end begins no
suffix -/
def pathStem (path : Str) : Str :=
  let name := pathTail path
  let before := (name.reverse.dropWhile (· ≠ '.')).reverse.dropLast
  if before = [] ∨ name.getLast? = some '.' then name else before

/-- whether `key` followed by a digit (`\d`) is at the beginning of the string -/
def Unicode.numberAt (u : Unicode) (key s : Str) : Bool :=
  key.isPrefixOf s && ((s.drop key.length).head?.any fun c => (u.decimal c).isSome)

/-- the group of `re.search(key + "(\d+)", s)`: the digits after the first occurrence of `key` that a digit follows;
`none` if there is no match. Simplification: no character of `key` has a special meaning. -/
def Unicode.searchNumber (u : Unicode) (key : Str) : Str → Option Str
  | [] => none
  | c :: s =>
    if u.numberAt key (c :: s) then
      some (((c :: s).drop key.length).takeWhile fun c => (u.decimal c).isSome)
    else u.searchNumber key s

/-- `glob.glob(prefix + "*")` if `existing` are the paths that exist: `*` stands for any characters but `/`.
Simplifications: no character of the prefix has a special meaning, and the last component does not begin with a dot if
it is not part of the prefix. -/
def globPrefix (existing : List Str) (p : Str) : List Str :=
  existing.filter fun d => p.isPrefixOf d && !(d.drop p.length).contains '/'

/-- `increment_path` (`demos/yolopv2/src/utils.py` lines 102-112); `existing` are the paths that exist. Simplification:
`path` is written as `str(Path(path))` writes it (no `//`, no `/` at the end), and so are the existing paths. `none` if
`int` raises. -/
def incrementPath (u : Unicode) (existing : List Str) (path : Str) (existOk : Bool) (sep : Str) : Option Str :=
  if (existing.contains path && existOk) || !existing.contains path then some path
  else
    let dirs := globPrefix existing (path ++ sep)
    let found := dirs.filterMap (u.searchNumber (pathStem path ++ sep))
    (found.mapM u.parseInt).map fun i =>
      let n := match i.max? with
        | some m => m + 1
        | none => 2
      path ++ sep ++ natStr n

end Norfair
