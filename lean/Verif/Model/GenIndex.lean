import Verif.Model.Metrics

/-!
Model of `docs/gen_index.py`, which makes the first page of the documentation from the README.
-/

namespace Norfair

/-- `re.sub(p + "/?docs/", p, text)` (`docs/gen_index.py` lines 12, 14) for a text `p` without special meaning: from left to right, what was
replaced is not looked at again. The number is a bound for the length of the text. -/
def dropDocs (p : Str) : Nat → Str → Str
  | _, [] => []
  | 0, s => s
  | n + 1, c :: s =>
    if p ++ "/docs/".toList <+: c :: s then p ++ dropDocs p n ((c :: s).drop (p ++ "/docs/".toList).length)
    else if p ++ "docs/".toList <+: c :: s then p ++ dropDocs p n ((c :: s).drop (p ++ "docs/".toList).length)
    else c :: dropDocs p n s

/-- `index.md` (`docs/gen_index.py` lines 8-18): the links of markdown, then those of html, and a line break at the end from `print` -/
def indexText (readme : Str) : Str :=
  let content := dropDocs "](".toList readme.length readme
  let content := dropDocs "src=\"".toList content.length content
  content ++ "\n".toList

end Norfair
