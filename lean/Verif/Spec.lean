import Verif.Py

/-! # Specification vocabulary (texts)

Small notions used to state the properties; none of them refers to the functions of the model other than the
character class `isSpace` (Python's whitespace). -/

namespace Ndm

/-- All characters are whitespace. -/
def Blank (w : Str) : Prop := ∀ c ∈ w, isSpace c = true

/-- No whitespace at either end. -/
def Trimmed (s : Str) : Prop :=
  (∀ c, s.head? = some c → isSpace c = false) ∧ (∀ c, s.getLast? = some c → isSpace c = false)

/-- `core` is what remains of `s` when surrounding whitespace is removed. -/
def Core (s core : Str) : Prop := Trimmed core ∧ ∃ w w', Blank w ∧ Blank w' ∧ s = w ++ core ++ w'

/-- `src` consists of the lines `ls` (there is always at least one, possibly empty). -/
def TextLines (src : Str) (ls : List Str) : Prop :=
  ls ≠ [] ∧ (∀ l ∈ ls, '\n' ∉ l) ∧ src = ['\n'].intercalate ls

/-- `cs` are the contents of the non-blank lines among `ls`, with the whitespace around each removed. -/
inductive SigLines : List Str → List Str → Prop
  | nil : SigLines [] []
  | blank {l ls cs} : Blank l → SigLines ls cs → SigLines (l :: ls) cs
  | line {l c ls cs} : Core l c → c ≠ [] → SigLines ls cs → SigLines (l :: ls) (c :: cs)

/-- The form of a value that the reader takes for a value with a unit. -/
def UnitLike (v : Str) : Prop := '[' ∈ v ∧ v.getLast? = some ']'

/-- A text that a line can start with as a keyword: it has no '=' and does not begin with `COMMENT`. -/
structure Keyword (k : Str) : Prop where
  ne : k ≠ []
  trimmed : Trimmed k
  noEq : '=' ∉ k
  noComment : ¬ ((py "COMMENT") <+: k)

/-- The keyword of the (trimmed, non-empty) line `l`: `COMMENT` for a comment line, otherwise what precedes the first
'=' (or the whole line if it has none). -/
inductive LineKey : Str → Str → Prop
  | comment {l} : (py "COMMENT") <+: l → LineKey l (py "COMMENT")
  | data {l a b k} : ¬ (py "COMMENT") <+: l → '=' ∉ a → l = a ++ '=' :: b → Core a k → LineKey l k
  | bare {l} : ¬ (py "COMMENT") <+: l → '=' ∉ l → LineKey l l

end Ndm
