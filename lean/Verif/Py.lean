import Lean.Elab.Term
import Lean.ToExpr
/-! # Python exceptions and the Python `str` operations used by the code

Strings are lists of Unicode scalar values.  (A Python `str` may also hold lone surrogates; those are not
representable here.)  Where CPython consults the Unicode database for a non-ASCII character, the model calls an
`opaque` function: nothing can be proved about its value, so every theorem holds whatever the database says. -/

namespace Ndm

/-- A Python `str`. -/
abbrev Str := List Char

/-- A Python string. -/
abbrev py (s : String) : Str := s.toList

/-- A Python string literal, given by its characters. -/
def lit (s : Str) : Str := s

@[simp] theorem lit_inj {s t : Str} : lit s = lit t ↔ s = t := Iff.rfl

open Lean Elab Term in
/-- The characters of a string literal. -/
elab "py_literal% " s:str : term => return mkApp (mkConst ``lit) (toExpr s.getString.toList)

/-- `py "..."` stands for the list of the characters of the literal.  (It is the same list as `String.toList` gives, but the kernel
need not decode it from UTF-8, see `py_eq`.) -/
macro_rules
  | `(py $s:str) => `(py_literal% $s)

/-- An example of a literal. -/
theorem py_eq : py "É = 1 [km]" = String.toList "É = 1 [km]" := by decide

/-- The exceptions the code can raise.  `nonTermination` is not a Python exception: it marks the exhaustion of the
fuel given to a loop, i.e. a run that would not have stopped within the stated number of iterations. -/
inductive PyErr where
  | valueError | indexError | attributeError | keyError | typeError | notImplementedError | stopIteration
  | /-- `xsdata.exceptions.ParserError` -/ parserError
  | /-- `OSError`, such as `FileNotFoundError` -/ osError
  | nonTermination
deriving DecidableEq, Repr

/-- `l[i]` for a non-negative index. -/
def pyGet {α : Type} (l : List α) (i : Nat) : Except PyErr α :=
  match l[i]? with
  | some x => .ok x
  | none => .error .indexError

/-! ## Characters -/

/-- `str.upper` of a non-ASCII character. -/
opaque uniUpper : Char → Str
/-- `str.isnumeric` of a non-ASCII character. -/
opaque uniIsNumeric : Char → Bool
/-- `str.isalpha` of a non-ASCII character. -/
opaque uniIsAlpha : Char → Bool
/-- The decimal digit value of a non-ASCII character, if any (`Decimal`, `int` and `float` accept those). -/
opaque uniDigit : Char → Option Nat
/-- Whether `lxml` accepts a tag name that is not made of plain ASCII name characters. -/
opaque uniTagOk : Str → Bool

/-- `str.isspace` of one character: the complete CPython set. -/
def isSpace (c : Char) : Bool :=
  let n := c.toNat
  (9 ≤ n && n ≤ 13) || (28 ≤ n && n ≤ 32) || n == 133 || n == 160 || n == 5760 ||
  (8192 ≤ n && n ≤ 8202) || n == 8232 || n == 8233 || n == 8239 || n == 8287 || n == 12288

def isAscii (c : Char) : Bool := c.toNat < 128

def isAsciiDigit (c : Char) : Bool := 48 ≤ c.toNat && c.toNat ≤ 57

def isAsciiUpper (c : Char) : Bool := 65 ≤ c.toNat && c.toNat ≤ 90

def isAsciiLower (c : Char) : Bool := 97 ≤ c.toNat && c.toNat ≤ 122

/-- `str.upper` of one character. -/
def upperChar (c : Char) : Str :=
  if isAscii c then (if isAsciiLower c then [Char.ofNat (c.toNat - 32)] else [c]) else uniUpper c

/-- `str.upper`. -/
def upper (s : Str) : Str := s.flatMap upperChar

/-- `str.isnumeric`. -/
def isNumeric (s : Str) : Bool :=
  !s.isEmpty && s.all (fun c => if isAscii c then isAsciiDigit c else uniIsNumeric c)

/-- `str.isalpha`. -/
def isAlpha (s : Str) : Bool :=
  !s.isEmpty && s.all (fun c => if isAscii c then isAsciiUpper c || isAsciiLower c else uniIsAlpha c)

/-- `str.isupper`, for ASCII strings (it is only applied to the schema's metadata names, which are ASCII). -/
def isUpper (s : Str) : Bool := s.any isAsciiUpper && !s.any isAsciiLower

/-! ## Stripping, splitting, joining -/

/-- `str.lstrip()`. -/
def lstrip (s : Str) : Str := s.dropWhile isSpace

/-- `str.rstrip()`. -/
def rstrip (s : Str) : Str := (s.reverse.dropWhile isSpace).reverse

/-- `str.strip()`. -/
def strip (s : Str) : Str := rstrip (lstrip s)

/-- `s.split(d)` for a one-character separator. -/
def splitChar (d : Char) : Str → List Str
  | [] => [[]]
  | c :: cs =>
    if c = d then [] :: splitChar d cs
    else match splitChar d cs with
      | [] => [[c]]
      | l :: ls => (c :: l) :: ls

/-- `s.split(d, maxsplit=1)`. -/
def splitOnce (d : Char) : Str → List Str
  | [] => [[]]
  | c :: cs =>
    if c = d then [[], cs]
    else match splitOnce d cs with
      | [] => [[c]]
      | l :: ls => (c :: l) :: ls

/-- Worker of `words`; `cur` is the current token reversed. -/
def wordsGo (cur : Str) : Str → List Str
  | [] => if cur.isEmpty then [] else [cur.reverse]
  | c :: cs =>
    if isSpace c then
      (if cur.isEmpty then wordsGo [] cs else cur.reverse :: wordsGo [] cs)
    else wordsGo (c :: cur) cs

/-- `s.split()`: split at runs of whitespace. -/
def words (s : Str) : List Str := wordsGo [] s

/-- `sep.join(l)`. -/
def joinWith (sep : Str) : List Str → Str
  | [] => []
  | [l] => l
  | l :: ls => l ++ sep ++ joinWith sep ls

/-- `s.startswith(p)`. -/
def startsWith (s p : Str) : Bool := p.isPrefixOf s

/-- `s.endswith(p)`. -/
def endsWith (s p : Str) : Bool := p.isSuffixOf s

/-- `f"{s:<n}"`. -/
def ljust (n : Nat) (s : Str) : Str := s ++ List.replicate (n - s.length) ' '

/-- Worker of `removeAll`; `skip` characters of a match remain to be dropped. -/
def removeGo (p : Str) : Nat → Str → Str
  | _, [] => []
  | skip + 1, _ :: cs => removeGo p skip cs
  | 0, c :: cs => if p.isPrefixOf (c :: cs) then removeGo p (p.length - 1) cs else c :: removeGo p 0 cs

/-- `s.replace(p, "")` for a non-empty `p`. -/
def removeAll (p : Str) (s : Str) : Str := removeGo p 0 s

end Ndm
