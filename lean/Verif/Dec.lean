import Verif.Py

/-! # Numbers: `decimal.Decimal`, `int`, `float`

`Decimal(text)` and `str(Decimal)` are exact and unbounded here.  Simplification: CPython refuses exponents beyond
about 10^18 and `int` texts beyond 4300 digits; the model has no such limits. -/

namespace Ndm

/-- A `decimal.Decimal`: `(-1)^neg * coef * 10^exp`, an infinity, or a NaN with its payload. -/
inductive Dec where
  | fin (neg : Bool) (coef : Nat) (exp : Int)
  | inf (neg : Bool)
  | nan (neg : Bool) (signaling : Bool) (payload : Nat)
deriving DecidableEq, Repr

/-- The decimal digits of a natural number. -/
def natDigits (n : Nat) : Str := Nat.toDigits 10 n

/-- `str(int)`. -/
def intStr (i : Int) : Str := if i < 0 then '-' :: natDigits i.natAbs else natDigits i.natAbs

/-- `"%+d" % i`. -/
def signedStr (i : Int) : Str := (if i < 0 then '-' else '+') :: natDigits i.natAbs

def zeros (n : Nat) : Str := List.replicate n '0'

def signStr (neg : Bool) : Str := if neg then ['-'] else []

/-- `str(Decimal)` (`_pydecimal.Decimal.__str__`). -/
def Dec.toStr : Dec → Str
  | .inf neg => signStr neg ++ py "Infinity"
  | .nan neg sig p =>
    signStr neg ++ (if sig then py "sNaN" else py "NaN") ++ (if p = 0 then [] else natDigits p)
  | .fin neg coef exp =>
    let ds := natDigits coef
    let leftdigits : Int := exp + ds.length
    let dotplace : Int := if exp ≤ 0 ∧ leftdigits > -6 then leftdigits else 1
    let body :=
      if dotplace ≤ 0 then '0' :: '.' :: (zeros (-dotplace).toNat ++ ds)
      else if dotplace ≥ ds.length then ds ++ zeros (dotplace.toNat - ds.length)
      else ds.take dotplace.toNat ++ '.' :: ds.drop dotplace.toNat
    let e := if leftdigits = dotplace then [] else 'E' :: signedStr (leftdigits - dotplace)
    signStr neg ++ body ++ e

/-- `f"{d:f}"` for a finite `d`, read back: the exponent is made non-positive (used by `xsdata` when it serialises). -/
def Dec.plain : Dec → Dec
  | .fin neg coef exp => if exp > 0 then .fin neg (coef * 10 ^ exp.toNat) 0 else .fin neg coef exp
  | d => d

/-- The value of a decimal digit character. -/
def digitVal (c : Char) : Option Nat :=
  if isAscii c then (if isAsciiDigit c then some (c.toNat - 48) else none) else uniDigit c

def isDigit (c : Char) : Bool := (digitVal c).isSome

/-- The number denoted by a digit string (most significant first). -/
def digitsVal (s : Str) : Nat := s.foldl (fun a c => a * 10 + (digitVal c).getD 0) 0

/-- Case-insensitive comparison with an ASCII word given in lower case. -/
def eqNoCase (s : Str) (w : Str) : Bool :=
  s.map (fun c => if isAsciiUpper c then Char.ofNat (c.toNat + 32) else c) == w

/-- Split an optional sign off. -/
def takeSign : Str → Bool × Str
  | '-' :: s => (true, s)
  | '+' :: s => (false, s)
  | s => (false, s)

/-- `[eE][+-]?\d+` or nothing, up to the end of the string. -/
def parseExp : Str → Option Int
  | [] => some 0
  | c :: s =>
    if c = 'e' ∨ c = 'E' then
      let (neg, ds) := takeSign s
      if ds.isEmpty || !ds.all isDigit then none
      else some (if neg then -(digitsVal ds : Int) else digitsVal ds)
    else none

/-- `\d*(\.\d*)?([eE][+-]?\d+)?` with at least one digit before the exponent. -/
def parseNumber (neg : Bool) (s : Str) : Option Dec :=
  let i := s.takeWhile isDigit
  let r := s.dropWhile isDigit
  let (f, r') : Str × Str := match r with
    | '.' :: t => (t.takeWhile isDigit, t.dropWhile isDigit)
    | t => ([], t)
  if i.isEmpty && f.isEmpty then none
  else match parseExp r' with
    | some e => some (.fin neg (digitsVal (i ++ f)) (e - f.length))
    | none => none

/-- `Decimal(text)`; `none` is `InvalidOperation`. -/
def Dec.parse (s : Str) : Option Dec :=
  let t := (strip s).filter (· ≠ '_')
  let (neg, u) := takeSign t
  if eqNoCase u (py "inf") || eqNoCase u (py "infinity") then some (.inf neg)
  else if eqNoCase (u.take 3) (py "nan") && (u.drop 3).all isDigit then some (.nan neg false (digitsVal (u.drop 3)))
  else if eqNoCase (u.take 4) (py "snan") && (u.drop 4).all isDigit then some (.nan neg true (digitsVal (u.drop 4)))
  else parseNumber neg u

/-- Every underscore stands between two digits (the rule of `int()` and `float()`); `prev` is the previous character. -/
def underscoresOk : Option Char → Str → Bool
  | _, [] => true
  | p, '_' :: s =>
    (match p with | some c => isDigit c | none => false) &&
    (match s with | c :: _ => isDigit c | [] => false) && underscoresOk (some '_') s
  | _, c :: s => underscoresOk (some c) s

/-- `int(text)`; `none` is `ValueError`. -/
def parseInt (s : Str) : Option Int :=
  let t := strip s
  if !underscoresOk none t then none
  else
    let (neg, ds) := takeSign (t.filter (· ≠ '_'))
    if ds.isEmpty || !ds.all isDigit then none
    else some (if neg then -(digitsVal ds : Int) else digitsVal ds)

/-- Whether `float(text)` succeeds. -/
def floatOk (s : Str) : Bool :=
  let t := strip s
  if !underscoresOk none t then false
  else
    let (neg, u) := takeSign (t.filter (· ≠ '_'))
    eqNoCase u (py "inf") || eqNoCase u (py "infinity") || eqNoCase u (py "nan") || (parseNumber neg u).isSome

end Ndm
