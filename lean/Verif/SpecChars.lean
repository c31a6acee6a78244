import Verif.Files
import Verif.SpecWithin

/-! # Specification for C81: the characters of written text -/

namespace Ndm

/-- Printable ASCII characters. -/
def Printable (c : Char) : Prop := 32 ≤ c.toNat ∧ c.toNat ≤ 126

/-- A class of characters that has the printable ASCII characters and the line feed, and with a character its upper case. -/
structure CharClass (P : Char → Prop) : Prop where
  printable : ∀ c, Printable c → P c
  newline : P '\n'
  upper : ∀ c, P c → ∀ u ∈ upperChar c, P u

/-- Every text in the value consists of such characters. -/
def TextsIn (P : Char → Prop) (v : Val) : Prop := ∀ s, Within (.str s) v → ∀ c ∈ s, P c

/-- The text encoding of the platform covers ASCII. -/
def AsciiFiles (P : Platform) : Prop := ∀ s : Str, (∀ c ∈ s, c.toNat < 128) → ∃ b, P.encode s = some b ∧ P.decode b = some s

end Ndm
