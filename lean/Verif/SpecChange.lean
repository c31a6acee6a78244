import Verif.SpecFrom
import Mathlib.Data.List.Forall2

/-! # Changing the values in a text (specification for C57)

`D` says of which keywords the values may have changed. -/

namespace Ndm

/-- The items of a line (keyword, value, unit) before and after the change: the keyword is the same; if it is one of `D`
the value and unit may be others, but there is a value, and it consists of characters that XML knows. -/
inductive Changed (D : Str → Prop) : List Str → List Str → Prop
  | same (l : List Str) : Changed D l l
  | value {k : Str} {r r' : List Str} : D k → r' ≠ [] → (∀ s ∈ r', ∀ c ∈ s, xmlChar c = true) → Changed D (k :: r) (k :: r')

/-- Texts whose first lines state the same, and whose other lines are related by `R`, line by line.  (Blank lines and
blanks around keywords and values may differ.) -/
def LineByLine (R : List Str → List Str → Prop) (t t' : Str) : Prop :=
  ∃ ls cs ls' cs' first rest rest', TextLines t ls ∧ SigLines ls cs ∧ List.Forall₂ LineItems cs (first :: rest) ∧
    TextLines t' ls' ∧ SigLines ls' cs' ∧ List.Forall₂ LineItems cs' (first :: rest') ∧ List.Forall₂ R rest rest'

/-- Both are absent, or both lists of the same length, or both single values. -/
def SameForm : Val → Val → Prop
  | .none, y => y = .none
  | .list xs, .list ys => xs.length = ys.length
  | .list _, _ => False
  | _, .none => False
  | _, .list _ => False
  | _, _ => True

/-- The name in an object that tells the keyword of the line it was read from: the axis of a rotation, or the name of a
user-defined parameter. -/
def Names (k : Str) (x : Val) : Prop := x = .str k ∨ (∃ c, x = .enum c k) ∨ x = .str (removeAll (py "USER_DEFINED_") k)

mutual
/-- `Alike D v w`: the objects have the same structure and the same contents, except that the contents of fields that
belong to a keyword of `D` may be others. -/
inductive Alike (D : Str → Prop) : Val → Val → Prop
  | same (v : Val) : Alike D v v
  | obj {c : Cls} {vs ws : List (Str × Val)} : AlikeVars D c vs ws → Alike D (.obj c vs) (.obj c ws)
  | list {xs ys : List Val} : AlikeAll D xs ys → Alike D (.list xs) (.list ys)
  /-- An object that holds its keyword and a value. -/
  | named {c : Cls} {vs ws : List (Str × Val)} {k n : Str} {x : Val} : D k → Names k x → (n, x) ∈ vs → (n, x) ∈ ws →
      List.Forall₂ (fun p q => p.1 = q.1 ∧ (p.2 = q.2 ∨ p.1 = py "value" ∨ p.1 = py "units")) vs ws →
      Alike D (.obj c vs) (.obj c ws)

inductive AlikeAll (D : Str → Prop) : List Val → List Val → Prop
  | nil : AlikeAll D [] []
  | cons {x y : Val} {xs ys : List Val} : Alike D x y → AlikeAll D xs ys → AlikeAll D (x :: xs) (y :: ys)

inductive AlikeVars (D : Str → Prop) : Cls → List (Str × Val) → List (Str × Val) → Prop
  | nil {c : Cls} : AlikeVars D c [] []
  | alike {c : Cls} {n : Str} {x y : Val} {vs ws : List (Str × Val)} : Alike D x y → AlikeVars D c vs ws →
      AlikeVars D c ((n, x) :: vs) ((n, y) :: ws)
  /-- The field belongs to a keyword of `D`. -/
  | changed {c : Cls} {f : Field} {x y : Val} {vs ws : List (Str × Val)} : f ∈ c.fields → D f.xmlName → SameForm x y →
      AlikeVars D c vs ws → AlikeVars D c ((f.name, x) :: vs) ((f.name, y) :: ws)
end

end Ndm
