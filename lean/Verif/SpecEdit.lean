import Verif.ValEq

/-! # Editing an object (specification for C58)

`k` is the name of the attribute that is set, changed or deleted. -/

namespace Ndm

/-- The classes whose objects are written as sections between marker lines. -/
def markedClasses : List Cls := [.AemMetadata, .OemMetadata, .TdmMetadata, .AemData, .TdmData, .OemCovarianceMatrixType]

/-- The classes whose objects are written as data lines. -/
def dataLineClasses : List Cls := [.StateVectorAccType, .OemCovarianceMatrixType, .TrackingDataObservationType, .AttitudeStateType]

/-- `str(x)` has no line break. -/
def OneLine (x : Val) : Prop := '\n' ∉ pyStr x

/-- The values of an attribute `k` that is written as keyword lines: absent, a text, a number, a member of an enumeration, a
quantity with or without a unit, or a list of comments.  Texts have no line breaks. -/
inductive FieldValue : Str → Val → Prop
  | none {k : Str} : k ≠ py "comment" → k ≠ py "user_defined" → FieldValue k .none
  | str {k s : Str} : '\n' ∉ s → FieldValue k (.str s)
  | int {k : Str} {i : Int} : FieldValue k (.int i)
  | dec {k : Str} {d : Dec} : k ≠ py "comment" → FieldValue k (.dec d)
  | enum {k s : Str} {c : Cls} : k ≠ py "comment" → '\n' ∉ s → FieldValue k (.enum c s)
  | bare {k : Str} {c : Cls} {x : Val} : k ≠ py "comment" → c ∉ markedClasses → OneLine x →
      FieldValue k (.obj c [(py "value", x), (py "units", .none)])
  | quantity {k u : Str} {c d : Cls} {x : Val} : k ≠ py "comment" → c ∉ markedClasses → OneLine x → '\n' ∉ u →
      FieldValue k (.obj c [(py "value", x), (py "units", .enum d u)])
  | comments {xs : List Val} : (∀ x ∈ xs, OneLine x) → FieldValue (py "comment") (.list xs)

mutual
/-- `Edited k v w`: `w` is `v` after changes of attributes named `k`, anywhere in the object (but not in objects that are
written as data lines, and not in quantities and user-defined parameters, which have lines of their own keyword). -/
inductive Edited (k : Str) : Val → Val → Prop
  | same (v : Val) : Edited k v v
  | obj {c : Cls} {vs ws : List (Str × Val)} : c ∉ dataLineClasses → (∀ p ∈ vs, p.1 ≠ py "units") → EditedVars k vs ws →
      Edited k (.obj c vs) (.obj c ws)
  | list {xs ys : List Val} : EditedAll k xs ys → Edited k (.list xs) (.list ys)

inductive EditedAll (k : Str) : List Val → List Val → Prop
  | nil : EditedAll k [] []
  | cons {x y : Val} {xs ys : List Val} : Edited k x y → EditedAll k xs ys → EditedAll k (x :: xs) (y :: ys)

inductive EditedVars (k : Str) : List (Str × Val) → List (Str × Val) → Prop
  | nil : EditedVars k [] []
  | same {p : Str × Val} {vs ws : List (Str × Val)} : EditedVars k vs ws → EditedVars k (p :: vs) (p :: ws)
  | inside {n : Str} {x y : Val} {vs ws : List (Str × Val)} : n ≠ py "comment" → n ≠ py "user_defined" → Edited k x y →
      EditedVars k vs ws → EditedVars k ((n, x) :: vs) ((n, y) :: ws)
  | field {x y : Val} {vs ws : List (Str × Val)} : FieldValue k x → FieldValue k y → EditedVars k vs ws →
      EditedVars k ((k, x) :: vs) ((k, y) :: ws)
end

/-- `o.path.k = y`: the object after an assignment to the attribute `k` of a part of it. -/
def assign (k : Str) (y : Val) : List Step → Val → Option Val
  | [], .obj c vs => some (.obj c (Val.setVar k y vs))
  | .f n :: p, .obj c vs => match Val.lookupVar n vs with
    | some w => (assign k y p w).map fun w' => .obj c (Val.setVar n w' vs)
    | .none => .none
  | .i n :: p, .list xs => match xs[n]? with
    | some w => (assign k y p w).map fun w' => .list (xs.set n w')
    | .none => .none
  | _, _ => .none

/-- On the way to the part there are only objects that are written attribute by attribute. -/
def ByAttributes : List Step → Val → Prop
  | [], .obj c vs => c ∉ dataLineClasses ∧ ∀ p ∈ vs, p.1 ≠ py "units"
  | .f n :: p, .obj c vs => c ∉ dataLineClasses ∧ (∀ p ∈ vs, p.1 ≠ py "units") ∧ n ≠ py "comment" ∧ n ≠ py "user_defined" ∧
      ∃ w, Val.lookupVar n vs = some w ∧ ByAttributes p w
  | .i n :: p, .list xs => ∃ w, xs[n]? = some w ∧ ByAttributes p w
  | _, _ => False

/-- How the lines of the attribute `k` begin: the keyword, padded to twenty characters, and the equals sign. -/
def lineStart (k : Str) : Str := ljust 20 (upper k) ++ py " = "

/-- The lines without those of the attribute `k`. -/
def otherLines (k : Str) (ls : List Str) : List Str := ls.filter fun l => !(lineStart k).isPrefixOf l

end Ndm
