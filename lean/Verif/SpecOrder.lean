import Verif.SpecEdit
import Verif.SpecConf

/-! # Specification for C78: the order of the lines

Stated over the schema table alone: `c.attrs` are the fields of a class in the order of the schema. -/

namespace Ndm

/-- A line with this keyword. -/
def LineOf (k : Str) (l : Str) : Prop := lineStart k <+: l

mutual
/-- Lines of an object of the class `c`: its fields in the order of the schema, or lines of data.  A blank line may follow. -/
inductive BlockLines : Cls → List Str → Prop
  | fields {c : Cls} {ls : List Str} : c ∉ dataLineClasses → FieldsLines c.attrs ls → BlockLines c ls
  | line {c : Cls} {l : Str} : c ∈ dataLineClasses → BlockLines c [l]
  | covariance {k e : Str} {comments frame rows : List Str} : (∀ l ∈ comments, LineOf k l) → LineOf (py "epoch") e →
      (frame = [] ∨ ∃ l, frame = [l] ∧ LineOf (py "cov_ref_frame") l) →
      BlockLines .OemCovarianceMatrixType (comments ++ [e] ++ frame ++ rows)
  | blank {c : Cls} {ls : List Str} : BlockLines c ls → BlockLines c (ls ++ [[]])

/-- The lines of one field after the other. -/
inductive FieldsLines : List Field → List Str → Prop
  | nil : FieldsLines [] []
  | cons {f : Field} {fs : List Field} {a b : List Str} : FieldLines f a → FieldsLines fs b → FieldsLines (f :: fs) (a ++ b)

/-- The lines of one field. -/
inductive FieldLines : Field → List Str → Prop
  | absent {f : Field} : FieldLines f []
  | keyword {f : Field} {l : Str} : LineOf f.name l → FieldLines f [l]
  /-- a quantity that names its keyword itself -/
  | named {f g : Field} {c : Cls} {k l : Str} : f.ty = .cls c → c.members = none → g ∈ c.attrs → g.name ∉ [py "value", py "units"] → LineOf k l → FieldLines f [l]
  | comments {f : Field} {ls : List Str} : f.name = py "comment" → (∀ l ∈ ls, LineOf f.name l) → FieldLines f ls
  | parameters {f : Field} {ls : List Str} : f.name = py "user_defined" → (∀ l ∈ ls, ∃ p, LineOf (py "user_defined_" ++ p) l) → FieldLines f ls
  | block {f : Field} {c : Cls} {ls : List Str} : f.ty = .cls c → c.members = none → f.isList = false → BlockLines c ls → FieldLines f ls
  | blocks {f : Field} {c : Cls} {ls : List Str} : f.ty = .cls c → c.members = none → f.isList = true → BlocksLines c ls → FieldLines f ls
  /-- `x_START` and `x_STOP` around it -/
  | marked {f : Field} {c : Cls} {n : Str} {a ls b : List Str} : f.ty = .cls c → c ∈ markedClasses → FieldLines f ls →
      n ∈ [py "META", py "DATA", py "COVARIANCE"] → (∀ l ∈ a, l = [] ∨ l = n ++ py "_START") → (∀ l ∈ b, l = [] ∨ l = n ++ py "_STOP") →
      FieldLines f (a ++ ls ++ b)

/-- The lines of the objects of a list, one after the other. -/
inductive BlocksLines : Cls → List Str → Prop
  | nil {c : Cls} : BlocksLines c []
  | cons {c : Cls} {a b : List Str} : BlockLines c a → BlocksLines c b → BlocksLines c (a ++ b)
end

end Ndm
