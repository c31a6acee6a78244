import Verif.Obj

/-! # When an object conforms to the data model (specification for C38)

Stated over the schema table alone. -/

namespace Ndm

/-- The attributes an instance of a class has: its `init=True` fields, in order. -/
def Cls.attrs (c : Cls) : List Field := c.fields.filter (·.init)

mutual
/-- `HasType t v`: `v` is a value of the declared type `t`, or the text that could not be converted to it. -/
inductive HasType : FTy → Val → Prop
  | str (s : Str) : HasType .str (.str s)
  | int (i : Int) : HasType .int (.int i)
  | intText (s : Str) : parseInt s = none → HasType .int (.str s)
  | dec (d : Dec) : HasType .dec (.dec d)
  | decText (s : Str) : Dec.parse s = none → HasType .dec (.str s)
  | enum {c : Cls} {ms : List (Str × Str)} (s : Str) : c.members = some ms → (∃ m, (m, s) ∈ ms) →
      HasType (.cls c) (.enum c s)
  | enumText {c : Cls} {ms : List (Str × Str)} (s : Str) : c.members = some ms → (¬ ∃ m, (m, s) ∈ ms) →
      HasType (.cls c) (.str s)
  | obj {c : Cls} {vs : List (Str × Val)} : c.members = none → HasFields c.attrs vs → HasType (.cls c) (.obj c vs)

/-- The attributes are exactly the fields, each with an admissible value. -/
inductive HasFields : List Field → List (Str × Val) → Prop
  | nil : HasFields [] []
  | cons {f : Field} {v : Val} {fs : List Field} {vs : List (Str × Val)} : FieldOk f v → HasFields fs vs →
      HasFields (f :: fs) ((f.name, v) :: vs)

/-- List fields hold lists of values of the declared type, other fields `None` or one such value.  The text of an element with
attributes is never empty: it is then `None`. -/
inductive FieldOk : Field → Val → Prop
  | list {f : Field} {xs : List Val} : f.isList = true → AllHaveType f.ty xs → FieldOk f (.list xs)
  | none {f : Field} : f.isList = false → FieldOk f .none
  | one {f : Field} {v : Val} : f.isList = false → HasType f.ty v → (f.kind = .text → v ≠ .str []) → FieldOk f v

inductive AllHaveType : FTy → List Val → Prop
  | nil {t : FTy} : AllHaveType t []
  | cons {t : FTy} {v : Val} {vs : List Val} : HasType t v → AllHaveType t vs → AllHaveType t (v :: vs)
end

end Ndm
