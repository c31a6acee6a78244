import Verif.SpecMissing

/-! # Specification for C76: values that are not of the type the schema gives -/

namespace Ndm

/-- `s` is how a value of the simple type is written: any text, an integer, a decimal number, or one of the values of an
enumeration. -/
inductive LiteralOf : FTy → Str → Prop
  | str (s : Str) : LiteralOf .str s
  | int {s : Str} {i : Int} : parseInt s = some i → LiteralOf .int s
  | dec {s : Str} {d : Dec} : Dec.parse s = some d → LiteralOf .dec s
  | enum {c : Cls} {ms : List (Str × Str)} {m s : Str} : c.members = some ms → (m, s) ∈ ms → LiteralOf (.cls c) s

/-- At some depth, the object has a text in a field that is not for texts. -/
inductive Malformed : Val → Prop
  | here {c : Cls} {vs : List (Str × Val)} {f : Field} {v : Val} {s : Str} : (f.name, v) ∈ vs → f ∈ c.attrs → f.ty ≠ .str → .str s ∈ v.items →
      Malformed (.obj c vs)
  | inside {c : Cls} {vs : List (Str × Val)} {n : Str} {v x : Val} : (n, v) ∈ vs → x ∈ v.items → Malformed x → Malformed (.obj c vs)

/-- `MalformedXml ty t`: the element `t` of type `ty` has, at some depth, a text or an attribute that is not of the type the schema
gives. -/
inductive MalformedXml : FTy → XTree → Prop
  | value {ty : FTy} {t : XTree} : ty.object? = none → ¬ LiteralOf ty t.text → MalformedXml ty t
  | attr {ty : FTy} {c : Cls} {f : Field} {t : XTree} {s : Str} : ty.object? = some c → f ∈ c.attrs → f.kind = .attr →
      t.attr f.xmlName = some s → ¬ LiteralOf f.ty s → MalformedXml ty t
  | text {ty : FTy} {c : Cls} {f : Field} {t : XTree} : ty.object? = some c → f ∈ c.attrs → f.kind = .text → t.text ≠ [] →
      ¬ LiteralOf f.ty t.text → MalformedXml ty t
  | inside {ty : FTy} {c : Cls} {f : Field} {t k : XTree} : ty.object? = some c → f ∈ c.attrs → f.kind = .elem → k ∈ t.kids →
      k.tag = f.xmlName → MalformedXml f.ty k → MalformedXml ty t

/-- The same elements, with any texts and attributes. -/
inductive SameElements : XTree → XTree → Prop
  | node {tag text text' : Str} {attrs attrs' : List (Str × Str)} {kids kids' : List XTree} : List.Forall₂ SameElements kids kids' →
      SameElements (.node tag attrs text kids) (.node tag attrs' text' kids')

end Ndm
