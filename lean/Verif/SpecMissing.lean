import Verif.SchemaFacets
import Verif.SpecXmlRead

/-! # Specification for C71: what the schema requires and is not there -/

namespace Ndm

/-- The values in a field: none, one, or the items of a list. -/
def Val.items : Val → List Val
  | .none => []
  | .list xs => xs
  | v => [v]

/-- At some depth, the object has fewer values in a field than the schema requires. -/
inductive Incomplete : Val → Prop
  | here {c : Cls} {vs : List (Str × Val)} {n : Str} {v : Val} {k : Nat} : (n, v) ∈ vs → (n, k) ∈ c.least → v.items.length < k →
      Incomplete (.obj c vs)
  | inside {c : Cls} {vs : List (Str × Val)} {n : Str} {v x : Val} : (n, v) ∈ vs → x ∈ v.items → Incomplete x → Incomplete (.obj c vs)

/-- Every object of the class must state the keyword `k`: the schema requires a field with this keyword, or a part in which it is
required. -/
inductive RequiredKeyword (k : Str) : Cls → Prop
  | field {c : Cls} {f : Field} {n : Nat} : f ∈ c.attrs → f.kind = .elem → f.xmlName = k → (f.name, n) ∈ c.least → 0 < n →
      RequiredKeyword k c
  | part {c d : Cls} {f : Field} {n : Nat} : f ∈ c.attrs → f.kind = .elem → f.ty = .cls d → (f.name, n) ∈ c.least → 0 < n →
      RequiredKeyword k d → RequiredKeyword k c

/-- The text of an element. -/
def XTree.text : XTree → Str
  | .node _ _ s _ => s

/-- `IncompleteXml ty t`: the element `t` of type `ty` has, at some depth, fewer elements with a tag than the schema requires, or
an attribute or a text is absent that the schema requires. -/
inductive IncompleteXml : FTy → XTree → Prop
  | element {ty : FTy} {c : Cls} {f : Field} {t : XTree} {k : Nat} : ty.object? = some c → f ∈ c.attrs → f.kind = .elem →
      (f.name, k) ∈ c.least → (t.kids.filter (·.tag == f.xmlName)).length < k → IncompleteXml ty t
  | attr {ty : FTy} {c : Cls} {f : Field} {t : XTree} {k : Nat} : ty.object? = some c → f ∈ c.attrs → f.kind = .attr →
      (f.name, k) ∈ c.least → t.attr f.xmlName = none → IncompleteXml ty t
  | text {ty : FTy} {c : Cls} {f : Field} {t : XTree} {k : Nat} : ty.object? = some c → f ∈ c.attrs → f.kind = .text →
      (f.name, k) ∈ c.least → t.text = [] → IncompleteXml ty t
  | inside {ty : FTy} {c : Cls} {f : Field} {t k : XTree} : ty.object? = some c → f ∈ c.attrs → f.kind = .elem → k ∈ t.kids →
      k.tag = f.xmlName → IncompleteXml f.ty k → IncompleteXml ty t

end Ndm
