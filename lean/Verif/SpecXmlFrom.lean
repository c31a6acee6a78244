import Verif.SpecXmlRead
import Verif.SpecMissing
import Verif.SpecChars

/-! # Specification for C82: what an XML document says -/

namespace Ndm

/-- `TextSays ty s v`: the text `s` stands for the value `v` of type `ty`: a number or an enumeration member if it is one,
otherwise the text itself. -/
inductive TextSays : FTy → Str → Val → Prop
  | text (s : Str) : TextSays .str s (.str s)
  | int {s : Str} {i : Int} : parseInt s = some i → TextSays .int s (.int i)
  | notInt {s : Str} : parseInt s = none → TextSays .int s (.str s)
  | number {s : Str} {d : Dec} : Dec.parse s = some d → TextSays .dec s (.dec d)
  | notNumber {s : Str} : Dec.parse s = none → TextSays .dec s (.str s)
  | member {c : Cls} {ms : List (Str × Str)} {n s : Str} : c.members = some ms → (n, s) ∈ ms → TextSays (.cls c) s (.enum c s)
  | notMember {c : Cls} {ms : List (Str × Str)} {s : Str} : c.members = some ms → (∀ n, (n, s) ∉ ms) → TextSays (.cls c) s (.str s)

mutual
/-- `XmlSays ty t v`: the element `t` of type `ty` stands for the value `v`. -/
inductive XmlSays : FTy → XTree → Val → Prop
  | simple {ty : FTy} {t : XTree} {v : Val} : ty.object? = none → t.kids = [] → TextSays ty t.text v → XmlSays ty t v
  | object {c : Cls} {t : XTree} {vs : List (Str × Val)} : c.members = none → FieldsSay t c.attrs vs → XmlSays (.cls c) t (.obj c vs)

/-- Each of the fields has, in order, the value the element `t` states for it. -/
inductive FieldsSay : XTree → List Field → List (Str × Val) → Prop
  | nil {t : XTree} : FieldsSay t [] []
  | cons {t : XTree} {f : Field} {v : Val} {fs : List Field} {vs : List (Str × Val)} : FieldSays t f v → FieldsSay t fs vs →
      FieldsSay t (f :: fs) ((f.name, v) :: vs)

/-- `FieldSays t f v`: `v` is what the element `t` states for its field `f`: the attribute, the text, the one child or the list of
all children with the name of the field, and `None` if there is none. -/
inductive FieldSays : XTree → Field → Val → Prop
  | attr {t : XTree} {f : Field} {s : Str} {v : Val} : f.kind = .attr → t.attr f.xmlName = some s → TextSays f.ty s v → FieldSays t f v
  | noAttr {t : XTree} {f : Field} : f.kind = .attr → t.attr f.xmlName = none → FieldSays t f .none
  | text {t : XTree} {f : Field} {v : Val} : f.kind = .text → t.text ≠ [] → TextSays f.ty t.text v → FieldSays t f v
  | noText {t : XTree} {f : Field} : f.kind = .text → t.text = [] → FieldSays t f .none
  | child {t k : XTree} {f : Field} {v : Val} : f.kind = .elem → f.isList = false → t.kids.filter (·.tag == f.xmlName) = [k] →
      XmlSays f.ty k v → FieldSays t f v
  | noChild {t : XTree} {f : Field} : f.kind = .elem → f.isList = false → t.kids.filter (·.tag == f.xmlName) = [] → FieldSays t f .none
  | children {t : XTree} {f : Field} {vs : List Val} : f.kind = .elem → f.isList = true →
      ItemsSay f.ty (t.kids.filter (·.tag == f.xmlName)) vs → FieldSays t f (.list vs)

/-- Elements stand for values one by one. -/
inductive ItemsSay : FTy → List XTree → List Val → Prop
  | nil {ty : FTy} : ItemsSay ty [] []
  | cons {ty : FTy} {t : XTree} {v : Val} {ts : List XTree} {vs : List Val} : XmlSays ty t v → ItemsSay ty ts vs →
      ItemsSay ty (t :: ts) (v :: vs)
end

/-- `InDoc u t`: the element `u` is `t` or somewhere inside it. -/
inductive InDoc : XTree → XTree → Prop
  | here {t : XTree} : InDoc t t
  | inside {u k t : XTree} : k ∈ t.kids → InDoc u k → InDoc u t

/-- All texts and attribute values in the document consist of such characters. -/
def DocIn (P : Char → Prop) (t : XTree) : Prop :=
  ∀ u, InDoc u t → (∀ c ∈ u.text, P c) ∧ ∀ n s, u.attr n = some s → ∀ c ∈ s, P c

end Ndm
