import Verif.SpecXmlDoc

/-! # Specification for C67 to C70: what is kept of a document, foreign elements, kinds and versions, rewriting -/

namespace Ndm

/-- Texts of the same value: the same text, or two ways to write a number. -/
inductive SameText : Str → Str → Prop
  | same (s : Str) : SameText s s
  | int {s s' : Str} {i : Int} : parseInt s = some i → parseInt s' = some i → SameText s s'
  | number {s s' : Str} {d e : Dec} : Dec.parse s = some d → Dec.parse s' = some e → SameVal (.dec d) (.dec e) → SameText s s'

/-- Do elements of this type have a text (and not only children)? -/
def FTy.hasText : FTy → Bool
  | .cls c => c.members.isSome || c.attrs.any (·.kind = .text)
  | _ => true

/-- The attributes elements of this type have. -/
def FTy.attrNames : FTy → List Str
  | .cls c => (c.attrs.filter (·.kind = .attr)).map (·.xmlName)
  | _ => []

/-- The type of the children with this tag, for elements of a type that has them. -/
def FTy.child (ty : FTy) (tag : Str) : FTy :=
  match ty.object?.bind (·.findElem tag) with
  | some f => f.ty
  | none => .str

mutual
/-- `KeptXml ty t t'`: everything in the element `t` of type `ty` is in `t'`: its text, each of its attributes, and for each tag all
children with this tag, in the same order. -/
inductive KeptXml : FTy → XTree → XTree → Prop
  | node {ty : FTy} {tag : Str} {attrs attrs' : List (Str × Str)} {text text' : Str} {kids kids' : List XTree} :
      (ty.hasText = true → SameText text text') →
      (∀ n ∈ ty.attrNames, ∀ s, attrLookup n attrs = some s → ∃ s', attrLookup n attrs' = some s' ∧ SameText s s') →
      (∀ t, KeptXmls (ty.child t) (kids.filter (·.tag == t)) (kids'.filter (·.tag == t))) →
      KeptXml ty (.node tag attrs text kids) (.node tag attrs' text' kids')

/-- The same for elements one by one. -/
inductive KeptXmls : FTy → List XTree → List XTree → Prop
  | nil {ty : FTy} : KeptXmls ty [] []
  | cons {ty : FTy} {t t' : XTree} {ts ts' : List XTree} : KeptXml ty t t' → KeptXmls ty ts ts' → KeptXmls ty (t :: ts) (t' :: ts')
end

/-- `ForeignXml ty t`: the element `t` of type `ty` holds, at any depth, an element the data model does not have there: one with
an unknown tag, one more than there may be, or one inside a simple value. -/
inductive ForeignXml : FTy → XTree → Prop
  | unknown {ty : FTy} {c : Cls} {t k : XTree} : ty.object? = some c → k ∈ t.kids → (∀ f ∈ c.attrs, f.kind = .elem → f.xmlName ≠ k.tag) →
      ForeignXml ty t
  | twice {ty : FTy} {c : Cls} {f : Field} {t : XTree} : ty.object? = some c → f ∈ c.attrs → f.kind = .elem → f.isList = false →
      1 < (t.kids.filter (·.tag == f.xmlName)).length → ForeignXml ty t
  | inside {ty : FTy} {t k : XTree} : ty.object? = none → k ∈ t.kids → ForeignXml ty t
  | deeper {ty : FTy} {c : Cls} {f : Field} {t k : XTree} : ty.object? = some c → f ∈ c.attrs → f.kind = .elem → k ∈ t.kids →
      k.tag = f.xmlName → ForeignXml f.ty k → ForeignXml ty t

/-- The first attribute with this name. -/
def XTree.attr (n : Str) : XTree → Option Str
  | .node _ attrs _ _ => (attrs.find? (·.1 == n)).map (·.2)

/-- The eight kinds of messages with the tag, the identifier and the version their XML documents have (NDM/XML 2.0.0). -/
def xmlKinds : List (Cls × Str × Str × Str) :=
  [(.Aem, py "aem", py "CCSDS_AEM_VERS", py "1.0"), (.Apm, py "apm", py "CCSDS_APM_VERS", py "1.0"),
   (.Cdm, py "cdm", py "CCSDS_CDM_VERS", py "1.0"), (.Oem, py "oem", py "CCSDS_OEM_VERS", py "2.0"),
   (.Omm, py "omm", py "CCSDS_OMM_VERS", py "2.0"), (.Opm, py "opm", py "CCSDS_OPM_VERS", py "2.0"),
   (.Rdm, py "rdm", py "CCSDS_RDM_VERS", py "1.0"), (.Tdm, py "tdm", py "CCSDS_TDM_VERS", py "2.0")]

/-- `Named tag id version t`: the element has this tag, this identifier and this version. -/
def Named (tag id version : Str) (t : XTree) : Prop :=
  t.tag = tag ∧ t.attr (py "id") = some id ∧ t.attr (py "version") = some version

/-- `WrittenFor x k`: the element has the tag, the identifier and the version of the kind of the message. -/
def WrittenFor (x : Val) (k : XTree) : Prop :=
  ∃ c vs tag id version, x = .obj c vs ∧ (c, tag, id, version) ∈ xmlKinds ∧ Named tag id version k

/-- `RewrittenXml X o o'`: the object can be had from `o` by writing it as XML and reading what was written, any number of times,
with any schema locations and any instances. -/
inductive RewrittenXml (X : XmlChars) (o : Val) : Val → Prop
  | start : RewrittenXml X o o
  | again {o₁ o₂ : Val} {writer reader : XmlSelf} {loc noNsLoc : Option Str} {text : Str} : RewrittenXml X o o₁ →
      (writer.toString X.lib o₁ loc noNsLoc).1 = .ok text → (reader.fromString X.lib text).1 = .ok o₂ → RewrittenXml X o o₂

end Ndm
