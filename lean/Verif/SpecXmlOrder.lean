import Verif.XmlDoc

/-! # Specification for C75: documents with the same content -/

namespace Ndm

/-- The two documents differ only in their layout: in the order of attributes and of elements with different tags, in the text
around the elements inside another one, and in attributes of other namespaces (such as `xsi:schemaLocation`, whose name `lxml` gives
as `{...}schemaLocation`).  Elements with the same tag are in the same order. -/
inductive SameContent : XTree → XTree → Prop
  | node {tag : Str} {attrs attrs' : List (Str × Str)} {text text' : Str} {kids kids' : List XTree} :
      (attrs.map (·.1)).Nodup → (attrs'.map (·.1)).Nodup → (∀ n s, '{' ∉ n → ((n, s) ∈ attrs ↔ (n, s) ∈ attrs')) →
      (kids = [] → text' = text) →
      (∀ t, List.Forall₂ SameContent (kids.filter (·.tag == t)) (kids'.filter (·.tag == t))) →
      SameContent (.node tag attrs text kids) (.node tag attrs' text' kids')

end Ndm
