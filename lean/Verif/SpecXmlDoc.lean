import Verif.XmlDoc
import Verif.SpecConf
import Verif.SpecNdm
import Verif.Spec

/-! # Specification for C65-C67: XML documents -/

namespace Ndm

/-- The same document, in another layout: the order of children with different tags, white space between children, and
attributes of other namespaces (such as `xsi:schemaLocation`, whose name `lxml` gives as `{...}schemaLocation`) may differ. -/
inductive SameDoc : XTree → XTree → Prop
  | node {tag : Str} {attrs more : List (Str × Str)} {text text' : Str} {kids kids' : List XTree} :
      (∀ a ∈ more, '{' ∈ a.1) → (kids = [] → text' = text) →
      (∀ t, List.Forall₂ SameDoc (kids.filter (·.tag == t)) (kids'.filter (·.tag == t))) →
      SameDoc (.node tag attrs text kids) (.node tag (attrs ++ more) text' kids')

mutual
/-- The value with its numbers in the form XML has for them: `1E+3` becomes `1000`. -/
def Val.plain : Val → Val
  | .dec d => .dec d.plain
  | .obj c vs => .obj c (plainVars vs)
  | .list xs => .list (plainList xs)
  | v => v

def plainVars : List (Str × Val) → List (Str × Val)
  | [] => []
  | (n, v) :: vs => (n, v.plain) :: plainVars vs

def plainList : List Val → List Val
  | [] => []
  | v :: vs => v.plain :: plainList vs
end

/-- The number a decimal stands for. -/
def Dec.number : Dec → Option Rat
  | .fin neg coef exp => some ((if neg then -1 else 1) * coef * (10 : Rat) ^ exp)
  | _ => none

mutual
/-- The same values, except that a number may be written in another way (`1E+3` for `1000`). -/
inductive SameVal : Val → Val → Prop
  | none : SameVal .none .none
  | str (s : Str) : SameVal (.str s) (.str s)
  | int (i : Int) : SameVal (.int i) (.int i)
  | enum (c : Cls) (s : Str) : SameVal (.enum c s) (.enum c s)
  | same (d : Dec) : SameVal (.dec d) (.dec d)
  | number {d e : Dec} {x : Rat} : d.number = some x → e.number = some x → SameVal (.dec d) (.dec e)
  | obj {c : Cls} {vs ws : List (Str × Val)} : SameVars vs ws → SameVal (.obj c vs) (.obj c ws)
  | list {xs ys : List Val} : SameVals xs ys → SameVal (.list xs) (.list ys)

inductive SameVars : List (Str × Val) → List (Str × Val) → Prop
  | nil : SameVars [] []
  | cons {n : Str} {v w : Val} {vs ws : List (Str × Val)} : SameVal v w → SameVars vs ws → SameVars ((n, v) :: vs) ((n, w) :: ws)

inductive SameVals : List Val → List Val → Prop
  | nil : SameVals [] []
  | cons {v w : Val} {vs ws : List Val} : SameVal v w → SameVals vs ws → SameVals (v :: vs) (w :: ws)
end

/-- A text XML can hold.  A carriage return is left out: XML readers turn it into a line feed. -/
def goodText (s : Str) : Bool := xmlText s && !s.contains '\r'

mutual
/-- Every text in the value is one XML can hold. -/
def Val.goodTexts : Val → Bool
  | .str s => goodText s
  | .obj _ vs => goodVars vs
  | .list xs => goodList xs
  | _ => true

def goodVars : List (Str × Val) → Bool
  | [] => true
  | (_, v) :: vs => v.goodTexts && goodVars vs

def goodList : List Val → Bool
  | [] => true
  | v :: vs => v.goodTexts && goodList vs
end

mutual
/-- Every text and attribute in the document is one XML can hold. -/
def XTree.good : XTree → Bool
  | .node _ attrs text kids => attrs.all (fun a => goodText a.2) && goodText text && goodTrees kids

def goodTrees : List XTree → Bool
  | [] => true
  | t :: ts => t.good && goodTrees ts
end

/-- What is expected of XML writers and readers: a document whose texts XML can hold is written as a text that begins with `<`
and ends with `>` (apart from white space), and reading that text gives the document, perhaps in another layout. -/
def XmlChars.Faithful (X : XmlChars) : Prop :=
  ∀ loc noNsLoc t, t.good = true → ∃ text, X.write loc noNsLoc t = .ok text ∧
    (∃ core, Core text core ∧ py "<" <+: core ∧ py ">" <:+ core) ∧ ∃ t', X.read text = some t' ∧ SameDoc t t'

/-- A combined message with its numbers in the form XML has for them. -/
def Combined.plain (m : Combined) : Combined :=
  ⟨m.messageId.plain, m.comment.plain, m.aem.map plainVars, m.apm.map plainVars, m.cdm.map plainVars, m.oem.map plainVars,
    m.omm.map plainVars, m.opm.map plainVars, m.rdm.map plainVars, m.tdm.map plainVars⟩

end Ndm
