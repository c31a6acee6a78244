import Verif.SchemaData
import Verif.Dec

/-! # Python objects, and the `lxml` / `xsdata` binding of an element to a dataclass

The reader turns the lines of a section into a small XML document (`_xmlify_*`) and lets `xsdata` bind it to the
section's dataclass.  `lxml` and `xsdata` are not part of this code base; what is assumed of them is written out
here as definitions:

* `lxml` raises `ValueError` for a tag that is not an XML name and for text that XML cannot hold;
* serialising and parsing the document gives back its tags, attributes and texts; an empty text comes back as "no text";
* `xsdata` (`fail_on_unknown_properties=True`) raises `ParserError` for a child element that no field of the class
  is named after, and for a second child of a field that is not a list;
* attributes that no field is named after are ignored; `init=False` fields (`id`, `version`) are not assigned;
* a text is converted to the field's type; when that fails `xsdata` warns and keeps the text;
* an empty element gives `""` for a field of primitive type and an object with `value=None` for a value class;
* absent fields get `None` / `[]`; nothing is validated. -/

namespace Ndm

/-- A Python value as found in an object tree.  An enumeration member is identified by its class and value.
Simplification: `float` and `bool` leaves (which the reader never produces) are not represented. -/
inductive Val where
  | none
  | str (s : Str)
  | int (i : Int)
  | dec (d : Dec)
  | enum (c : Cls) (v : Str)
  | obj (c : Cls) (vars : List (Str × Val))
  | list (xs : List Val)
deriving Repr

namespace Val

/-- `vars(obj)`; raises `TypeError` on anything without `__dict__`.  (Enumeration members do have a `__dict__`; no
caller applies `vars` to one without first testing for the fields of a dataclass.) -/
def vars? : Val → Except PyErr (List (Str × Val))
  | .obj _ vs => .ok vs
  | _ => .error .typeError

/-- The value stored under `k`. -/
def lookupVar (k : Str) (vs : List (Str × Val)) : Option Val := (vs.find? (·.1 == k)).map (·.2)

/-- `setattr(obj, k, v)` on a dictionary of attributes: replace in place or append. -/
def setVar (k : Str) (v : Val) : List (Str × Val) → List (Str × Val)
  | [] => [(k, v)]
  | (k', v') :: r => if k' = k then (k', v) :: r else (k', v') :: setVar k v r

/-- `bool(v)`: `None`, the empty string, zero numbers and the empty list are false; dataclass instances and
enumeration members are true. -/
def truthy : Val → Bool
  | .none => false
  | .str s => !s.isEmpty
  | .int i => i != 0
  | .dec (.fin _ c _) => c != 0
  | .dec _ => true
  | .enum _ _ => true
  | .obj _ _ => true
  | .list xs => !xs.isEmpty

end Val

/-- `str(v)` of an enumeration member, dataclass instance or list: not modelled beyond being some string. -/
opaque reprStr : Val → Str

/-- `str(v)`. -/
def pyStr : Val → Str
  | .none => py "None"
  | .str s => s
  | .int i => intStr i
  | .dec d => d.toStr
  | v => reprStr v

/-! ## XML documents of depth two -/

/-- A leaf element: tag, attributes, text (`""` and "no text" coincide after a serialise/parse cycle). -/
structure XLeaf where
  tag : Str
  attrs : List (Str × Str)
  text : Str
deriving DecidableEq, Repr

/-- A document: root tag, attributes, text, leaf children. -/
structure XDoc where
  tag : Str
  attrs : List (Str × Str)
  text : Str
  children : List XLeaf
deriving DecidableEq, Repr

/-- Characters XML 1.0 can hold (`lxml` raises `ValueError` for text with others). -/
def xmlChar (c : Char) : Bool :=
  let n := c.toNat
  n == 9 || n == 10 || n == 13 || (32 ≤ n && n ≠ 0xFFFE && n ≠ 0xFFFF)

/-- Text that XML can hold. -/
def xmlText (s : Str) : Bool := s.all xmlChar

/-- Tags `lxml` accepts: plain ASCII names are decided here, anything else by `uniTagOk`. -/
def xmlTag (s : Str) : Bool :=
  match s with
  | [] => false
  | c :: cs =>
    if (isAsciiUpper c || isAsciiLower c || c == '_') &&
       cs.all (fun d => isAsciiUpper d || isAsciiLower d || isAsciiDigit d || d == '_' || d == '-' || d == '.')
    then true
    else uniTagOk s

/-- Raise `ValueError` unless the text is representable. -/
def xmlCheck (s : Str) : Except PyErr Unit := if xmlText s then .ok () else .error .valueError

/-- `etree.Element(tag)`: raise `ValueError` unless the tag is a name. -/
def tagCheck (s : Str) : Except PyErr Unit := if xmlTag s then .ok () else .error .valueError

/-! ## Conversion of texts and binding -/

/-- `xsdata` conversion of a non-empty text to an enumeration member (by value), keeping the text on failure.
Simplification: `xsdata` also matches values that differ in the amount of inner whitespace. -/
def convEnum (c : Cls) (ms : List (Str × Str)) (s : Str) : Val :=
  if ms.any (·.2 == s) then .enum c s else .str s

/-- Conversion of a non-empty text to the type of a field (class types other than enumerations keep the text). -/
def convText (t : FTy) (s : Str) : Val :=
  match t with
  | .str => .str s
  | .int => match parseInt s with
    | some i => .int i
    | none => .str s
  | .dec => match Dec.parse s with
    | some d => .dec d
    | none => .str s
  | .cls c => match c.members with
    | some ms => convEnum c ms s
    | none => .str s

/-- `attrs.get(name)`. -/
def attrLookup (name : Str) (attrs : List (Str × Str)) : Option Str := (attrs.find? (·.1 == name)).map (·.2)

/-- The value of an attribute field. -/
def bindAttr (f : Field) (attrs : List (Str × Str)) : Val :=
  match attrLookup f.xmlName attrs with
  | some s => convText f.ty s
  | none => .none

/-- The value of the text field of a value class: an empty text gives `None`. -/
def bindText (f : Field) (text : Str) : Val := if text.isEmpty then .none else convText f.ty text

/-- A value class (such as `PositionType`) bound to a leaf element. -/
def bindLeafClass (c : Cls) (x : XLeaf) : Val :=
  .obj c ((c.fields.filter (·.init)).map fun f =>
    (f.name, match f.kind with
      | .attr => bindAttr f x.attrs
      | .text => bindText f x.text
      | .elem => if f.isList then .list [] else .none))

/-- A child element bound to its field. -/
def bindLeaf (f : Field) (x : XLeaf) : Val :=
  match f.ty with
  | .cls c =>
    match c.members with
    | some _ => if x.text.isEmpty then .str [] else convText f.ty x.text
    | none => bindLeafClass c x
  | t => if x.text.isEmpty then .str [] else convText t x.text

/-- The element fields of a class. -/
def Cls.elemFields (c : Cls) : List Field := c.fields.filter (·.kind = .elem)

/-- The element field a tag is bound to. -/
def Cls.findElem (c : Cls) (tag : Str) : Option Field := c.elemFields.find? (·.xmlName == tag)

/-- Every child has a field, and only list fields have several children; `seen` holds the tags met so far. -/
def checkChildren (c : Cls) (seen : List Str) : List XLeaf → Except PyErr Unit
  | [] => .ok ()
  | x :: xs =>
    match c.findElem x.tag with
    | none => .error .parserError
    | some f =>
      if !f.isList && seen.contains x.tag then .error .parserError
      else checkChildren c (x.tag :: seen) xs

/-- The value of a field of a class bound to a document. -/
def bindField (d : XDoc) (f : Field) : Val :=
  match f.kind with
  | .attr => bindAttr f d.attrs
  | .text => bindText f d.text
  | .elem =>
    let xs := d.children.filter (·.tag == f.xmlName)
    if f.isList then .list (xs.map (bindLeaf f))
    else match xs with
      | [] => .none
      | x :: _ => bindLeaf f x

/-- `parser.from_bytes(xml, clazz)` for the documents built by `_xmlify_*`. -/
def bindDoc (c : Cls) (d : XDoc) : Except PyErr Val := do
  checkChildren c [] d.children
  return .obj c ((c.fields.filter (·.init)).map fun f => (f.name, bindField d f))

/-- `clazz()`. -/
def Cls.default (c : Cls) : Val :=
  .obj c ((c.fields.filter (·.init)).map fun f => (f.name, if f.isList then .list [] else .none))

end Ndm
