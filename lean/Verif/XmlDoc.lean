import Verif.XmlIo

/-! # XML documents and objects

What `NdmXmlIo` asks of `xsdata` (`ndm_xml_io.py:203-226`, called in 128 and 173): `XmlSerializer.render` turns an object into
a document, and `XmlParser.from_string` turns a document into an object.  Both are driven by the dataclasses of
`models/ndmxml2`, that is by the table in `SchemaData.lean`.  `xsdata` is not part of the code base: the definitions below
say what is assumed of it.  The characters of the documents are left to a parameter (`XmlChars`). -/

namespace Ndm

/-- An element: tag, attributes, text before the first child, children. -/
inductive XTree where
  | node (tag : Str) (attrs : List (Str × Str)) (text : Str) (kids : List XTree)
deriving Repr

namespace XTree

def tag : XTree → Str
  | node t _ _ _ => t

def kids : XTree → List XTree
  | node _ _ _ k => k

end XTree

/-! ## Writing -/

/-- `f"{d:f}"`: no exponent (`_pydecimal.Decimal.__format__`), and `INF` for infinities
(`xsdata.formats.converter.DecimalConverter`). -/
def Dec.xmlStr : Dec → Str
  | .inf neg => signStr neg ++ py "INF"
  | .nan neg sig p => Dec.toStr (.nan neg sig p)
  | .fin neg coef exp =>
    if exp > 0 then signStr neg ++ natDigits (coef * 10 ^ exp.toNat)
    else
      let ds := natDigits coef
      let dotplace : Int := exp + ds.length
      signStr neg ++
        if dotplace ≤ 0 then '0' :: '.' :: (zeros (-dotplace).toNat ++ ds)
        else if dotplace ≥ ds.length then ds
        else ds.take dotplace.toNat ++ '.' :: ds.drop dotplace.toNat

/-- The text of a simple value (`xsdata.formats.converter`): enumeration members are written by their value. -/
def xmlStr : Val → Option Str
  | .str s => some s
  | .int i => some (intStr i)
  | .dec d => some d.xmlStr
  | .enum _ s => some s
  | _ => none

/-- The attributes with a fixed value (`init=False`): `id` and `version` of the messages. -/
def fixedAttrs (c : Cls) : List (Str × Str) :=
  match c.idVersion with
  | some (id, ver) => [(py "id", id), (py "version", ver)]
  | none => []

/-- The attributes of an element; `None` is not written. -/
def attrsOf : List Field → List (Str × Val) → List (Str × Str)
  | f :: fs, (_, v) :: vs =>
    (if f.kind = .attr then (xmlStr v).toList.map fun s => (f.xmlName, s) else []) ++ attrsOf fs vs
  | _, _ => []

/-- The text of an element: that of the field without `metadata["type"]`, if there is one. -/
def textOf : List Field → List (Str × Val) → Str
  | f :: fs, (_, v) :: vs => if f.kind = .text then (xmlStr v).getD [] else textOf fs vs
  | _, _ => []

mutual
/-- The elements for the value of a field (`XmlSerializer.write_value`): none for `None`, one for each item of a list, otherwise
one.  Simplifications: the fields of an object are taken in the order of its attributes, and one after the other; `xsdata`
writes the lists of a `sequence` group in turns (`SameDoc` in `SpecXmlDoc.lean` leaves that open). -/
def toElems (tag : Str) : Val → List XTree
  | .none => []
  | .list xs => toList tag xs
  | .obj c vs => [.node tag (fixedAttrs c ++ attrsOf (c.fields.filter (·.init)) vs) (textOf (c.fields.filter (·.init)) vs)
      (toKids (c.fields.filter (·.init)) vs)]
  | .str s => [.node tag [] s []]
  | .int i => [.node tag [] (intStr i) []]
  | .dec d => [.node tag [] d.xmlStr []]
  | .enum _ s => [.node tag [] s []]

/-- The children for the fields of an object. -/
def toKids : List Field → List (Str × Val) → List XTree
  | f :: fs, (_, v) :: vs => (if f.kind = .elem then toElems f.xmlName v else []) ++ toKids fs vs
  | _, _ => []

def toList (tag : Str) : List Val → List XTree
  | [] => []
  | v :: vs => toElems tag v ++ toList tag vs
end

/-- The document for an object (`XmlSerializer.render`): the root element is named after the class. -/
def toDoc : Val → Except PyErr XTree
  | .obj c vs => .ok (.node (c.metaName.getD []) (fixedAttrs c ++ attrsOf (c.fields.filter (·.init)) vs)
      (textOf (c.fields.filter (·.init)) vs) (toKids (c.fields.filter (·.init)) vs))
  | _ => .error .typeError

/-! ## Reading -/

/-- The value of a simple element. -/
def leafVal (ty : FTy) (text : Str) : Val := if text.isEmpty then .str [] else convText ty text

/-- Is the type that of an object (not of a simple value)? -/
def FTy.object? : FTy → Option Cls
  | .cls c => match c.members with
    | some _ => none
    | none => some c
  | _ => none

mutual
/-- The value of an element of the given type, `XmlParser` with `fail_on_unknown_properties=True` (`ElementNode`,
`PrimitiveNode`): a child needs a field, only list fields have several children, and a simple value has none.  Unknown
attributes, and texts where there is no field for them, are ignored. -/
def bindElem (ty : FTy) : XTree → Except PyErr Val
  | .node _ attrs text kids =>
    match ty.object? with
    | some c => do
      let bs ← bindKids c [] kids
      return .obj c ((c.fields.filter (·.init)).map fun f => (f.name, match f.kind with
        | .attr => bindAttr f attrs
        | .text => bindText f text
        | .elem =>
          if f.isList then .list ((bs.filter (·.1 == f.xmlName)).map (·.2))
          else ((bs.filter (·.1 == f.xmlName)).map (·.2)).headD .none))
    | none => if kids.isEmpty then .ok (leafVal ty text) else .error .parserError

/-- The values of the children, with their tags; `seen` holds the tags met so far. -/
def bindKids (c : Cls) (seen : List Str) : List XTree → Except PyErr (List (Str × Val))
  | [] => .ok []
  | t :: ts =>
    match c.findElem t.tag with
    | none => .error .parserError
    | some f =>
      if !f.isList && seen.contains t.tag then .error .parserError
      else do
        let v ← bindElem f.ty t
        let r ← bindKids c (t.tag :: seen) ts
        return (t.tag, v) :: r
end

/-- The object for a document (`XmlContext.find_type`): of the class with this `Meta.name`. -/
def bindRoot (t : XTree) : Except PyErr Val :=
  match Cls.all.find? fun c => c.members.isNone && c.metaName == some t.tag with
  | none => .error .parserError
  | some c => bindElem (.cls c) t

/-! ## The library -/

/-- The characters of documents. -/
structure XmlChars where
  /-- The text of a document (`pretty_print=True`), with the given schema locations. -/
  write : Option Str → Option Str → XTree → Except PyErr Str
  /-- The document of a text; `none` when it is not well-formed XML. -/
  read : Str → Option XTree
  /-- `bytes.decode()`. -/
  decode : List UInt8 → Option Str

/-- The XML library of `XmlIo.lean`, made of characters and binding.  `lxml.etree.XMLSyntaxError` and `xsdata`'s `ParserError` are
not told apart. -/
def XmlChars.lib (X : XmlChars) : XmlLib where
  rootTag src := (X.read src).map XTree.tag
  parse src := match X.read src with
    | none => .error .parserError
    | some t => bindRoot t
  render loc noNsLoc v := do
    let t ← toDoc v
    X.write loc noNsLoc t
  decode := X.decode

end Ndm
