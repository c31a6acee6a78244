import Verif.KvnIo

/-! # `NdmXmlIo` (`ndm_xml_io.py`) and `NdmIo` (`ndm_io.py`)

XML text itself is handled by `xml.etree`, `lxml` and `xsdata`; these appear as parameters. -/

namespace Ndm

/-- The external XML machinery. -/
structure XmlLib where
  /-- `ElementTree.XML(text).tag`; `none` when it raises `ParseError`. -/
  rootTag : Str → Option Str
  /-- `XmlParser(fail_on_unknown_properties=True).from_string(text)`. -/
  parse : Str → Except PyErr Val
  /-- `XmlSerializer(SerializerConfig(pretty_print=True, schema_location, no_namespace_schema_location)).render`. -/
  render : Option Str → Option Str → Val → Except PyErr Str
  /-- `bytes.decode()`; `none` when it raises `UnicodeDecodeError` (a `ValueError`). -/
  decode : List UInt8 → Option Str

/-- `_NdmDataType` of `ndm_xml_io.py` (23-35), in declaration order. -/
def xmlTypes : List Cls := [.Aem, .Apm, .Cdm, .Oem, .Omm, .Opm, .Rdm, .Tdm]

/-- `_identify_data_type` (231-261): the class and whether the text is treated as a combined instantiation. -/
def identifyXmlType (lib : XmlLib) (src : Str) : Cls × Bool :=
  match lib.rootTag src with
  | none => (.Ndm, true)
  | some tag =>
    match xmlTypes.find? (fun c => c.metaName == some tag) with
    | some c => (c, false)
    | none => (.Ndm, true)

/-- `ndm_item.__class__ = type(ndm_item).__subclasses__()[0]` (135-136): `IndexError` without a subclass.  Items
that are not dataclass instances cannot occur in a list of messages (`TypeError`). -/
def downcastItem : Val → Except PyErr Val
  | .obj c vs => match c.firstSubclass with
    | some d => .ok (.obj d vs)
    | none => .error .indexError
  | _ => .error .typeError

/-- The loop over the slots of an `Ndm` (131-136). -/
def downcastVars (vs : List (Str × Val)) : Except PyErr (List (Str × Val)) :=
  vs.mapM fun p =>
    if p.1 = py "comment" ∨ p.1 = py "message_id" then .ok p
    else match p.2 with
      | .list xs => do
        let ys ← xs.mapM downcastItem
        return (p.1, .list ys)
      | _ => .error .typeError

/-- `_strip_multi_ndm` (264-302). -/
def stripMultiNdm : Val → Except PyErr Val
  | .obj c vs => do
    match ← nonZeroSlots vs with
    | [(_, [x])] => return x
    | _ => return .obj c vs
  | _ => .error .typeError

/-- `isinstance(ndm, Ndm)` followed by the downcast (130-136). -/
def downcastNdm : Val → Except PyErr Val
  | .obj .Ndm vs => do
    let vs' ← downcastVars vs
    return .obj .Ndm vs'
  | v => .ok v

/-- `NdmXmlIo.from_string` (106-144).  The lazily created parser has no state of its own. -/
def xmlFromString (lib : XmlLib) (src : Str) : Except PyErr Val := do
  let (_, combi) := identifyXmlType lib src
  let ndm ← lib.parse src
  let ndm ← downcastNdm ndm
  if combi then stripMultiNdm ndm else return ndm

/-- An `NdmXmlIo` instance: whether the parser exists, and the schema locations the serializer was created with. -/
structure XmlSelf where
  parser : Bool := false
  serializer : Option (Option Str × Option Str) := none

/-- `from_string` on an instance: creates the parser if needed. -/
def XmlSelf.fromString (lib : XmlLib) (s : XmlSelf) (src : Str) : Except PyErr Val × XmlSelf :=
  (xmlFromString lib src, { s with parser := true })

/-- `to_string` (146-173): the serializer is created on the first call only. -/
def XmlSelf.toString (lib : XmlLib) (s : XmlSelf) (o : Val) (loc noNsLoc : Option Str) :
    Except PyErr Str × XmlSelf :=
  let cfg := match s.serializer with
    | some cfg => cfg
    | none => (loc, noNsLoc)
  (lib.render cfg.1 cfg.2 o, { s with serializer := some cfg })

/-- `from_bytes` (89-104).  When the bytes cannot be decoded (`UnicodeDecodeError`), nothing else happens. -/
def XmlSelf.fromBytes (lib : XmlLib) (s : XmlSelf) (b : List UInt8) : Except PyErr Val × XmlSelf :=
  match lib.decode b with
  | some src => s.fromString lib src
  | none => (.error .valueError, s)

/-! ## `NdmIo` -/

/-- `NDMFileFormats` (`ndm_io.py:18-25`). -/
inductive Fmt where
  | xml | kvn | json
deriving DecidableEq, Repr

/-- `_identify_data_format` (`ndm_io.py:168-198`). -/
def identifyFormat (src : Str) : Except PyErr Fmt :=
  let s := strip src
  if startsWith s (py "CCSDS_") then .ok .kvn
  else if startsWith s (py "<") && endsWith s (py ">") then .ok .xml
  else if startsWith s (py "[") && endsWith s (py "]") then .ok .json
  else .error .valueError

/-- `NdmIo.from_string` (`ndm_io.py:70-105`): a fresh `NdmXmlIo` or `NdmKvnIo` per call. -/
def ndmFromString (lib : XmlLib) (src : Str) : Except PyErr Val := do
  match ← identifyFormat src with
  | .xml => (XmlSelf.fromString lib {} src).1
  | .kvn => (KvnSelf.fromString {} src).1
  | .json => .error .notImplementedError

/-- `NdmIo.from_bytes` (`ndm_io.py:53-68`). -/
def ndmFromBytes (lib : XmlLib) (b : List UInt8) : Except PyErr Val :=
  match lib.decode b with
  | some s => ndmFromString lib s
  | none => .error .valueError

/-- `NdmIo.to_string` (`ndm_io.py:107-136`): `kwargs` reach the XML writer only. -/
def ndmToString (lib : XmlLib) (o : Val) (f : Fmt) (loc noNsLoc : Option Str) : Except PyErr Str :=
  match f with
  | .xml => (XmlSelf.toString lib {} o loc noNsLoc).1
  | .kvn => kvnToString o
  | .json => .error .notImplementedError

end Ndm
