import Verif.SchemaData

/-! # The element tree (`ndm_kvn_io.py:136-153`, `:466-571`, `:1162-1243`) -/

namespace Ndm

/-- `_NdmElement` (`ndm_kvn_io.py:136-153`).  `subname_list` is only ever written, never read, and is left out;
`special_data` only ever holds the key `"template"`. -/
structure Elem where
  name : Str
  cls : Cls
  subs : List Elem
  kw : List Str
  isList : Bool := false
  single : Option Str := none
  minMax : Option (Nat × Nat) := none
  template : Option (List Str) := none
deriving Repr

/-- `_get_ccsds_kw_list` (1221-1243). -/
def ccsdsKwList (c : Cls) : List Str :=
  match c.members with
  | some ms => ms.map (·.1)
  | none => c.fields.filterMap (·.ccsds)

/-- `_is_class` (1186-1198). -/
def isClassField (f : Field) : Bool :=
  match f.ccsds with
  | some n => !isUpper n
  | none => true

/-- The class named by a field's type argument, if it is a model class. -/
def FTy.cls? : FTy → Option Cls
  | .cls c => some c
  | _ => none

/-- The fields considered by `_extract_object_submap` (511-522): not `id`/`version`, and a class according to
`_is_class`. -/
def Cls.blockFields (c : Cls) : List Field :=
  c.fields.filter (fun f => f.name != py "id" && f.name != py "version" && isClassField f)

/-- `"value" in subname_list` (524): an edge class holding a single element. -/
def Cls.isValueClass (c : Cls) : Bool := c.fields.any (·.name == py "value")

/-- The field naming the keyword of an edge class (528-536): the first class field other than `value` and `units`. -/
def Cls.keywordField (c : Cls) : Option Field :=
  (c.blockFields.filter (fun f => f.name != py "value" && f.name != py "units")).head?

/-- `_extract_object_submap` (485-571).  The recursion over the (acyclic) class graph is by depth; `fuel` bounds the
depth and `extract_fuel` shows that `treeDepth` is always enough.  Simplification: an edge class without a keyword
field would raise `IndexError` at 536; no block field of the schema has such a class (`edge_classes_have_keyword`). -/
def extract : Nat → Str → Cls → Bool → Elem
  | 0, name, c, isList => { name, cls := c, subs := [], kw := [], isList }
  | fuel + 1, name, c, isList =>
    let kw := (ccsdsKwList c).filter isUpper
    if c.isValueClass then
      let single := c.blockFields.filter (fun f => f.name != py "value" && f.name != py "units")
      { name, cls := c, subs := [], isList
        kw := kw ++ single.flatMap (fun f => (f.ty.cls?.map ccsdsKwList).getD [])
        single := single.head?.map (·.name) }
    else
      { name, cls := c, kw, isList
        subs := c.blockFields.filterMap fun f => f.ty.cls?.map fun d => extract fuel f.name d f.isList }

/-- More than the depth of the class graph. -/
def treeDepth : Nat := 10

/-- `_init_object_map` (466-483): the tree of a message class, whose own keywords are `id` and `version`. -/
def objectMap (c : Cls) : Elem :=
  let e := extract treeDepth ((c.idVersion.map (·.1)).getD []) c false
  { e with kw := e.kw ++ [py "id", py "version"] }

end Ndm
