import Verif.Ident
import Verif.Obj

/-! # Building the object tree (`ndm_kvn_io.py:785-1045`, `:1344-1397`) -/

namespace Ndm

/-- `_xmlify_root` (1344-1353). -/
def xmlifyRoot (tag : Str) (items : List Line) : Except PyErr XDoc := do
  let attrs ← items.mapM fun item => do
    let v ← pyGet item 1
    xmlCheck v
    let k ← pyGet item 0
    return (k, v)
  return { tag, attrs, text := [], children := [] }

/-- `_xmlify_single_elem` (1356-1374). -/
def xmlifySingle (tag : Str) (items : List Line) (param : Str) : Except PyErr XDoc := do
  let item ← pyGet items 0
  let text ← pyGet item 1
  xmlCheck text
  let key ← pyGet item 0
  xmlCheck key
  match item[2]? with
  | some u => do
    xmlCheck u
    return { tag, attrs := [(param, key), (py "units", u)], text, children := [] }
  | none => return { tag, attrs := [(param, key)], text, children := [] }

/-- The `units` attribute of a child (1393-1394). -/
def unitAttrs : Option Str → Except PyErr (List (Str × Str))
  | some u => do
    xmlCheck u
    return [(py "units", u)]
  | none => .ok []

/-- One child of `_xmlify_list` without prefix (1389-1396). -/
def xmlifyItem (item : Line) : Except PyErr XLeaf := do
  let key ← pyGet item 0
  tagCheck key
  let attrs ← unitAttrs item[2]?
  let text ← pyGet item 1
  xmlCheck text
  return { tag := key, attrs, text }

/-- One child of `_xmlify_list` with a prefix (1383-1387); the root tag check is the same for every item. -/
def xmlifyPrefixItem (pref : Str) (item : Line) : Except PyErr XLeaf := do
  let key ← pyGet item 0
  let param := removeAll (pref ++ py "_") key
  xmlCheck param
  let text ← pyGet item 1
  xmlCheck text
  return { tag := pref, attrs := [(py "parameter", param)], text }

/-- One child of `_xmlify_list` (1380-1396). -/
def xmlifyChild : Option Str → Line → Except PyErr XLeaf
  | some p => xmlifyPrefixItem p
  | none => xmlifyItem

/-- `_xmlify_list` (1377-1397). -/
def xmlifyList (tag : Str) (items : List Line) (pref : Option Str) : Except PyErr XDoc := do
  let children ← items.mapM (xmlifyChild pref)
  return { tag, attrs := [], text := [], children }

/-- `_special_processing_classes` (101-107). -/
def isSpecialBuild (c : Cls) : Bool :=
  c = .StateVectorAccType || c = .OemCovarianceMatrixType || c = .AemSegment || c = .AttitudeStateType ||
  c = .TrackingDataObservationType

/-- `list(zip(a, b))` as lines. -/
def zipLines (a b : List Str) : List Line := (a.zip b).map fun p => [p.1, p.2]

/-- `StateVectorAccType` (928-931). -/
def stateVectorLines (kw : List Str) (lines : List Line) : Except PyErr (List Line) := do
  let l ← pyGet lines 0
  let s ← pyGet l 0
  return zipLines kw (words s)

/-- `OemCovarianceMatrixType` (933-941). -/
def covarianceLines (kw : List Str) (lines : List Line) : List Line :=
  let data := (lines.filter fun l => !isAlpha (l.headD [])).flatMap fun l => words (l.headD [])
  (lines.filter fun l => isAlpha (l.headD [])) ++ zipLines (kw.drop 3) data

/-- `TrackingDataObservationType` (943-946). -/
def observationLines (lines : List Line) : Except PyErr (List Line) := do
  let l ← pyGet lines 0
  let k ← pyGet l 0
  let s ← pyGet l 1
  return zipLines [py "EPOCH", k] (words s)

/-- `__att_types` (882-890). -/
def attTypes : List (Str × Str) := [
  (py "QUATERNION", py "quaternion_state"),
  (py "QUATERNION/DERIVATIVE", py "quaternion_derivative"),
  (py "QUATERNION/RATE", py "quaternion_euler_rate"),
  (py "EULER_ANGLE", py "euler_angle"),
  (py "EULER_ANGLE/RATE", py "euler_angle_rate"),
  (py "SPIN", py "spin"),
  (py "SPIN/NUTATION", py "spin_nutation")]

/-- `__euler_angle_id` / `__euler_rate_id` (892-893): `KeyError` for other characters. -/
def eulerId (suffix : Str) (c : Char) : Except PyErr Str :=
  if c = '1' then .ok ('X' :: suffix)
  else if c = '2' then .ok ('Y' :: suffix)
  else if c = '3' then .ok ('Z' :: suffix)
  else .error .keyError

/-- `self._lines[self._keys.index(key, start)][1]`: `ValueError` when the key is missing. -/
def metaValue (key : Str) (keys : List Str) (lines : List Line) (start : Nat) : Except PyErr Str :=
  match findFrom key keys start with
  | none => .error .valueError
  | some i => do
    let l ← pyGet lines i
    pyGet l 1

/-- The quaternion part of the line template (971-988). -/
def quaternionTemplate (attType qType : Str) : List Str :=
  (if qType = py "FIRST" then [py "QC", py "Q1", py "Q2", py "Q3"] else [py "Q1", py "Q2", py "Q3", py "QC"]) ++
  (if endsWith attType (py "DERIVATIVE") then
    (if qType = py "FIRST" then [py "QC_DOT", py "Q1_DOT", py "Q2_DOT", py "Q3_DOT"]
     else [py "Q1_DOT", py "Q2_DOT", py "Q3_DOT", py "QC_DOT"])
   else [])

/-- The Euler part of the line template (995-999). -/
def eulerTemplate (attType rotSeq : Str) : Except PyErr (List Str) := do
  let a ← (if startsWith attType (py "EULER") then rotSeq else []).mapM (eulerId (py "_ANGLE"))
  let r ← (if endsWith attType (py "RATE") then rotSeq else []).mapM (eulerId (py "_RATE"))
  return a ++ r

/-- The quaternion keywords of a segment whose attitude type is `attType` (968-988). -/
def quaternionPart (keys : List Str) (lines : List Line) (start : Nat) (attType : Str) : Except PyErr (List Str) :=
  if startsWith attType (py "QUATERNION") then do
    let qType ← metaValue (py "QUATERNION_TYPE") keys lines start
    return quaternionTemplate attType qType
  else .ok []

/-- The Euler keywords of a segment whose attitude type is `attType` (990-999). -/
def eulerPart (keys : List Str) (lines : List Line) (start : Nat) (attType : Str) : Except PyErr (List Str) :=
  if startsWith attType (py "EULER") || endsWith attType (py "RATE") then do
    let rotSeq ← metaValue (py "EULER_ROT_SEQ") keys lines start
    eulerTemplate attType rotSeq
  else .ok []

/-- The line template of an AEM segment starting at `start` and the attitude element it selects (957-999). -/
def attTemplate (keys : List Str) (lines : List Line) (start : Nat) :
    Except PyErr (List Str × Option Str) := do
  let attType ← metaValue (py "ATTITUDE_TYPE") keys lines start
  let q ← quaternionPart keys lines start attType
  let e ← eulerPart keys lines start attType
  return (py "EPOCH" :: (q ++ e), (attTypes.find? (·.1 == attType)).map (·.2))

/-- `__prepare_aemsegment_sub_objects` (955-1010): the sub-elements of the segment, with the template stored in every
attitude state of the second one (the data element) and the other attitude elements deleted. -/
def prepareAemSegment (keys : List Str) (lines : List Line) (e : Elem) (start : Nat) :
    Except PyErr (List Elem) := do
  let data ← pyGet e.subs 1
  let (tmpl, attValue) ← attTemplate keys lines start
  let att := data.subs.map fun a =>
    { a with template := some tmpl, subs := a.subs.filter fun s => some s.name == attValue }
  return e.subs.set 1 { data with subs := att }

/-- A text of an attitude state with every "Type" removed, converted to the type of its field again. -/
def attRecodeText (f : Option Field) (s : Str) : Val :=
  let t := removeAll (py "Type") s
  match f with
  | none => .str t
  | some f =>
    match f.kind with
    | .attr => convText f.ty t
    | .text => bindText f t
    | .elem => if t.isEmpty then .str [] else convText f.ty t

mutual
/-- What `NdmXmlIo().to_string(obj)`, removal of every "Type" from the text and parsing back do to an attitude state
(1029-1044): texts lose every occurrence of "Type" and are converted again, decimals lose positive exponents.  The
element names lose "Type" too, which the parser does not look at for the root and which occurs in no other element
name. -/
def attRecode : Val → Val
  | .dec d => .dec d.plain
  | .obj c vs => .obj c (attRecodeVars c vs)
  | v => v
def attRecodeVars (c : Cls) : List (Str × Val) → List (Str × Val)
  | [] => []
  | (k, .str s) :: r => (k, attRecodeText (c.fields.find? (·.name == k)) s) :: attRecodeVars c r
  | (k, .list xs) :: r => (k, .list (attRecodeList (c.fields.find? (·.name == k)) xs)) :: attRecodeVars c r
  | (k, v) :: r => (k, attRecode v) :: attRecodeVars c r
def attRecodeList (f : Option Field) : List Val → List Val
  | [] => []
  | .str s :: r => attRecodeText f s :: attRecodeList f r
  | v :: r => attRecode v :: attRecodeList f r
end

/-- Attach a built sub-object (868-876): append to a list attribute, otherwise replace. -/
def attach (obj : Val) (name : Str) (sub : Val) : Except PyErr Val :=
  match obj with
  | .obj c vs =>
    match Val.lookupVar name vs with
    | none => .error .attributeError
    | some (.list xs) => if sub.truthy then .ok (.obj c (Val.setVar name (.list (xs ++ [sub])) vs)) else .ok obj
    | some _ => .ok (.obj c (Val.setVar name sub vs))
  | _ => .error .attributeError

/-- `special_data["template"]` (921): `KeyError` when it was never stored. -/
def templateOf (e : Elem) : Except PyErr (List Str) :=
  match e.template with
  | some t => .ok t
  | none => .error .keyError

/-- The document of an ordinary section from its own lines (839-862), `none` when nothing is left of them and there
are no sub-elements (843-845). -/
def plainDoc (e : Elem) (loc : List Line) : Except PyErr (Option XDoc) :=
  let loc := if (prefixOf e.cls).isSome then loc else loc.filter (fun l => e.kw.contains (l.headD []))
  if loc = [] ∧ e.subs = [] then .ok none
  else if e.kw = [py "id", py "version"] then (xmlifyRoot ((e.cls.metaName).getD []) loc).map some
  else match e.single with
    | some p => (xmlifySingle e.name loc p).map some
    | none => (xmlifyList e.name loc (prefixOf e.cls)).map some

/-- The document a section's class is bound to and the sub-elements to build (828-862, 895-953, except attitude
states); `loc` are the section's lines, `hi` the end of its range. -/
def sectionDoc (keys : List Str) (lines : List Line) (e : Elem) (loc : List Line) (hi : Nat) :
    Except PyErr (Option (XDoc × List Elem)) :=
  if e.cls = .AemSegment then do
    let subs ← prepareAemSegment keys lines e hi
    let doc ← xmlifyList e.name loc none
    return some (doc, subs)
  else if e.cls = .StateVectorAccType then do
    let ls ← stateVectorLines e.kw loc
    let doc ← xmlifyList e.name ls none
    return some (doc, e.subs)
  else if e.cls = .OemCovarianceMatrixType then do
    let doc ← xmlifyList e.name (covarianceLines e.kw loc) none
    return some (doc, e.subs)
  else if e.cls = .TrackingDataObservationType then do
    let ls ← observationLines loc
    let doc ← xmlifyList e.name ls none
    return some (doc, e.subs)
  else do
    let doc ← plainDoc e loc
    return doc.map fun d => (d, e.subs)

/-- `__build_object_tree` (803-880), with `__build_special_objects` (895-953) and `__xmlify_att_segment_data`
(1012-1045).  `keys`/`lines` are `self._keys`/`self._lines`; `full` is `full_lines`.  The recursion follows the
element tree, whose depth `fuel` bounds (`C11_terminates`: never exhausted). -/
def build (keys : List Str) (lines : List Line) : Nat → Elem → List Line → Except PyErr Val
  | 0, _, _ => .error .nonTermination
  | fuel + 1, e, full =>
    match e.minMax with
    | none => .error .attributeError
    | some (lo, hi) =>
      let loc := (full.drop lo).take (hi - lo)
      if loc = [] ∧ e.subs = [] then .ok .none
      else if e.cls = .AttitudeStateType then do
        let tmpl ← templateOf e
        let l ← pyGet loc 0
        let s ← pyGet l 0
        let synth := zipLines tmpl (words s)
        let (_, _, e') ← identElem tmpl synth e 0
        let s0 ← pyGet e'.subs 0
        let inner ← build keys lines fuel s0 synth
        let att ← attach e.cls.default s0.name inner
        return attRecode att
      else do
        let doc? ← sectionDoc keys lines e loc hi
        match doc? with
        | none => return .none
        | some (doc, subs) => do
          let obj ← bindDoc e.cls doc
          subs.foldlM (fun o s => do
            let sub ← build keys lines fuel s full
            attach o s.name sub) obj

end Ndm
