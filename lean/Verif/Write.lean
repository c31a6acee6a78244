import Verif.Obj

/-! # Writing KVN (`ndm_kvn_io.py:218-405`, `:1400-1661`) -/

namespace Ndm

/-- `_fill_str_out_kvn(key, value, unit)` (1400-1428); the value is already a string. -/
def fillKvn (key value : Str) (unit : Option Str) : Str :=
  match unit with
  | some u =>
    if u.isEmpty then ljust 20 (upper key) ++ py " = " ++ value
    else ljust 20 (upper key) ++ py " = " ++ ljust 18 value ++ py "[" ++ u ++ py "]"
  | none => ljust 20 (upper key) ++ py " = " ++ value

/-- `_fill_str_out_multi_kvn` (1431-1453). -/
def fillMultiKvn (key v1 v2 : Str) : Str := ljust 20 (upper key) ++ py " = " ++ ljust 30 v1 ++ v2 ++ py " "

/-- `_fill_out_single_line` (1456-1476). -/
def fillSingle (line : List Str) : Except PyErr Str := do
  let x ← pyGet line 0
  return if x = py "\n" then [] else joinWith (py "  ") line

/-- `_special_output_data_classes` (122-127). -/
def isSpecialOut (c : Cls) : Bool :=
  c = .StateVectorAccType || c = .OemCovarianceMatrixType || c = .TrackingDataObservationType ||
  c = .AttitudeStateType

/-- `_special_output_header_classes` (114-121) with the marker text of `_collate_special_header_str_out` (1479-1512). -/
def headerName (c : Cls) : Option Str :=
  match c with
  | .AemMetadata | .OemMetadata | .TdmMetadata => some (py "META")
  | .AemData | .TdmData => some (py "DATA")
  | .OemCovarianceMatrixType => some (py "COVARIANCE")
  | _ => none

def headerOf : Val → Option Str
  | .obj c _ => headerName c
  | _ => none

def beginLine (h : Str) : Str := h ++ py "_START"
def endLine (h : Str) : Str := h ++ py "_STOP"

/-- `getattr(elem, "value", elem)`. -/
def valueOr : Val → Val
  | .obj c vs => (Val.lookupVar (py "value") vs).getD (.obj c vs)
  | .enum _ v => .str v
  | v => v

/-- `obj.value` (`AttributeError` without that attribute). -/
def valueAttr : Val → Except PyErr Val
  | .obj _ vs => match Val.lookupVar (py "value") vs with
    | some v => .ok v
    | none => .error .attributeError
  | .enum _ v => .ok (.str v)
  | _ => .error .attributeError

/-- `d[key]` (`KeyError` when missing). -/
def dictGet (key : Str) (vs : List (Str × Val)) : Except PyErr Val :=
  match Val.lookupVar key vs with
  | some v => .ok v
  | none => .error .keyError

/-- `StateVectorAccType` (1540-1545). -/
def writeStateVector (vs : List (Str × Val)) : Except PyErr (List Str) := do
  let l ← fillSingle ((vs.filter (·.2.truthy)).map fun p => pyStr (valueOr p.2))
  return [l]

/-- The classes whose `repr` starts with "Quaternion" (1554). -/
def isQuaternionCls (c : Cls) : Bool :=
  c = .QuaternionEphemerisType || c = .QuaternionDerivativeType || c = .QuaternionEulerRateType ||
  c = .QuaternionType || c = .QuaternionRateType || c = .QuaternionDotType || c = .QuaternionStateType

/-- `next(x for x in reversed(out_str) if x.startswith("QUATERNION_TYPE")).split("=")[-1]` and the test for "LAST"
(1565-1570). -/
def quatLast (out : List Str) : Except PyErr Bool :=
  match out.reverse.find? (fun x => startsWith x (py "QUATERNION_TYPE")) with
  | none => .error .stopIteration
  | some x => .ok (startsWith (strip ((splitChar '=' x).getLastD [])) (py "LAST"))

def strsOf (keys : List Str) (vs : List (Str × Val)) : Except PyErr (List Str) :=
  keys.mapM fun k => do return pyStr (← dictGet k vs)

/-- The quaternion branch (1562-1614). -/
def quaternionLine (c : Cls) (rots : List (List (Str × Val))) (out : List Str) : Except PyErr (List Str) := do
  let last ← quatLast out
  let r0 ← pyGet rots 0
  let q ← strsOf (if last then [py "q1", py "q2", py "q3", py "qc"] else [py "qc", py "q1", py "q2", py "q3"]) r0
  if c = .QuaternionEulerRateType then
    let r1 ← pyGet rots 1
    let vals ← [py "rotation1", py "rotation2", py "rotation3"].mapM fun k => do
      let x ← dictGet k r1
      return pyStr (← valueAttr x)
    return q ++ vals
  else if c = .QuaternionDerivativeType then
    -- 1596-1614 look the derivatives up in `rot_objects[0]`
    let d ← strsOf (if last then [py "q1_dot", py "q2_dot", py "q3_dot", py "qc_dot"]
      else [py "qc_dot", py "q1_dot", py "q2_dot", py "q3_dot"]) r0
    return q ++ d
  else return q

/-- The numbers following the epoch (1554-1623). -/
def attLine (att : Val) (rots : List (List (Str × Val))) (out : List Str) : Except PyErr (List Str) :=
  match att with
  | .obj c _ =>
    if isQuaternionCls c then quaternionLine c rots out
    else .ok (rots.flatMap fun r => r.map fun p => pyStr (valueOr p.2))
  | _ => .ok []

/-- `AttitudeStateType` (1547-1626).  Without any attitude element the function returns `None`, which `extend`
refuses with `TypeError`. -/
def writeAttitude (vs : List (Str × Val)) (out : List Str) : Except PyErr (List Str) :=
  match (vs.map (·.2)).filter Val.truthy with
  | [] => .error .typeError
  | att :: _ => do
    let avs ← att.vars?
    let rots ← (avs.filter (·.1 != py "epoch")).mapM fun p => p.2.vars?
    let line ← attLine att rots out
    -- 1625: the epoch must be a string for the join to succeed
    match ← dictGet (py "epoch") avs with
    | .str e => do
      let l ← fillSingle (e :: line)
      return [l]
    | _ => .error .typeError

/-- `TrackingDataObservationType` (1628-1640): the first `Decimal` attribute. -/
def writeObservation (vs : List (Str × Val)) : Except PyErr (List Str) := do
  let items := vs.filter fun p => (match p.2 with | .dec _ => true | _ => false) && p.1 != py "epoch"
  let (k, v) ← pyGet items 0
  let ep ← dictGet (py "epoch") vs
  return [fillMultiKvn k (pyStr ep) (pyStr v)]

/-- `hasattr(elem, "value")` and its value (1654-1657). -/
def valueAttr? : Val → Option Val
  | .obj _ vs => Val.lookupVar (py "value") vs
  | .enum _ v => some (.str v)
  | _ => none

/-- Rows of lengths `n`, `n+1`, ... of a list; an incomplete last row is dropped (1650-1659). -/
def triRows : Nat → Nat → List Str → List (List Str)
  | 0, _, _ => []
  | fuel + 1, n, l => if l.length < n then [] else l.take n :: triRows fuel (n + 1) (l.drop n)

/-- `comment` of an object, as iterated by the code: `TypeError` if it is not a list. -/
def iterList : Val → Except PyErr (List Val)
  | .list xs => .ok xs
  | _ => .error .typeError

/-- `obj.attr` through `vars` (`AttributeError` when missing). -/
def attrGet (key : Str) (vs : List (Str × Val)) : Except PyErr Val :=
  match Val.lookupVar key vs with
  | some v => .ok v
  | none => .error .attributeError

/-- `OemCovarianceMatrixType` (1642-1661). -/
def writeCovariance (key : Str) (vs : List (Str × Val)) : Except PyErr (List Str) := do
  let comments ← iterList (← attrGet (py "comment") vs)
  let ep ← attrGet (py "epoch") vs
  let frame ← attrGet (py "cov_ref_frame") vs
  let nums := (vs.filterMap fun p => valueAttr? p.2).map pyStr
  let rows ← (triRows (nums.length + 1) 1 nums).mapM fillSingle
  return comments.map (fun c => fillKvn key (pyStr c) none) ++ [fillKvn (py "epoch") (pyStr ep) none] ++
    (if frame.truthy then [fillKvn (py "cov_ref_frame") (pyStr frame) none] else []) ++ rows

/-- `_collate_special_data_str_out` (1515-1661). -/
def writeSpecial (key : Str) (c : Cls) (vs : List (Str × Val)) (out : List Str) : Except PyErr (List Str) :=
  if c = .StateVectorAccType then writeStateVector vs
  else if c = .AttitudeStateType then writeAttitude vs out
  else if c = .TrackingDataObservationType then writeObservation vs
  else writeCovariance key vs

/-- The keyword a value class instance is written under (339-349): the value of an attribute other than `value` and
`units`, if there is one. -/
def valueKey (key : Str) (vs : List (Str × Val)) : Except PyErr Str :=
  match vs.filter fun p => p.1 != py "value" && p.1 != py "units" with
  | [] => .ok key
  | (_, t) :: _ =>
    match valueAttr t with
    | .ok (.str s) => .ok s
    | .ok _ => .error .attributeError                    -- `key.upper()` on something that is not a string
    | .error e => .error e

/-- A value class instance (336-363): the keyword may come from a third attribute, units are optional. -/
def writeValueObj (key : Str) (vs : List (Str × Val)) : Except PyErr Str := do
  let keyUsed ← valueKey key vs
  let units ← attrGet (py "units") vs
  let value ← attrGet (py "value") vs
  if units.truthy then do
    let u ← valueAttr units
    -- `if unit:` in `_fill_str_out_kvn` and `{unit}` in its f-string
    return fillKvn keyUsed (pyStr value) (if u.truthy then some (pyStr u) else none)
  else return fillKvn keyUsed (pyStr value) none

/-- One user-defined parameter (372-380). -/
def writeUserDefined (key : Str) (item : Val) : Except PyErr Str := do
  match item with
  | .obj _ vs => do
    match ← attrGet (py "parameter") vs with
    | .str p => do
      let v ← attrGet (py "value") vs
      return fillKvn (key ++ py "_" ++ p) (if v.truthy then pyStr v else []) none
    | _ => .error .typeError
  | _ => .error .attributeError

/-- Emit a section between its marker lines (327-331 and 401-405; 384-390 and 394-399 for a list, with different
blank lines). -/
def withHeader (h : Option Str) (before after : Str → List Str) (out : List Str)
    (body : List Str → Except PyErr (List Str)) : Except PyErr (List Str) :=
  match h with
  | some h => (body (out ++ before h)).map (· ++ after h)
  | none => body out

mutual
/-- `_collate_str_out` (268-300): `out` extended with the lines of an object. -/
def collateObj (rootKey : Str) (out : List Str) : Val → Except PyErr (List Str)
  | .obj c vs =>
    if isSpecialOut c then do
      let ls ← writeSpecial rootKey c vs out
      return out ++ ls
    else do
      let out ← collateVars out vs
      return if rootKey ≠ [] ∧ vs ≠ [] ∧ ¬ vs.any (·.1 == py "value") then out ++ [[]] else out
  | _ => .error .typeError

/-- The loop over `subclasses.items()` (296-297). -/
def collateVars (out : List Str) : List (Str × Val) → Except PyErr (List Str)
  | [] => .ok out
  | (k, v) :: rest => do
    let out ← collateSub k out v
    collateVars out rest

/-- `_collate_str_out_subclasses` (302-405). -/
def collateSub (key : Str) (out : List Str) : Val → Except PyErr (List Str)
  | .str s => .ok (out ++ [fillKvn key s none])
  | .int i => .ok (out ++ [fillKvn key (intStr i) none])
  | .obj c vs =>
    withHeader (headerName c) (fun h => [beginLine h, []]) (fun h => [endLine h, []]) out fun out =>
      if key = py "comment" then .error .typeError                         -- a dataclass is not iterable
      else if vs.any (·.1 == py "units") then do
        let l ← writeValueObj key vs
        return out ++ [l]
      else if key = py "user_defined" then .error .typeError               -- a dataclass is not iterable
      else if isSpecialOut c then do
        let ls ← writeSpecial key c vs out
        return out ++ ls
      else do
        let out ← collateVars out vs
        return if key ≠ [] ∧ vs ≠ [] ∧ ¬ vs.any (·.1 == py "value") then out ++ [[]] else out
  | .enum c v =>
    if key = py "comment" then .error .typeError                           -- a member is not iterable
    else .ok (out ++ [fillKvn key (pyStr (valueOr (.enum c v))) none])
  | .dec d =>
    if key = py "comment" then .error .typeError                           -- a Decimal is not iterable
    else .ok (out ++ [fillKvn key d.toStr none])
  | .none =>
    if key = py "comment" ∨ key = py "user_defined" then .error .typeError -- None is not iterable
    else .ok out
  | .list xs =>
    if key = py "comment" then .ok (out ++ xs.map fun x => fillKvn key (pyStr x) none)
    else if key = py "user_defined" then do
      let ls ← xs.mapM (writeUserDefined key)
      return out ++ ls
    else match xs with
      | [] => .ok out
      | x :: rest =>
        withHeader (headerOf x) (fun h => [[], beginLine h, []]) (fun h => [[], endLine h, []]) out fun out => do
          let out ← collateObj key out x
          collateItems key out rest

/-- The loop over the items of a list (391-392). -/
def collateItems (key : Str) (out : List Str) : List Val → Except PyErr (List Str)
  | [] => .ok out
  | x :: rest => do
    let out ← collateObj key out x
    collateItems key out rest
end

/-- The slots of a combined message with at least one member (`ndm_xml_io.py:283-290` = `:322-329`); `len(None)`
raises `TypeError`, as does the `len` of anything but a list or a string, whose members are its characters. -/
def nonZeroSlots (vs : List (Str × Val)) : Except PyErr (List (Str × List Val)) := do
  let ls ← (vs.filter fun p => p.1 != py "message_id" && p.1 != py "comment").mapM fun p =>
    match p.2 with
    | .list xs => Except.ok (p.1, xs)
    | .str s => Except.ok (p.1, s.map fun c => .str [c])
    | _ => .error .typeError
  return ls.filter fun p => !p.2.isEmpty

/-- `_is_multi_ndm` (`ndm_xml_io.py:305-341`). -/
def isMultiNdm (vs : List (Str × Val)) : Except PyErr Bool := do
  match ← nonZeroSlots vs with
  | [(_, [_])] => return false
  | _ => return true

/-- `NdmKvnIo.to_string` before the join (`ndm_kvn_io.py:249-258`). -/
def kvnLines (o : Val) : Except PyErr (List Str) :=
  match o with
  | .obj c vs =>
    match c.metaName with
    | none => .error .attributeError
    | some n => do
      if n = py "ndm" then
        if ← isMultiNdm vs then throw .notImplementedError
      match c.idVersion with
      | none => .error .attributeError                  -- `ndm_obj.id`
      | some (id, version) => collateObj [] [fillKvn id version none] o
  | _ => .error .attributeError

/-- `NdmKvnIo.to_string` (`ndm_kvn_io.py:230-266`). -/
def kvnToString (o : Val) : Except PyErr Str := do
  let out ← kvnLines o
  return joinWith (py "\n") out

end Ndm
