import Verif.Tree
import Verif.Pre
import Verif.Dec
import Mathlib.Data.List.Sort

/-! # Identification of sections (`ndm_kvn_io.py:573-783`, `:1068-1159`, `:1201-1341`) -/

namespace Ndm

/-- `keys.index(key, start)`, `none` for `ValueError` (`_get_index`, 1201-1218). -/
def findFrom (key : Str) (keys : List Str) (start : Nat) : Option Nat :=
  ((keys.drop start).findIdx? (· == key)).map (· + start)

/-- `__process_comment_lines` (1246-1274): the extended index list. -/
def processComments (tags : List Str) (start : Nat) (keys : List Str) (idx : List Nat) :
    Except PyErr (List Nat) :=
  if tags.contains (py "COMMENT") then
    if tags.length = 1 then do
      let key ← pyGet keys start
      return if key = py "COMMENT" then idx ++ [start] else idx
    else
      match idx.max? with
      | none => .ok idx
      | some hi =>
        .ok (idx ++ (List.range' start (hi + 1 - start)).filter (fun i => keys[i]? == some (py "COMMENT")))
  else .ok idx

/-- The check for non-consecutive data (1304-1327), on a non-empty index list with minimum `lo` and maximum `hi`. -/
def chop (keys : List Str) (idx : List Nat) (lo hi : Nat) : Except PyErr (List Nat) :=
  let sorted := idx.insertionSort (· ≤ ·)
  let ideal := List.range' lo (hi + 1 - lo)
  let diff := ideal.filter (fun n => !sorted.contains n)
  let diffKeys := diff.map (fun n => (keys[n]?).getD [])
  if !diff.isEmpty && (diffKeys.any (·.contains ' ') || !decide diffKeys.Nodup) then
    -- `ideal_list[i]` raises `IndexError` beyond its end
    if ideal.length < sorted.length then .error .indexError
    else .ok (((sorted.zip ideal).filter (fun p => p.1 = p.2)).map (·.1))
  else .ok sorted

/-- The check of 1304 (`if min_max_list:`) around `chop`. -/
def chopAll (keys : List Str) (idx : List Nat) : Except PyErr (List Nat) :=
  match idx.min?, idx.max? with
  | some lo, some hi => chop keys idx lo hi
  | _, _ => .ok idx

/-- The limits given by the final index list (1329-1341). -/
def limits (start : Nat) (single : Bool) (idx : List Nat) : Nat × Nat :=
  match idx.min?, idx.max? with
  | some lo, some hi => (lo, if single then lo + 1 else hi + 1)
  | _, _ => (start, start)

/-- The tags to look for, extended in place for a prefix (1287-1289). -/
def withPrefix (tags : List Str) (start : Nat) (keys : List Str) : Option Str → List Str
  | none => tags
  | some p => tags ++ (keys.drop start).filter (fun k => startsWith k p)

/-- `_get_min_max_indices` (1277-1341): the range, and the tags as extended in place for a prefix (1287-1289). -/
def getMinMax (tags : List Str) (start : Nat) (keys : List Str) (pref : Option Str) (single : Bool) :
    Except PyErr ((Nat × Nat) × List Str) := do
  let tags := withPrefix tags start keys pref
  let idx := (tags.filter (· != py "COMMENT")).filterMap (findFrom · keys start)
  let idx ← processComments tags start keys idx
  let idx ← chopAll keys idx
  return (limits start single idx, tags)

/-- `datestr[:4].isnumeric() and datestr[4] == "-"` (1107, 1122): `IndexError` for a four-digit text. -/
def isDateStr (d : Str) : Except PyErr Bool :=
  if isNumeric (d.take 4) then do
    let c ← pyGet d 4
    return c == '-'
  else .ok false

/-- Number of leading lines whose first token `float()` accepts (1145-1153); a line without any token stops the
loop (`IndexError` is caught). -/
def countFloatLines : List Line → Nat
  | [] => 0
  | l :: ls =>
    match l.head?.map words with
    | some (t :: _) => if floatOk t then countFloatLines ls + 1 else 0
    | _ => 0

/-- `_special_identification_classes` (90-95). -/
def isSpecialIdent (c : Cls) : Bool :=
  c = .StateVectorAccType || c = .OemCovarianceMatrixType || c = .AttitudeStateType ||
  c = .TrackingDataObservationType

/-- `prefix` (585-589, 797-801). -/
def prefixOf (c : Cls) : Option Str := if c = .UserDefinedType then some (py "USER_DEFINED") else none

/-- `_identify_special_sub_segments` (1068-1159). -/
def identifySpecial (e : Elem) (keys : List Str) (lines : List Line) (init : Nat) :
    Except PyErr ((Nat × Nat) × List Str) :=
  if e.cls = .StateVectorAccType || e.cls = .AttitudeStateType then do
    let l ← pyGet lines init
    let s ← pyGet l 0
    let d ← pyGet (words s) 0
    let b ← isDateStr d
    return (if b then (init, init + 1) else (init, init), e.kw)
  else if e.cls = .TrackingDataObservationType then do
    let l ← pyGet lines init
    let s ← pyGet l 1
    let d ← pyGet (words s) 0
    let b ← isDateStr d
    return (if b then (init, init + 1) else (init, init), e.kw)
  else if e.cls = .OemCovarianceMatrixType then do
    let ((lo, hi), kw) ← getMinMax e.kw init keys (prefixOf e.cls) e.single.isSome
    if lo = hi then return ((init, init), kw)
    else return ((lo, hi + countFloatLines (lines.drop hi)), kw)
  else .error .valueError

/-- The limits of the element itself (584-615), with its keyword list as left by `getMinMax`. -/
def rootRange (e : Elem) (keys : List Str) (lines : List Line) (init : Nat) :
    Except PyErr ((Nat × Nat) × List Str) :=
  if isSpecialIdent e.cls then identifySpecial e keys lines init
  else getMinMax e.kw init keys (prefixOf e.cls) e.single.isSome

/-- The `while` loop of `__identify_list` (740-783).  `ident` identifies a clean copy of the list element at an index
and returns `(max_index, min_max, element)`.  `acc` holds the elements found, latest first; `init` is both
`init_index` and `last_max_index` (they are always equal).  Fuel exhaustion is reported as `nonTermination`. -/
def listLoop (ident : Nat → Except PyErr (Nat × (Nat × Nat) × Elem)) (nLines : Nat) :
    Nat → Nat → List Elem → Except PyErr (Nat × List Elem)
  | 0, _, _ => .error .nonTermination
  | fuel + 1, init, acc => do
    let (maxIndex, mm, e) ← ident init
    if maxIndex = mm.1 ∧ mm.1 = mm.2 then return (maxIndex, acc.reverse)           -- 758-760
    else if mm.1 > init then return (init, acc.reverse)                             -- 761-765
    else
      let acc := { e with minMax := some mm } :: acc                                -- 766-771
      if maxIndex ≥ nLines then return (maxIndex, acc.reverse)                      -- 773-775
      else listLoop ident nLines fuel maxIndex acc

/-- 701-709: an element found empty and without sub-elements is searched again from the start of its parent. -/
def researchRange (keys : List Str) (lines : List Line) (rootMin : Nat) (mm : Nat × Nat) (s : Elem) :
    Except PyErr ((Nat × Nat) × List Str) :=
  if mm.1 = mm.2 ∧ s.subs = [] then rootRange s keys lines rootMin else .ok (mm, s.kw)

mutual
/-- `__identify_sub_segments` (590-641): `(max_index, min_max)` and the updated element.  The clean copy made for
each list element (745-750) is the list element's own (never modified) entry: `_extract_object_submap` is a pure
function of the class, and neither `is_list` nor `min_max` of the copy is read by the identification. -/
def identElem (keys : List Str) (lines : List Line) : Elem → Nat → Except PyErr (Nat × (Nat × Nat) × Elem)
  | ⟨name, cls, subs, kw, isList, single, minMax, template⟩, init => do
    let (mm, kw') ← rootRange ⟨name, cls, subs, kw, isList, single, minMax, template⟩ keys lines init
    let (maxIndex, subs') ← identSubs keys lines mm.1 subs mm.2
    return (maxIndex, mm, ⟨name, cls, subs', kw', isList, single, minMax, template⟩)

/-- `__identify_sub_sub_segments` (643-717), over the remaining sub-elements; `rootMin` is `root_min_max.min`. -/
def identSubs (keys : List Str) (lines : List Line) (rootMin : Nat) :
    List Elem → Nat → Except PyErr (Nat × List Elem)
  | [], init => .ok (init, [])
  | s :: rest, init =>
    if s.isList then do
      let (maxIndex, es) ← listLoop (fun i => identElem keys lines s i) lines.length (lines.length + 1) init []
      let (maxIndex', es') ← identSubs keys lines rootMin rest maxIndex
      return (maxIndex', es ++ es')
    else do
      let (maxIndex, mm, s') ← identElem keys lines s init
      let (mm, kw) ← researchRange keys lines rootMin mm s'
      let (maxIndex', es') ← identSubs keys lines rootMin rest maxIndex
      return (maxIndex', { s' with minMax := some mm, kw } :: es')
end

end Ndm
