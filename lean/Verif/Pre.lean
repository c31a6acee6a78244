import Verif.SchemaData

/-! # Pre-processing of KVN text (`ndm_kvn_io.py:407-464`, `:51-85`, `:128-133`, `:1049-1066`) -/

namespace Ndm

/-- A pre-processed line: `[key]`, `[key, value]` or `[key, value, unit]`. -/
abbrev Line := List Str

/-- The body of the loop over the input lines (`ndm_kvn_io.py:421-453`): `none` for a skipped (blank) line.
`line.strip()` is computed once (the source strips twice; stripping is idempotent, see `strip_strip`). -/
def parseLine (raw : Str) : Option Line :=
  let line := strip raw
  if line.isEmpty then none
  else if startsWith line (py "COMMENT") then
    -- 428-433
    let text := strip (line.drop 7)
    let text := if startsWith text (py "=") then strip (text.drop 1) else text
    some ([py "COMMENT", text].map strip)
  else
    -- 438-450
    let parts := splitOnce '=' line
    let parts := match parts with
      | [key, text] =>
        if endsWith (rstrip text) (py "]") then
          if text.contains '[' then
            [key, text.takeWhile (· ≠ '['), (text.dropWhile (· ≠ '[')).filter (fun c => c ≠ '[' && c ≠ ']')]
          else parts
        else parts
      | _ => parts
    some (parts.map strip)

/-- `_pre_process_kvn_data` (`ndm_kvn_io.py:407-464`): the resulting `self._lines`.  The first line is doubled into
an `id` line and a `version` line; `IndexError` when there is no line at all. -/
def preprocess (src : Str) : Except PyErr (List Line) :=
  match (splitChar '\n' src).filterMap parseLine with
  | [] => .error .indexError                          -- `lines[0]`, 457
  | l0 :: rest => do
    let key ← pyGet l0 0                              -- `lines[0][0]`, 458
    return [py "id", key] :: (py "version" :: l0.drop 1) :: rest

/-- `self._keys = [line[0] for line in lines]` (464).  Every line has a first item. -/
def keysOf (lines : List Line) : List Str := lines.map (·.headD [])

/-- `_NdmDataType` (51-66), in declaration order. -/
def kvnTypes : List Cls := [.Aem, .Apm, .Cdm, .Oem, .Omm, .Opm, .Rdm, .Tdm]

/-- `_NdmDataType.find_element(ndm_id).clazz` (68-85): `AttributeError` (on `None`) for an unknown id. -/
def findKvnType (id : Str) : Except PyErr Cls :=
  match kvnTypes.find? (fun c => c.idVersion.map (·.1) == some id) with
  | some c => .ok c
  | none => .error .attributeError

/-- `_identify_data_type` (1049-1066). -/
def identifyDataType (lines : List Line) : Except PyErr Cls := do
  let l ← pyGet lines 0
  let id ← pyGet l 1
  findKvnType id

/-- `_deleted_keywords` (128-132). -/
def deletedKeywords : Cls → List Str
  | .Oem => [py "META_START", py "META_STOP", py "COVARIANCE_START", py "COVARIANCE_STOP"]
  | .Aem => [py "META_START", py "META_STOP", py "DATA_START", py "DATA_STOP"]
  | .Tdm => [py "META_START", py "META_STOP", py "DATA_START", py "DATA_STOP"]
  | _ => []

/-- Deletion of the marker lines (`ndm_kvn_io.py:203-206`). -/
def deleteMarkers (c : Cls) (lines : List Line) : List Line :=
  lines.filter (fun l => !(deletedKeywords c).contains (l.headD []))

end Ndm
