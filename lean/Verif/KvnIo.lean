import Verif.Build
import Verif.Write

/-! # `NdmKvnIo` (`ndm_kvn_io.py:156-266`, `:573-588`, `:785-801`) -/

namespace Ndm

/-- More than the depth of any identified tree, plus the nested build of an attitude state. -/
def buildFuel : Nat := 2 * treeDepth

/-- The result of `NdmKvnIo().from_string` as a function of the text alone.  (`KvnSelf.fromString` below is the
method on an instance; `kvn_history_independent` shows that it computes this function.) -/
def kvnFromString (src : Str) : Except PyErr Val := do
  let lines ← preprocess src
  let cls ← identifyDataType lines
  let lines := deleteMarkers cls lines
  let keys := keysOf lines
  let (_, mm, tree) ← identElem keys lines (objectMap cls) 0
  build keys lines buildFuel { tree with minMax := some mm } lines

/-- The attributes of an `NdmKvnIo` instance: `_keys`, `_lines` (160-161; class-level defaults are empty lists) and
`object_tree` (479), absent until the first successful `_init_object_map`. -/
structure KvnSelf where
  keys : List Str := []
  lines : List Line := []
  tree : Option Elem := none

/-- A method of `NdmKvnIo`: it may raise, and keeps whatever it assigned to `self` before raising. -/
abbrev KvnM := ExceptT PyErr (StateM KvnSelf)

/-- Run a pure computation that may raise. -/
def liftPy {α : Type} (x : Except PyErr α) : KvnM α := ExceptT.mk (pure x)

namespace KvnM

/-- `_pre_process_kvn_data` (407-464). -/
def preProcess (src : Str) : KvnM Unit := do
  let lines ← liftPy (preprocess src)
  modify fun s => { s with lines := lines }
  modify fun s => { s with keys := keysOf lines }

/-- `from_string`, deletion of marker keywords (202-206). -/
def deleteKeywords (cls : Cls) : KvnM Unit := do
  modify fun s => { s with keys := s.keys.filter fun k => !(deletedKeywords cls).contains k }
  modify fun s => { s with lines := deleteMarkers cls s.lines }

/-- `_init_object_map` (466-483). -/
def initObjectMap (cls : Cls) : KvnM Unit :=
  modify fun s => { s with tree := some (objectMap cls) }

/-- `_identify_segments` (573-588).  When the identification raises, `object_tree` is left partly annotated; it is
never read again before being replaced, and the model leaves it as it was. -/
def identifySegments : KvnM Unit := do
  let s ← get
  match s.tree with
  | none => liftPy (.error .attributeError)
  | some t =>
    let (_, mm, t') ← liftPy (identElem s.keys s.lines t 0)
    set { s with tree := some { t' with minMax := some mm } }

/-- `_build_object` (785-801). -/
def buildObject : KvnM Val := do
  let s ← get
  match s.tree with
  | none => liftPy (.error .attributeError)
  | some t => liftPy (build s.keys s.lines buildFuel t s.lines)

/-- `from_string` (183-216). -/
def fromString (src : Str) : KvnM Val := do
  preProcess src
  let cls ← liftPy (identifyDataType (← get).lines)
  deleteKeywords cls
  initObjectMap cls
  identifySegments
  buildObject

end KvnM

/-- The outcome of `from_string(src)` on an instance in state `s`, and the state it leaves behind. -/
def KvnSelf.fromString (s : KvnSelf) (src : Str) : Except PyErr Val × KvnSelf := (KvnM.fromString src).run.run s

end Ndm
