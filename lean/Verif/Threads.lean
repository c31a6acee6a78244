import Verif.XmlIo

/-! # Threads

`NdmKvnIo.from_string` as a sequence of accesses to the attributes of its instance, and threads that execute such calls
in any interleaving.  Everything else the code works on is local to a call; the parser object that all instances share
(`ndm_kvn_io.py:1010`) belongs to the library and is assumed to keep nothing between calls. -/

namespace Ndm

/-- A running call: it returns or raises, reads attributes of `self`, or assigns one. -/
inductive KvnProg where
  | ret (r : Except PyErr Val)
  | read (k : KvnSelf → KvnProg)
  | assign (f : KvnSelf → KvnSelf) (k : KvnProg)

namespace KvnProg

/-- `_build_object` (`ndm_kvn_io.py:785-801`).  Simplification: the attributes are read at one moment. -/
def buildObject : KvnProg := .read fun s => match s.tree with
  | none => .ret (.error .attributeError)
  | some t => .ret (build s.keys s.lines buildFuel t s.lines)

/-- `_identify_segments` (573-588).  Simplification: the attributes are read at one moment, and the annotations of the
tree appear at one moment and in `self` (the code annotates the tree it has read, which is the one in `self` unless
another thread uses the instance). -/
def identifySegments (k : KvnProg) : KvnProg := .read fun s => match s.tree with
  | none => .ret (.error .attributeError)
  | some t => match identElem s.keys s.lines t 0 with
    | .error e => .ret (.error e)
    | .ok (_, mm, t') => .assign (fun s => { s with tree := some { t' with minMax := some mm } }) k

/-- Deletion of the marker keywords (202-206), for the classes that have some. -/
def deleteKeywords (cls : Cls) (k : KvnProg) : KvnProg :=
  if deletedKeywords cls = [] then k
  else .read fun s => .assign (fun s' => { s' with keys := s.keys.filter fun k => !(deletedKeywords cls).contains k }) <|
    .read fun s => .assign (fun s' => { s' with lines := deleteMarkers cls s.lines }) k

/-- `NdmKvnIo.from_string` (183-216). -/
def fromString (src : Str) : KvnProg := match preprocess src with
  | .error e => .ret (.error e)
  | .ok lines => .assign (fun s => { s with lines := lines }) <| .assign (fun s => { s with keys := keysOf lines }) <|
    .read fun s => match identifyDataType s.lines with
      | .error e => .ret (.error e)
      | .ok cls => deleteKeywords cls <| .assign (fun s => { s with tree := some (objectMap cls) }) <|
        identifySegments buildObject

/-- `NdmIo.from_string` (`ndm_io.py:70-105`): XML texts do not touch an `NdmKvnIo`. -/
def ndmFromString (lib : XmlLib) (src : Str) : KvnProg := match identifyFormat src with
  | .error e => .ret (.error e)
  | .ok .kvn => fromString src
  | .ok .xml => .ret (xmlFromString lib src)
  | .ok .json => .ret (.error .notImplementedError)

/-- The call, when nothing else happens. -/
def run : KvnProg → KvnSelf → Except PyErr Val × KvnSelf
  | .ret r, s => (r, s)
  | .read k, s => (k s).run s
  | .assign f k, s => k.run (f s)

end KvnProg

/-- A thread: the call it is executing with its instance, the calls still to be made, and the results so far. -/
structure Thread where
  current : Option (Nat × KvnProg) := none
  todo : List (Nat × KvnProg)
  results : List (Except PyErr Val) := []

/-- The instances and the threads. -/
structure Machine where
  heap : Nat → KvnSelf
  threads : Nat → Thread

/-- Change one value of a function. -/
def update {α : Type} (f : Nat → α) (i : Nat) (a : α) : Nat → α := fun j => if j = i then a else f j

/-- One step of the thread `t`: start the next call, access an attribute, or finish the call. -/
def Machine.step (m : Machine) (t : Nat) : Machine :=
  let th := m.threads t
  match th.current with
  | none => match th.todo with
    | [] => m
    | c :: r => { m with threads := update m.threads t { th with current := some c, todo := r } }
  | some (_, .ret r) => { m with threads := update m.threads t { th with current := none, results := th.results ++ [r] } }
  | some (i, .read k) => { m with threads := update m.threads t { th with current := some (i, k (m.heap i)) } }
  | some (i, .assign f k) =>
    { heap := update m.heap i (f (m.heap i)), threads := update m.threads t { th with current := some (i, k) } }

/-- The steps of a schedule. -/
def Machine.run (m : Machine) (schedule : List Nat) : Machine := schedule.foldl Machine.step m

/-- Threads that are to make the given calls of `NdmKvnIo.from_string`: instance and text. -/
def kvnThreads (heap : Nat → KvnSelf) (calls : Nat → List (Nat × Str)) : Machine :=
  { heap, threads := fun t => { todo := (calls t).map fun c => (c.1, KvnProg.fromString c.2) } }

/-- Threads that are to make the given calls of `NdmIo.from_string`, each of which creates an instance. -/
def ndmThreads (lib : XmlLib) (heap : Nat → KvnSelf) (calls : Nat → List (Nat × Str)) : Machine :=
  { heap, threads := fun t => { todo := (calls t).map fun c => (c.1, KvnProg.ndmFromString lib c.2) } }

end Ndm
