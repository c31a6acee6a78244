import Verif.XmlIo
import Verif.Lemmas.Lines

/-! # C12, C13: instances and their histories -/

namespace Ndm

theorem keysOf_filter (ks : List Str) (lines : List Line) :
    (keysOf lines).filter (fun k => !ks.contains k) = keysOf (lines.filter fun l => !ks.contains (l.headD [])) := by
  simp only [keysOf, List.filter_map]
  rfl

/-- The method on an instance in any state computes the function of the text alone. -/
theorem kvn_history_independent (s : KvnSelf) (src : Str) : (s.fromString src).1 = kvnFromString src := by
  unfold KvnSelf.fromString KvnM.fromString KvnM.preProcess kvnFromString
  cases hp : preprocess src with
  | error e => rfl
  | ok lines =>
    cases hc : identifyDataType lines with
    | error e =>
      simp only [liftPy, bind, ExceptT.bind, ExceptT.bindCont, ExceptT.mk, pure, ExceptT.run, StateT.run, StateT.bind,
        StateT.pure, Except.bind, modify, modifyGet, get, getThe, MonadStateOf.get, MonadStateOf.modifyGet,
        StateT.get, StateT.modifyGet, ExceptT.lift, liftM, monadLift, MonadLift.monadLift, Functor.map, StateT.map,
        ExceptT.map, hc]
    | ok cls =>
      simp only [liftPy, bind, ExceptT.bind, ExceptT.bindCont, ExceptT.mk, pure, ExceptT.run, StateT.run, StateT.bind,
        StateT.pure, Except.bind, modify, modifyGet, get, getThe, MonadStateOf.get, MonadStateOf.modifyGet,
        StateT.get, StateT.modifyGet, ExceptT.lift, liftM, monadLift, MonadLift.monadLift, Functor.map, StateT.map,
        ExceptT.map, hc, KvnM.deleteKeywords, KvnM.initObjectMap, KvnM.identifySegments, KvnM.buildObject,
        keysOf_filter]
      change _ = ((identElem (keysOf (deleteMarkers cls lines)) (deleteMarkers cls lines) (objectMap cls) 0).bind
        fun x => build (keysOf (deleteMarkers cls lines)) (deleteMarkers cls lines) buildFuel
          { x.2.2 with minMax := some x.2.1 } (deleteMarkers cls lines))
      unfold deleteMarkers
      cases identElem (keysOf (List.filter (fun l => !(deletedKeywords cls).contains (l.headD [])) lines))
        (List.filter (fun l => !(deletedKeywords cls).contains (l.headD [])) lines) (objectMap cls) 0 with
      | error e => rfl
      | ok r => rfl

/-- The state of an instance after a history of `from_string` calls (each may succeed or raise). -/
def afterReads (h : List Str) : KvnSelf := h.foldl (fun s src => (s.fromString src).2) {}

/-- **C12.** After any history of calls, successful or raising, `from_string` gives what a fresh instance gives. -/
theorem C12_history (h : List Str) (src : Str) :
    ((afterReads h).fromString src).1 = (KvnSelf.fromString {} src).1 := by
  rw [kvn_history_independent, kvn_history_independent]

/-- **C12** for every instance state whatsoever, reachable or not. -/
theorem C12_any_state (s t : KvnSelf) (src : Str) : (s.fromString src).1 = (t.fromString src).1 := by
  rw [kvn_history_independent, kvn_history_independent]

/-- A small OPM text used in examples. -/
def opmText : Str := py "CCSDS_OPM_VERS = 2.0
CREATION_DATE = 2000-01-01
ORIGINATOR = X
OBJECT_NAME = A
OBJECT_ID = B
CENTER_NAME = EARTH
REF_FRAME = GCRF
TIME_SYSTEM = UTC
EPOCH = 2000-01-01
X = 1 [km]
Y = 2 [km]
Z = 3 [km]
X_DOT = 4 [km/s]
Y_DOT = 5 [km/s]
Z_DOT = 6 [km/s]
"

-- Histories really change the instance: the state left behind by a read, and by a failed read, is not the initial one.
example : (afterReads [opmText]).lines.length = 16 := by decide +kernel
example : (afterReads [opmText, py "NONSENSE = 1"]).lines = [[py "id", py "NONSENSE"], [py "version", py "1"]] := by
  decide +kernel
example : ((KvnSelf.fromString {} (py "NONSENSE = 1")).1).toOption.isNone = true := by decide +kernel
example : ((KvnSelf.fromString {} opmText).1).toOption.isSome = true := by decide +kernel

/-! ## C13 -/

/-- A call of `NdmXmlIo.to_string`. -/
structure XmlWrite where
  obj : Val
  loc : Option Str
  noNs : Option Str

/-- The state of an `NdmXmlIo` instance after a history of writes. -/
def afterWrites (lib : XmlLib) (h : List XmlWrite) : XmlSelf :=
  h.foldl (fun s w => (s.toString lib w.obj w.loc w.noNs).2) {}

/-- **C13 is false** for a reused `NdmXmlIo`: after one write, every later write uses the locations of the first,
whatever it is given. -/
theorem C13_refuted (lib : XmlLib) (first : XmlWrite) (h : List XmlWrite) (o : Val) (loc noNs : Option Str) :
    ((afterWrites lib (first :: h)).toString lib o loc noNs).1 = lib.render first.loc first.noNs o := by
  have key : ∀ (h : List XmlWrite) (s : XmlSelf), s.serializer = some (first.loc, first.noNs) →
      (h.foldl (fun s w => (s.toString lib w.obj w.loc w.noNs).2) s).serializer = some (first.loc, first.noNs) := by
    intro h
    induction h with
    | nil => intro s hs; exact hs
    | cons w h ih =>
      intro s hs
      apply ih
      simp [XmlSelf.toString, hs]
  have := key h ((XmlSelf.toString lib {} first.obj first.loc first.noNs).2) rfl
  simp only [afterWrites, List.foldl_cons, XmlSelf.toString]
  simp only [XmlSelf.toString] at this
  rw [this]

/-- A renderer that prints the schema location, to exhibit the failure. -/
def showLoc : XmlLib where
  rootTag _ := none
  parse _ := .error .parserError
  render loc _ _ := .ok (loc.getD [])
  decode _ := none

/-- The failure is observable: a second write with another location prints the first one. -/
theorem C13_witness : ((afterWrites showLoc [⟨.none, some (py "a.xsd"), none⟩]).toString showLoc .none
    (some (py "b.xsd")) none).1 = .ok (py "a.xsd") := by decide

/-- **C13, the part that holds**: through `NdmIo` (which uses a fresh writer per call) and on a fresh `NdmXmlIo`, each
write honours the locations it is given.  Missing: reuse of one `NdmXmlIo`. -/
theorem C13_partial (lib : XmlLib) (o : Val) (loc noNs : Option Str) :
    ndmToString lib o .xml loc noNs = lib.render loc noNs o ∧
    (XmlSelf.toString lib {} o loc noNs).1 = lib.render loc noNs o := ⟨rfl, rfl⟩

/-- **C13** (reads do not interfere): reading on an instance does not change how it writes. -/
theorem C13_reads_do_not_matter (lib : XmlLib) (s : XmlSelf) (src : Str) (o : Val) (loc noNs : Option Str) :
    (((s.fromString lib src).2).toString lib o loc noNs).1 = (s.toString lib o loc noNs).1 := rfl

/-- **C12** for XML: the result of `NdmXmlIo.from_string` does not depend on the state of the instance. -/
theorem C12_xml (lib : XmlLib) (s t : XmlSelf) (src : Str) : (s.fromString lib src).1 = (t.fromString lib src).1 := rfl

end Ndm
