import Verif.SpecText
import Verif.Lemmas.FromLine
import Verif.Lemmas.SpelledCheck
import Verif.Samples
import Verif.Props.Attitude
import Verif.Props.RoundTrip
import Verif.Props.Tracking

/-! # C51: a text is read as what it says -/

namespace Ndm

theorem markers_deleted (c : Cls) (raw : List Line) :
    deleteMarkers c raw = raw.filter fun l => !(l.key ∈ markerLines c) := by
  have h : deletedKeywords c = markerLines c := by
    cases c <;> rfl
  unfold deleteMarkers
  congr 1
  funext l
  rw [h, List.contains_eq_mem]
  rfl

theorem version_kind {c : Cls} {id : Str} (h : (c, id) ∈ versionKeywords) : ∃ ver, (c, id, ver) ∈ messageKinds := by
  have : ∀ p ∈ versionKeywords, ∃ q ∈ messageKinds, q.1 = p.1 ∧ q.2.1 = p.2 := by decide
  obtain ⟨⟨c', id', ver⟩, hq, h1, h2⟩ := this _ h
  simp only at h1 h2
  subst h1 h2
  exact ⟨ver, hq⟩

/-- **C51**: a text that says `v` is read as `v`. -/
theorem C51 (s : KvnSelf) (src : Str) (v : Val) (h : Denotes src v) : (s.fromString src).1 = .ok v := by
  rw [kvn_history_independent]
  cases h with
  | @mk rows cs c id ver raw ht hs hL hid hver hm =>
    have hsrc : (splitChar '\n' src).filterMap parseLine = [id, ver] :: raw := by
      rw [splitChar_textLines ht, filterMap_sigLines hs, lineItems_filterMap (sigLines_cores hs) hL]
    obtain ⟨ver₀, hk⟩ := version_kind hid
    have hx := xmlCheck_ok hver
    have hdel := markers_deleted c raw
    generalize (raw.filter fun l => !(l.key ∈ markerLines c)) = ls at hm hdel
    cases hm with
    | keywords hc hg =>
      have hok : messageOk c = true ∧ markerLines c = [] := by
        simp only [List.mem_cons, List.not_mem_nil, or_false] at hc
        rcases hc with rfl | rfl | rfl | rfl | rfl
        · exact ⟨opm_ok, rfl⟩
        · exact ⟨omm_ok, rfl⟩
        · exact ⟨rdm_ok, rfl⟩
        · exact ⟨cdm_ok, rfl⟩
        · exact ⟨apm_ok, rfl⟩
      have hraw : raw = ls := by
        rw [← hdel, markers_deleted, hok.2]
        simp
      subst hraw
      exact read_message hk hok.1 hg hx hsrc
    | oem hh hne hseg => exact read_oem hk hx hsrc hdel hh hseg hne
    | tdm hh hne hseg => exact read_tdm hk hx hsrc hdel hh hseg hne
    | aem hh hne hseg => exact read_aem hk hx hsrc hdel hh hseg hne

/-- What a text says is unique. -/
theorem C51_unique (src : Str) (v v' : Val) (h : Denotes src v) (h' : Denotes src v') : v = v' := by
  have h1 := C51 {} src v h
  have h2 := C51 {} src v' h'
  rw [h1] at h2
  exact Except.ok.inj h2

/-! ## Texts that say something -/

/-- The same orbit as in `opmText`, stated by another hand: blank lines, other spacing, keywords in another order,
comments between them, and other spellings of the numbers. -/
def freeOpmText : Str := py "

  CCSDS_OPM_VERS=   1.0  beta
ORIGINATOR =X
COMMENT written by hand
     CREATION_DATE=2000-01-01

TIME_SYSTEM = UTC
COMMENT   = the usual frame
REF_FRAME   =   GCRF
CENTER_NAME =	EARTH
OBJECT_ID = B
OBJECT_NAME = A
Z = +.03E2 [km]
X = 1 [ km]
Y = 0002[km]
X_DOT = 4 [km/s]
Y_DOT = 5
EPOCH = 2000-01-01
Z_DOT = 6 [km/s]

"

/-- The lines of `freeOpmText`, object by object. -/
def freeGroups : List (List Line) := [
  [[py "ORIGINATOR", py "X"], [py "COMMENT", py "written by hand"], [py "CREATION_DATE", py "2000-01-01"]],
  [[py "TIME_SYSTEM", py "UTC"], [py "COMMENT", py "the usual frame"], [py "REF_FRAME", py "GCRF"],
   [py "CENTER_NAME", py "EARTH"], [py "OBJECT_ID", py "B"], [py "OBJECT_NAME", py "A"]],
  [[py "Z", py "+.03E2", py "km"], [py "X", py "1", py "km"], [py "Y", py "0002", py "km"],
   [py "X_DOT", py "4", py "km/s"], [py "Y_DOT", py "5"], [py "EPOCH", py "2000-01-01"], [py "Z_DOT", py "6", py "km/s"]],
  []]

/-- What it says. -/
def freeOpm : Val :=
  mkObj .Opm [(py "header", mkObj .NdmHeader [(py "comment", .list [S (py "written by hand")]), (py "creation_date", S (py "2000-01-01")),
      (py "originator", S (py "X"))]),
    (py "body", mkObj .OpmBody [(py "segment", mkObj .OpmSegment [
      (py "metadata", mkObj .OpmMetadata [(py "comment", .list [S (py "the usual frame")]), (py "object_name", S (py "A")), (py "object_id", S (py "B")),
        (py "center_name", S (py "EARTH")), (py "ref_frame", S (py "GCRF")), (py "time_system", S (py "UTC"))]),
      (py "data", mkObj .OpmData [(py "state_vector", mkObj .StateVectorType [(py "epoch", S (py "2000-01-01")),
        (py "x", mkVal .PositionType 1 (.enum .PositionUnits (py "km"))),
        (py "y", mkVal .PositionType 2 (.enum .PositionUnits (py "km"))),
        (py "z", mkVal .PositionType 3 (.enum .PositionUnits (py "km"))),
        (py "x_dot", mkVal .VelocityType 4 (.enum .VelocityUnits (py "km/s"))),
        (py "y_dot", mkVal .VelocityType 5 .none),
        (py "z_dot", mkVal .VelocityType 6 (.enum .VelocityUnits (py "km/s")))])])])])]

theorem freeOpm_denotes : Denotes freeOpmText freeOpm := by
  have hl : (splitChar '\n' freeOpmText).filterMap parseLine = [py "CCSDS_OPM_VERS", py "1.0  beta"] :: freeGroups.flatten := by
    decide +kernel
  obtain ⟨rows, cs, ht, hs, hL⟩ := items_of_text hl
  refine .mk ht hs hL (c := .Opm) (by decide) (by decide +kernel) (.keywords (by decide) ?_)
  refine good_of_b (S := spelledB freeGroups) (O := fun _ _ => none) spelled_of_b (fun _ _ _ h => by cases h) 10 _ _ _ ?_
  decide +kernel

/-- An ephemeris with columns separated by any number of blanks and tabs and numbers spelled in various ways, without
marker lines for the metadata. -/
def freeOemText : Str := py "CCSDS_OEM_VERS = 2.0
ORIGINATOR = X
CREATION_DATE = 2000-01-01
OBJECT_ID = B
OBJECT_NAME = A
COMMENT propagated
REF_FRAME = GCRF
CENTER_NAME = EARTH
TIME_SYSTEM = UTC
STOP_TIME = 2000-01-02
START_TIME = 2000-01-01
2000-01-01T00:00:00 +1. 2 3	4 5    6
COVARIANCE_START
2000-01-02T00:00:00    1e0 2 3 4 5 6 .7 8 9
COVARIANCE_STOP
"

def freeOemLines : List (List Line) := [
  [[py "ORIGINATOR", py "X"], [py "CREATION_DATE", py "2000-01-01"]],
  [[py "OBJECT_ID", py "B"], [py "OBJECT_NAME", py "A"], [py "COMMENT", py "propagated"], [py "REF_FRAME", py "GCRF"],
   [py "CENTER_NAME", py "EARTH"], [py "TIME_SYSTEM", py "UTC"], [py "STOP_TIME", py "2000-01-02"],
   [py "START_TIME", py "2000-01-01"]]]

def freeOemMeta : Val :=
  mkObj .OemMetadata [(py "comment", .list [S (py "propagated")]), (py "object_name", S (py "A")), (py "object_id", S (py "B")),
    (py "center_name", S (py "EARTH")), (py "ref_frame", S (py "GCRF")), (py "time_system", S (py "UTC")), (py "start_time", S (py "2000-01-01")),
    (py "stop_time", S (py "2000-01-02"))]

def freeVector (e : Str) (ds : List Dec) : Val :=
  .obj .StateVectorAccType ((py "epoch", .str e) :: numbered stateAttrs ds)

def oneToSix : List Dec := (List.range 6).map fun k => .fin false (k + 1) 0

theorem freeOem_denotes : Denotes freeOemText (oem header [oemSegment freeOemMeta (.list [])
    [freeVector (py "2000-01-01T00:00:00") oneToSix,
     freeVector (py "2000-01-02T00:00:00") (oneToSix ++ [.fin false 7 (-1), .fin false 8 0, .fin false 9 0])] []]) := by
  have hl : (splitChar '\n' freeOemText).filterMap parseLine = [py "CCSDS_OEM_VERS", py "2.0"] ::
      (freeOemLines.flatten ++ [[py "2000-01-01T00:00:00 +1. 2 3\t4 5    6"], [py "COVARIANCE_START"],
        [py "2000-01-02T00:00:00    1e0 2 3 4 5 6 .7 8 9"], [py "COVARIANCE_STOP"]]) := by
    decide +kernel
  obtain ⟨rows, cs, ht, hs, hL⟩ := items_of_text hl
  have hk : ∀ (c : Cls) (kvs : List (Str × Val)) (ls : List Line), spelledB freeOemLines c kvs = some ls → ls ≠ [] →
      ls.getLast?.map Line.key ≠ some (py "COMMENT") → KeyBlockOf Spelled c (.obj c kvs) ls :=
    fun c kvs ls h h1 h2 => .mk (spelled_of_b c kvs ls h) h1 h2
  have hv : ∀ (e s : Str) (ts : List Str) (ds : List Dec), DateText e → words s = e :: ts → ' ' ∈ s →
      List.Forall₂ Spells ts ds → ds.length ≤ 9 → StateText (freeVector e ds) [[s]] := fun e s ts ds h1 h2 h3 h4 h5 =>
    .mk h1 h2 h3 h4 h5
  have h1 : StateText (freeVector (py "2000-01-01T00:00:00") oneToSix) [[py "2000-01-01T00:00:00 +1. 2 3\t4 5    6"]] := by
    refine hv _ _ [py "+1.", py "2", py "3", py "4", py "5", py "6"] _ (date_of_b (by decide +kernel)) (by decide +kernel)
      (by decide +kernel) ?_ (by decide)
    simp only [oneToSix, List.range, List.range.loop, List.map]
    repeat first | exact .nil | apply List.Forall₂.cons (by decide +kernel)
  have h2 : StateText (freeVector (py "2000-01-02T00:00:00") (oneToSix ++ [.fin false 7 (-1), .fin false 8 0, .fin false 9 0]))
      [[py "2000-01-02T00:00:00    1e0 2 3 4 5 6 .7 8 9"]] := by
    refine hv _ _ [py "1e0", py "2", py "3", py "4", py "5", py "6", py ".7", py "8", py "9"] _ (date_of_b (by decide +kernel))
      (by decide +kernel) (by decide +kernel) ?_ (by decide)
    simp only [oneToSix, List.range, List.range.loop, List.map, List.cons_append, List.nil_append]
    repeat first | exact .nil | apply List.Forall₂.cons (by decide +kernel)
  have hd : OemDataOf StateText CovarianceText _ _ := .mk (texts := []) (by simp) (by simp) (by simp)
    (.cons h1 (.cons h2 .nil)) .nil
  have hh : KeyBlockOf Spelled .NdmHeader header [[py "ORIGINATOR", py "X"], [py "CREATION_DATE", py "2000-01-01"]] :=
    hk _ _ _ (by decide +kernel) (by decide) (by decide +kernel)
  have hm : KeyBlockOf Spelled .OemMetadata freeOemMeta freeOemLines[1] :=
    hk _ _ _ (by decide +kernel) (by decide +kernel) (by decide +kernel)
  have hseg := OemSegmentsOf.cons (segs := []) (ls := []) hm hd .nil (by simp) (by simp)
  have := MessageText.oem hh (by simp) hseg
  refine .mk ht hs hL (c := .Oem) (by decide) (by decide +kernel) ?_
  exact this

end Ndm
