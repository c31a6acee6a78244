import Verif.Lemmas.RewriteEph
import Verif.Props.Reading
import Verif.Props.Files
import Verif.Props.Combined
import Verif.Props.Detect
import Verif.SpecXml

/-! # C52: rewriting a file does not change what it says; C53: converting between the formats -/

namespace Ndm

/-! ## C52 -/

/-- The text of an OPM with a comment between the lines of the state vector. -/
def midCommentText : Str := (py "CCSDS_OPM_VERS = 2.0\n" ++ headText ++ py "OBJECT_NAME = A
OBJECT_ID = B
CENTER_NAME = EARTH
REF_FRAME = GCRF
TIME_SYSTEM = UTC
EPOCH = 2000-01-01
COMMENT in the state vector
X = 1
Y = 2
Z = 3
X_DOT = 4
Y_DOT = 5
Z_DOT = 6
")

/-- **C52 is false.**  A comment between the lines of a state vector is read as a comment of the state vector, but
after the message was written it is read as a comment of the data. -/
theorem C52_refuted : ∃ v v', kvnFromString midCommentText = .ok v ∧ writeRead v = .ok v' ∧
    v.at (opmDataPath (py "comment")) = some (.list []) ∧ v'.at (opmDataPath (py "comment")) = some (.list [S (py "in the state vector")]) := by
  have h : (match kvnFromString midCommentText with
    | .ok v => match writeRead v with
      | .ok v' => decide (v.at (opmDataPath (py "comment")) = some (.list [])) &&
          decide (v'.at (opmDataPath (py "comment")) = some (.list [S (py "in the state vector")]))
      | _ => false
    | _ => false) = true := by decide +kernel
  cases h1 : kvnFromString midCommentText with
  | error e => rw [h1] at h; cases h
  | ok v =>
    rw [h1] at h
    simp only at h
    cases h2 : writeRead v with
    | error e => rw [h2] at h; cases h
    | ok v' =>
      rw [h2] at h
      simp only [Bool.and_eq_true, decide_eq_true_eq] at h
      exact ⟨v, v', rfl, h2, h⟩

theorem lineFacts_of {c : Str} {l : Line} (hc : Trimmed c) (hn : '\n' ∉ c) (h : LineItems c l) (hk : l.key ≠ py "COMMENT") : LineFacts l := by
  refine ⟨hk, fun k s e => ?_⟩
  cases h with
  | comment _ => exact absurd rfl hk
  | bare => cases e
  | @value a b k t h1 h2 h3 h4 h5 =>
    cases e
    obtain ⟨ht, p, q, -, -, e⟩ := h4
    exact ⟨ht, fun h => hn (by simp [e, h]), h5⟩
  | united => cases e

theorem sigLines_oneLine {rows cs : List Str} (h : SigLines rows cs) (hr : ∀ l ∈ rows, '\n' ∉ l) : ∀ c ∈ cs, '\n' ∉ c := by
  induction h with
  | nil => intro c hc; cases hc
  | blank _ _ ih => exact ih fun l hl => hr l (List.mem_cons_of_mem _ hl)
  | line hcore _ _ ih =>
    intro c hc
    rcases List.mem_cons.mp hc with rfl | hc
    · obtain ⟨-, p, q, -, -, e⟩ := hcore
      intro h
      exact hr _ List.mem_cons_self (by simp [e, h])
    · exact ih (fun l hl => hr l (List.mem_cons_of_mem _ hl)) c hc

theorem lineFacts_all {cs : List Str} {L : List Line} (h : List.Forall₂ LineItems cs L) (hc : ∀ c ∈ cs, Trimmed c)
    (hn : ∀ c ∈ cs, '\n' ∉ c) (hk : ∀ l ∈ L, l.key ≠ py "COMMENT") : ∀ l ∈ L, LineFacts l := by
  induction h with
  | nil => intro l hl; cases hl
  | cons h _ ih =>
    intro l hl
    rcases List.mem_cons.mp hl with rfl | hl
    · exact lineFacts_of (hc _ List.mem_cons_self) (hn _ List.mem_cons_self) h (hk _ List.mem_cons_self)
    · exact ih (fun c h => hc c (List.mem_cons_of_mem _ h)) (fun c h => hn c (List.mem_cons_of_mem _ h))
        (fun c h => hk c (List.mem_cons_of_mem _ h)) l hl

/-- **C52**, what holds for messages made of keyword lines: let `src` be a text without comments that says `v`.  Then
`v`, which is what is read, can be written, and what is written is read as `v` again. -/
theorem C52_partial (s s' : KvnSelf) (src : Str) (c : Cls) (hc : c ∈ [Cls.Opm, .Omm, .Rdm, .Cdm, .Apm]) (vs : List (Str × Val))
    (h : Denotes src (.obj c vs)) {rows cs : List Str} {L : List Line}
    (hrows : TextLines src rows) (hcs : SigLines rows cs) (hL : List.Forall₂ LineItems cs L)
    (hno : ∀ l ∈ L, l.key ≠ py "COMMENT") :
    (s.fromString src).1 = .ok (.obj c vs) ∧ ∃ text, kvnToString (.obj c vs) = .ok text ∧
      (s'.fromString text).1 = .ok (.obj c vs) := by
  refine ⟨C51 s src _ h, ?_⟩
  have hsrc : (splitChar '\n' src).filterMap parseLine = L := by
    rw [splitChar_textLines hrows, filterMap_sigLines hcs, lineItems_filterMap (sigLines_cores hcs) hL]
  cases h with
  | @mk rows' cs' c' id ver raw ht hs hL' hid hver hm =>
    have e1 : (splitChar '\n' src).filterMap parseLine = [id, ver] :: raw := by
      rw [splitChar_textLines ht, filterMap_sigLines hs, lineItems_filterMap (sigLines_cores hs) hL']
    have hfacts := lineFacts_all hL (fun c h => (sigLines_cores hcs c h).1) (sigLines_oneLine hcs hrows.2.1) hno
    have hwf : WellFormed c (.obj c vs) := by
      generalize hv : Val.obj c vs = v at hm
      generalize hF : raw.filter (fun l => !(l.key ∈ markerLines c')) = F at hm
      cases hm with
      | keywords hc' hg =>
        have hcc : c' = c := by
          rw [← hv] at hg
          cases hg with
          | special h => cases h <;> simp at hc'
          | obj => rfl
        subst hcc
        have hmk : markerLines c' = [] := by
          simp only [List.mem_cons, List.not_mem_nil, or_false] at hc
          rcases hc with rfl | rfl | rfl | rfl | rfl <;> rfl
        rw [hmk] at hF
        simp only [List.not_mem_nil, decide_false, Bool.not_false, List.filter_true] at hF
        subst hF
        obtain ⟨ls', hg', -⟩ := good_again hg (by
          intro l hl
          refine hfacts l ?_
          rw [← hsrc, e1]
          exact List.mem_cons_of_mem _ hl)
        exact ⟨ls', hv ▸ hg'⟩
      | oem => cases hv; simp at hc
      | tdm => cases hv; simp at hc
      | aem => cases hv; simp at hc
    obtain ⟨text, hw, hr⟩ := (WellFormedMessage.plain hc hwf).round_trip
    exact ⟨text, hw, by rw [kvn_history_independent]; exact hr⟩

/-- **C52**, what holds for ephemerides, tracking data and attitude ephemerides: let `src` be a text without comments that
says `v`.  If its data lines are complete — state vectors have a velocity, covariances are finite, observations are
numbers with short epochs, and the metadata of tracking data do not begin with a date — then `v`, which is what is read,
can be written, and what is written is read as `v` again.  (Attitude ephemerides need none of this.) -/
theorem C52_ephemeris_partial (s s' : KvnSelf) (src : Str) (c : Cls) (hc : c ∈ [Cls.Oem, .Tdm, .Aem]) (vs : List (Str × Val))
    (h : Denotes src (.obj c vs)) (hv : CompleteData (.obj c vs)) {rows cs : List Str} {L : List Line}
    (hrows : TextLines src rows) (hcs : SigLines rows cs) (hL : List.Forall₂ LineItems cs L)
    (hno : ∀ l ∈ L, l.key ≠ py "COMMENT") :
    (s.fromString src).1 = .ok (.obj c vs) ∧ ∃ text, kvnToString (.obj c vs) = .ok text ∧
      (s'.fromString text).1 = .ok (.obj c vs) := by
  refine ⟨C51 s src _ h, ?_⟩
  have hsrc : (splitChar '\n' src).filterMap parseLine = L := by
    rw [splitChar_textLines hrows, filterMap_sigLines hcs, lineItems_filterMap (sigLines_cores hcs) hL]
  cases h with
  | @mk rows' cs' c' id ver raw ht hs hL' hid hver hm =>
    have e1 : (splitChar '\n' src).filterMap parseLine = [id, ver] :: raw := by
      rw [splitChar_textLines ht, filterMap_sigLines hs, lineItems_filterMap (sigLines_cores hs) hL']
    have hfacts := lineFacts_all hL (fun c h => (sigLines_cores hcs c h).1) (sigLines_oneLine hcs hrows.2.1) hno
    have hwf : WellFormedMessage (.obj c vs) := by
      have hF : ∀ l ∈ raw.filter (fun l => !(l.key ∈ markerLines c')), LineFacts l := by
        intro l hl
        refine hfacts l ?_
        rw [← hsrc, e1]
        exact List.mem_cons_of_mem _ (List.mem_filter.mp hl).1
      generalize hv' : Val.obj c vs = v at hm hv
      generalize raw.filter (fun l => !(l.key ∈ markerLines c')) = F at hm hF
      cases hm with
      | keywords hc' hg =>
        exfalso
        rw [← hv'] at hg
        cases hg with
        | special h => cases h <;> simp at hc'
        | obj => revert hc hc'; cases c <;> decide
      | @oem hd lh segs ls hh hne hseg =>
        obtain ⟨lh', hh', -⟩ := keyBlock_again hh fun l h => hF l (List.mem_append_left _ h)
        have hin : ∀ {w x}, x ∈ segs → Within w x → Within w (oem hd segs) := fun hx hw =>
          .field (List.mem_cons_of_mem _ List.mem_cons_self) (.field List.mem_cons_self (.item hx hw))
        obtain ⟨ls', hs', -⟩ := oemSegments_again hseg (fun l h => hF l (List.mem_append_right _ h))
          (fun x hx ws hw => hv.states ws (hin hx hw)) (fun x hx ws hw => hv.finite ws (hin hx hw))
        exact .oem (.mk hh' hne hs')
      | @tdm hd lh segs ls hh hne hseg =>
        obtain ⟨lh', hh', -⟩ := keyBlock_again hh fun l h => hF l (List.mem_append_left _ h)
        have hin : ∀ {w x}, x ∈ segs → Within w x → Within w (tdm hd segs) := fun hx hw =>
          .field (List.mem_cons_of_mem _ List.mem_cons_self) (.field List.mem_cons_self (.item hx hw))
        obtain ⟨ls', hs', -⟩ := tdmSegments_again hseg (fun l h => hF l (List.mem_append_right _ h))
          (fun x hx => ⟨fun ws hw => hv.numeric ws (hin hx hw), fun ws e hw => hv.short ws e (hin hx hw),
            fun ws hw => hv.undated ws (hin hx hw)⟩)
        exact .tdm (.mk hh' hne hs')
      | @aem hd lh segs ls hh hne hseg =>
        obtain ⟨lh', hh', -⟩ := keyBlock_again hh fun l h => hF l (List.mem_append_left _ h)
        obtain ⟨ls', hs'⟩ := aemSegments_again hseg fun l h => hF l (List.mem_append_right _ h)
        exact .aem (.mk hh' hne hs')
    obtain ⟨text, hw, hr⟩ := hwf.round_trip
    exact ⟨text, hw, by rw [kvn_history_independent]; exact hr⟩

/-- **C52** for all eight kinds, with comments: if what a text says is a well-formed message — its comments are where the
writer puts them, and its numbers are such that they can be written — then it is what is read, it can be written, and
what is written is read as the same message again. -/
theorem C52_messages_partial (s s' : KvnSelf) (src : Str) (v : Val) (h : Denotes src v) (hv : WellFormedMessage v) :
    (s.fromString src).1 = .ok v ∧ ∃ text, kvnToString v = .ok text ∧ (s'.fromString text).1 = .ok v := by
  refine ⟨C51 s src v h, ?_⟩
  obtain ⟨text, hw, hr⟩ := hv.round_trip
  exact ⟨text, hw, by rw [kvn_history_independent]; exact hr⟩

/-- Tracking data in free layout, without comments. -/
def plainTdmText : Str := py "CCSDS_TDM_VERS=1.0
ORIGINATOR = X
CREATION_DATE =2000-01-01

META_START
  PARTICIPANT_1 =  A
TIME_SYSTEM = UTC
META_STOP
RANGE = 2000-01-01T00:00:00 	  +7.
"

def plainTdmGroups : List (List Line) := [
  [[py "ORIGINATOR", py "X"], [py "CREATION_DATE", py "2000-01-01"]],
  [[py "PARTICIPANT_1", py "A"], [py "TIME_SYSTEM", py "UTC"]]]

/-- The hypotheses of `C52_ephemeris_partial` are met by `plainTdmText`. -/
example : ∃ vs rows cs, ∃ L : List Line, Denotes plainTdmText (.obj .Tdm vs) ∧ CompleteData (.obj .Tdm vs) ∧
    TextLines plainTdmText rows ∧ SigLines rows cs ∧ List.Forall₂ LineItems cs L ∧ ∀ l ∈ L, l.key ≠ py "COMMENT" := by
  have hl : (splitChar '\n' plainTdmText).filterMap parseLine = [py "CCSDS_TDM_VERS", py "1.0"] ::
      ([[py "ORIGINATOR", py "X"], [py "CREATION_DATE", py "2000-01-01"], [py "META_START"], [py "PARTICIPANT_1", py "A"],
        [py "TIME_SYSTEM", py "UTC"], [py "META_STOP"], [py "RANGE", py "2000-01-01T00:00:00 \t  +7."]]) := by
    decide +kernel
  obtain ⟨rows, cs, ht, hs, hL⟩ := items_of_text hl
  have hk : ∀ (c : Cls) (kvs : List (Str × Val)) (ls : List Line), spelledB plainTdmGroups c kvs = some ls → ls ≠ [] →
      ls.getLast?.map Line.key ≠ some (py "COMMENT") → KeyBlockOf Spelled c (.obj c kvs) ls :=
    fun c kvs ls h h1 h2 => .mk (spelled_of_b c kvs ls h) h1 h2
  have hh : KeyBlockOf Spelled .TdmHeader tdmHeader [[py "ORIGINATOR", py "X"], [py "CREATION_DATE", py "2000-01-01"]] :=
    hk _ _ _ (by decide +kernel) (by decide) (by decide +kernel)
  have hm : KeyBlockOf Spelled .TdmMetadata (tdmMeta []) [[py "PARTICIPANT_1", py "A"], [py "TIME_SYSTEM", py "UTC"]] :=
    hk _ _ _ (by decide +kernel) (by decide) (by decide +kernel)
  have h2 : ∃ f ∈ Cls.keyAttrs .TrackingDataObservationType, f.name = py "range" ∧ f.ty = .dec := by decide +kernel
  obtain ⟨g, hg, hn, hty⟩ := h2
  have ho : Observed (observation (py "range") (py "2000-01-01T00:00:00") (.dec (.fin false 7 0)))
      [[py "RANGE", py "2000-01-01T00:00:00 \t  +7."]] := by
    have := Observed.mk (f := g) (v := .dec (.fin false 7 0)) (date_of_b (e := py "2000-01-01T00:00:00") (by decide))
      (s := py "2000-01-01T00:00:00 \t  +7.") (t := py "+7.") (by decide +kernel) hg
      (by rw [hn]; decide) (by exact .dec hty (by decide) (by decide))
    rw [hn] at this
    exact this
  have hseg : TdmSegmentsOf Spelled Observed
      [tdmSegment (tdmMeta []) (tdmData [] [observation (py "range") (py "2000-01-01T00:00:00") (.dec (.fin false 7 0))])] _ :=
    .cons (ls := []) hm (.mk (texts := []) (by simp) (by simp) (by simp) (.cons ho .nil)) .nil (by simp) (by simp)
  exact ⟨_, rows, cs, _, .mk ht hs hL (c := .Tdm) (by decide) (by decide +kernel) (MessageText.tdm hh (by simp) hseg),
    complete_of_b (by decide +kernel), ht, hs, hL, by decide +kernel⟩

/-- The hypotheses of `C52_partial` are met by `plainOpmText`: free layout, no comments. -/
def plainOpmText : Str := py "

  CCSDS_OPM_VERS=   1.0  beta
ORIGINATOR =X
     CREATION_DATE=2000-01-01

TIME_SYSTEM = UTC
REF_FRAME   =   GCRF
CENTER_NAME =	EARTH
OBJECT_ID = B
OBJECT_NAME = A
Z = +.03E2 [km]
X = 1 [ km]
Y = 0002[km]
X_DOT = 4 [km/s]
Y_DOT = 5
EPOCH = 2000-01-01
Z_DOT = 6 [km/s]

"

def plainGroups : List (List Line) := [
  [[py "ORIGINATOR", py "X"], [py "CREATION_DATE", py "2000-01-01"]],
  [[py "TIME_SYSTEM", py "UTC"], [py "REF_FRAME", py "GCRF"],
   [py "CENTER_NAME", py "EARTH"], [py "OBJECT_ID", py "B"], [py "OBJECT_NAME", py "A"]],
  [[py "Z", py "+.03E2", py "km"], [py "X", py "1", py "km"], [py "Y", py "0002", py "km"],
   [py "X_DOT", py "4", py "km/s"], [py "Y_DOT", py "5"], [py "EPOCH", py "2000-01-01"], [py "Z_DOT", py "6", py "km/s"]],
  []]

/-- What it says. -/
def plainOpm : Val := mkObj .Opm [
  (py "header", mkObj .NdmHeader [(py "creation_date", S (py "2000-01-01")), (py "originator", S (py "X"))]),
  (py "body", mkObj .OpmBody [(py "segment", mkObj .OpmSegment [
      (py "metadata", mkObj .OpmMetadata [(py "object_name", S (py "A")), (py "object_id", S (py "B")),
        (py "center_name", S (py "EARTH")), (py "ref_frame", S (py "GCRF")), (py "time_system", S (py "UTC"))]),
      (py "data", mkObj .OpmData [(py "state_vector", mkObj .StateVectorType [(py "epoch", S (py "2000-01-01")),
        (py "x", mkVal .PositionType 1 (.enum .PositionUnits (py "km"))),
        (py "y", mkVal .PositionType 2 (.enum .PositionUnits (py "km"))),
        (py "z", mkVal .PositionType 3 (.enum .PositionUnits (py "km"))),
        (py "x_dot", mkVal .VelocityType 4 (.enum .VelocityUnits (py "km/s"))),
        (py "y_dot", mkVal .VelocityType 5 .none),
        (py "z_dot", mkVal .VelocityType 6 (.enum .VelocityUnits (py "km/s")))])])])])]

example : ∃ vs rows cs, ∃ L : List Line, plainOpm = .obj .Opm vs ∧ Denotes plainOpmText plainOpm ∧ TextLines plainOpmText rows ∧ SigLines rows cs ∧
    List.Forall₂ LineItems cs L ∧ ∀ l ∈ L, l.key ≠ py "COMMENT" := by
  have hl : (splitChar '\n' plainOpmText).filterMap parseLine = [py "CCSDS_OPM_VERS", py "1.0  beta"] :: plainGroups.flatten := by
    decide +kernel
  obtain ⟨rows, cs, ht, hs, hL⟩ := items_of_text hl
  refine ⟨_, rows, cs, _, rfl, ?_, ht, hs, hL, by decide +kernel⟩
  refine .mk ht hs hL (c := .Opm) (by decide) (by decide +kernel) (.keywords (by decide) ?_)
  refine good_of_b (S := spelledB plainGroups) (O := fun _ _ => none) spelled_of_b (fun _ _ _ h => by cases h) 10 _ _ _ ?_
  decide +kernel

/-- The hypotheses of `C52_messages_partial` are met by a message with comments. -/
example : Denotes freeOpmText freeOpm ∧ WellFormedMessage freeOpm :=
  ⟨freeOpm_denotes, .plain (c := .Opm) (by decide) (wellFormed_of_b (by decide +kernel))⟩

/-! ## C53 -/

theorem messageKinds_meta : ∀ p ∈ messageKinds, p.1 ≠ .Ndm ∧ ∃ t ∈ messageTags, p.1.metaName = some t := by decide

/-- An XML document the library reads as a message is read as that message. -/
theorem read_document {lib : XmlLib} {xml core : Str} {c : Cls} {vs : List (Str × Val)} (hk : ∃ id ver, (c, id, ver) ∈ messageKinds)
    (hc : Core xml core) (hd : py "<" <+: core ∧ py ">" <:+ core) (hr : lib.rootTag xml = c.metaName)
    (hp : lib.parse xml = .ok (.obj c vs)) : ndmFromString lib xml = .ok (.obj c vs) := by
  obtain ⟨id, ver, hk⟩ := hk
  obtain ⟨hn, t, ht, hm⟩ := messageKinds_meta _ hk
  rw [(C02_dispatch lib xml core hc).2 hd]
  exact C14_plain lib xml t c vs hp hn (hr.trans hm) ht

/-- **C53.** Whichever format a well-formed message was written in, `from_string` gives the message; and converting the
text to a format gives what writing the message in that format gives. -/
theorem C53_convert (lib : XmlLib) (c : Cls) (vs : List (Str × Val)) (h : WellFormedMessage (.obj c vs)) (hx : ReadsBack lib c vs)
    (f : Fmt) (loc noNs : Option Str) (t : Str) (ht : ndmToString lib (.obj c vs) f loc noNs = .ok t) :
    ndmFromString lib t = .ok (.obj c vs) ∧
    ∀ g loc' noNs', convert lib t g loc' noNs' = ndmToString lib (.obj c vs) g loc' noNs' := by
  obtain ⟨c', vs', he, hk⟩ := h.kind
  cases he
  have hread : ndmFromString lib t = .ok (.obj c vs) := by
    cases f with
    | json => cases ht
    | xml =>
      obtain ⟨core, hc, hd⟩ := hx.document loc noNs t ht
      exact read_document hk hc hd (hx.root loc noNs t ht) (hx.parse loc noNs t ht)
    | kvn =>
      obtain ⟨t', hw, hr⟩ := h.round_trip
      have e : t' = t := by
        have := hw.symm.trans ht
        exact Except.ok.inj this
      subst e
      obtain ⟨id, ver, hk⟩ := hk
      have hfmt := (C18_recognised c id ver hk vs t' hw).2.1
      unfold ndmFromString
      rw [hfmt]
      show (KvnSelf.fromString {} t').1 = _
      rw [kvn_history_independent]
      exact hr
  exact ⟨hread, fun g loc' noNs' => by rw [convert, hread]⟩

/-- A well-formed message can always be converted to KVN. -/
theorem C53_kvn (lib : XmlLib) (c : Cls) (vs : List (Str × Val)) (h : WellFormedMessage (.obj c vs)) (hx : ReadsBack lib c vs)
    (f : Fmt) (loc noNs : Option Str) (t : Str) (ht : ndmToString lib (.obj c vs) f loc noNs = .ok t) :
    ∃ kvn, convert lib t .kvn none none = .ok kvn ∧ ndmFromString lib kvn = .ok (.obj c vs) := by
  obtain ⟨kvn, hw, -⟩ := h.round_trip
  refine ⟨kvn, ((C53_convert lib c vs h hx f loc noNs t ht).2 .kvn none none).trans hw, ?_⟩
  exact (C53_convert lib c vs h hx .kvn none none kvn hw).1

/-- **C53** for any number of conversions: however often the text is converted, from whichever format to whichever, the
last text — if there is one — is the text writing the message in the last format gives. -/
theorem C53_chain (lib : XmlLib) (c : Cls) (vs : List (Str × Val)) (h : WellFormedMessage (.obj c vs)) (hx : ReadsBack lib c vs)
    (f : Fmt) (loc noNs : Option Str) (t : Str) (ht : ndmToString lib (.obj c vs) f loc noNs = .ok t)
    (steps : List (Fmt × Option Str × Option Str)) (g : Fmt) (loc' noNs' : Option Str) (t' : Str)
    (hc : convertAll lib t (steps ++ [(g, loc', noNs')]) = .ok t') : ndmToString lib (.obj c vs) g loc' noNs' = .ok t' := by
  induction steps generalizing f loc noNs t with
  | nil =>
    rw [List.nil_append, convertAll, (C53_convert lib c vs h hx f loc noNs t ht).2] at hc
    cases hw : ndmToString lib (.obj c vs) g loc' noNs' with
    | error e => rw [hw] at hc; cases hc
    | ok w => rw [hw] at hc; exact hc
  | cons p ps ih =>
    obtain ⟨f1, l1, n1⟩ := p
    rw [List.cons_append, convertAll, (C53_convert lib c vs h hx f loc noNs t ht).2] at hc
    cases hw : ndmToString lib (.obj c vs) f1 l1 n1 with
    | error e => rw [hw] at hc; cases hc
    | ok w => rw [hw] at hc; exact ih f1 l1 n1 w hw hc

/-- **C53** for the notation: a KVN text that says a well-formed message, converted to XML, gives a text that is read as
that message. -/
theorem C53_notation (lib : XmlLib) (c : Cls) (vs : List (Str × Val)) (h : WellFormedMessage (.obj c vs)) (hx : ReadsBack lib c vs)
    (src core : Str) (hs : Denotes src (.obj c vs)) (hcore : Core src core) (hid : py "CCSDS_" <+: core)
    (loc noNs : Option Str) (xml : Str) (hc : convert lib src .xml loc noNs = .ok xml) :
    ndmToString lib (.obj c vs) .xml loc noNs = .ok xml ∧ ndmFromString lib xml = .ok (.obj c vs) := by
  have hr : ndmFromString lib src = .ok (.obj c vs) := by
    rw [(C02_dispatch lib src core hcore).1 hid]
    exact C51 {} src _ hs
  rw [convert, hr] at hc
  exact ⟨hc, (C53_convert lib c vs h hx .xml loc noNs xml hc).1⟩

/-- **C53** for combined instantiations holding one message: an XML document that holds a single well-formed message
inside `ndm` tags is converted to the KVN text of that message. -/
theorem C53_wrapped (lib : XmlLib) (src core : Str) (m : Combined) (x : Val) (hm : m.messages = [x]) (h : WellFormedMessage x)
    (hp : lib.parse src = .ok m.parsed) (hr : ∀ t, lib.rootTag src = some t → t ∉ messageTags)
    (hc : Core src core) (hd : py "<" <+: core ∧ py ">" <:+ core) :
    ∃ kvn, convert lib src .kvn none none = .ok kvn ∧ kvnToString x = .ok kvn ∧ kvnFromString kvn = .ok x := by
  obtain ⟨kvn, hw, hback⟩ := h.round_trip
  refine ⟨kvn, ?_, hw, hback⟩
  have hread : ndmFromString lib src = .ok x := by
    rw [(C02_dispatch lib src core hc).2 hd]
    exact (C14_read lib src m hp hr).1 x hm
  rw [convert, hread]
  exact hw

/-- Combined instantiations holding several messages survive XML; converting them to KVN is refused. -/
theorem C53_combined (lib : XmlLib) (src core : Str) (m : Combined) (hm : m.messages.length ≠ 1)
    (hp : lib.parse src = .ok m.parsed) (hr : ∀ t, lib.rootTag src = some t → t ∉ messageTags)
    (hc : Core src core) (hd : py "<" <+: core ∧ py ">" <:+ core) :
    ndmFromString lib src = .ok m.typed ∧ convert lib src .kvn none none = .error .notImplementedError ∧
    ∀ loc noNs, convert lib src .xml loc noNs = lib.render loc noNs m.typed := by
  have hread : ndmFromString lib src = .ok m.typed := by
    rw [(C02_dispatch lib src core hc).2 hd]
    exact (C14_read lib src m hp hr).2 hm
  refine ⟨hread, ?_, fun loc noNs => ?_⟩
  · rw [convert, hread]
    exact C17_partial m hm
  · rw [convert, hread]
    rfl

/-- An XML library, as far as one message is concerned: it knows one document for it. -/
def oneDocument (o : Val) (tag : Str) : XmlLib where
  rootTag _ := some tag
  parse _ := .ok o
  render _ _ _ := .ok (py "<?xml?><opm/>\n")
  decode _ := none

/-- The hypotheses are met. -/
example : WellFormedMessage freeOpm ∧ ∃ vs, freeOpm = .obj .Opm vs ∧
    ReadsBack (oneDocument freeOpm (py "opm")) .Opm vs ∧
    (convertAll (oneDocument freeOpm (py "opm")) freeOpmText
      [(.xml, none, none), (.kvn, none, none), (.xml, some (py "a"), none), (.xml, none, none), (.kvn, none, none)]).toOption.isSome = true := by
  refine ⟨.plain (c := .Opm) (by decide) (wellFormed_of_b (by decide +kernel)), _, rfl, ⟨?_, ?_, ?_⟩, by decide +kernel⟩
  · intro loc noNs xml h
    cases h
    exact ⟨py "<?xml?><opm/>", strip_eq_iff.mp (by decide), by decide, by decide⟩
  · intro loc noNs xml h; rfl
  · intro loc noNs xml h; rfl

end Ndm
