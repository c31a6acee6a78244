import Verif.Lemmas.EphAemWrite
import Verif.Props.Tracking

/-! # C26, C31, C32: attitude ephemeris messages

`WellFormedAem`, `Attitude` and `AttitudeRead` (`SpecEph.lean`) say what a well-formed AEM is, and how the numbers of an
attitude line relate to the components of the attitude under the declarations of the metadata. -/

namespace Ndm

/-! ## Well-formed samples -/

/-- Metadata of an AEM segment. -/
def aemMeta (type : Str) (more : List (Str × Val)) : Val :=
  mkObj .AemMetadata ([(py "object_name", S (py "A")), (py "object_id", S (py "B")), (py "ref_frame_a", S (py "X")), (py "ref_frame_b", S (py "Y")),
    (py "attitude_dir", .enum .RotDirectionType (py "A2B")), (py "time_system", .enum .TimeSystemType (py "UTC")),
    (py "start_time", S (py "2000-01-01")), (py "stop_time", S (py "2000-01-02")),
    (py "attitude_type", .enum .AttitudeTypeType type)] ++ more)

/-- Data of an AEM segment. -/
def aemData (texts : List Str) (sts : List Val) : Val :=
  .obj .AemData [(py "comment", .list (texts.map .str)), (py "attitude_state", .list sts)]

def quatType (s : Str) : Str × Val := (py "quaternion_type", .enum .QuaternionTypeType s)
def rotSeq (s : Str) : Str × Val := (py "euler_rot_seq", .enum .RotseqType s)

/-- A segment to be built: metadata and what they declare, comments, and epoch, numbers and value of the states. -/
structure AemSeg where
  md : Val
  decl : AttitudeDecl
  texts : List Str
  states : List (Str × List Dec × Val)
  declares : Declares decl md
  attitude : ∀ s ∈ states, Attitude decl s.1 s.2.1 s.2.2

def attLines (p : Str × List Dec × Val) : List Line := [[joinWith (py "  ") (p.1 :: p.2.1.map Dec.toStr)]]
def attB (p : Str × List Dec × Val) : Bool :=
  dateB p.1 && !(infixB (py "Type") p.1) && p.2.1.all fun d => decide (d.plain = d)

theorem att_of_b {D : AttitudeDecl} {p : Str × List Dec × Val} (h : attB p = true) (ha : Attitude D p.1 p.2.1 p.2.2) :
    AttitudeState D p.2.2 (attLines p) := by
  simp only [attB, Bool.and_eq_true, List.all_eq_true, decide_eq_true_eq] at h
  exact .mk (date_of_b h.1.1) (infix_of_b (by simpa using h.1.2)) h.2 ha

def AemSeg.val (s : AemSeg) : Val := aemSegment s.md (aemData s.texts (s.states.map (·.2.2)))
def AemSeg.dataLines (s : AemSeg) : List Line := s.texts.map (fun t => [py "COMMENT", t]) ++ s.states.flatMap attLines

def aemSegsB : List AemSeg → Option (List Line)
  | [] => some []
  | s :: rest => match keyBlockB .AemMetadata s.md, aemSegsB rest with
    | some lm, some ls =>
      if s.texts.all commentB ∧ s.texts.length ≤ 1 ∧ s.states ≠ [] ∧ s.states.all attB ∧
          (s.dataLines.head?.map Line.key = some (py "COMMENT") → ∀ l ∈ ls, l.key ≠ py "COMMENT" → l.key ∈ (Cls.keyAttrs .AemMetadata).map (fun f => upper f.name) →
            ∃ l' ∈ lm, l'.key = l.key)
      then some (lm ++ s.dataLines ++ ls) else none
    | _, _ => none

theorem aemStates_of_b {D : AttitudeDecl} : ∀ {sts : List (Str × List Dec × Val)}, sts.all attB = true →
    (∀ s ∈ sts, Attitude D s.1 s.2.1 s.2.2) → Each (AttitudeState D) (sts.map (·.2.2)) (sts.flatMap attLines)
  | [], _, _ => .nil
  | s :: sts, h, ha => by
    simp only [List.all_cons, Bool.and_eq_true] at h
    exact .cons (att_of_b h.1 (ha s (by simp))) (aemStates_of_b h.2 fun s hs => ha s (by simp [hs]))

theorem aemSegs_of_b : ∀ {segs : List AemSeg} {ls : List Line}, aemSegsB segs = some ls →
    AemSegments AttitudeState (segs.map AemSeg.val) ls
  | [], ls, h => by cases h; exact .nil
  | s :: rest, ls, h => by
    unfold aemSegsB at h
    split at h
    · rename_i lm ls' h1 h2
      split at h
      · rename_i hc
        obtain ⟨c1, c2, c3, c4, c5⟩ := hc
        cases h
        refine .cons (keyBlock_of_b h1) s.declares (.mk (fun t ht => ?_) c2 ?_ (aemStates_of_b c4 s.attitude))
          (aemSegs_of_b h2) c5
        · exact comment_of_b (List.all_eq_true.mp c1 t ht)
        · simpa using c3
      · cases h
    · cases h

/-- The AEM with the given header and segments is well formed. -/
def aemB (h : Val) (segs : List AemSeg) : Bool :=
  (keyBlockB .NdmHeader h).isSome && (aemSegsB segs).isSome && !segs.isEmpty

theorem aem_of_b {h : Val} {segs : List AemSeg} (hb : aemB h segs = true) : WellFormedAem (aem h (segs.map AemSeg.val)) := by
  simp only [aemB, Bool.and_eq_true, Option.isSome_iff_exists] at hb
  obtain ⟨⟨⟨lh, h1⟩, ⟨ls, h2⟩⟩, h3⟩ := hb
  exact .mk (keyBlock_of_b h1) (by simpa using h3) (aemSegs_of_b h2)

def quatState (e : Str) (qc q1 q2 q3 : Dec) : Val :=
  attitude (py "quaternion_state") (.obj .QuaternionEphemerisType [(py "epoch", S e), (py "quaternion", quaternion qc q1 q2 q3)])

/-- Four segments: quaternions with the scalar component last, angles, quaternions with rates and the scalar component
first, and angles with rates. -/
def richAem : List AemSeg := [
  { md := aemMeta (py "QUATERNION") [(py "comment", .list [S (py "c [x]")]), quatType (py "LAST"), (py "interpolation_method", S (py "LINEAR")), rotSeq (py "123")]
    decl := ⟨py "QUATERNION", py "LAST", []⟩
    texts := [py "data = c"]
    states := [(py "2000-01-01", [dec 1, dec 2, dec 3, dec 4], quatState (py "2000-01-01") (dec 4) (dec 1) (dec 2) (dec 3)),
      (py "2000-01-01T00:00:00.5", [dec (-1), dec 0, dec 7, dec 7], quatState (py "2000-01-01T00:00:00.5") (dec 7) (dec (-1)) (dec 0) (dec 7))]
    declares := .mk (by decide) (fun _ => by decide) (fun h => absurd h (by decide))
    attitude := by
      intro s hs
      simp only [List.mem_cons, List.not_mem_nil, or_false] at hs
      rcases hs with rfl | rfl <;> exact .quaternion rfl .last },
  { md := aemMeta (py "EULER_ANGLE") [rotSeq (py "321")]
    decl := ⟨py "EULER_ANGLE", [], py "321"⟩
    texts := []
    states := [(py "2000-01-01", [dec 1, dec 2, dec 3], attitude (py "euler_angle") (.obj .EulerAngleType
      [(py "epoch", S (py "2000-01-01")), (py "rotation_angles", rotationAngles 'Z' 'Y' 'X' (dec 1) (dec 2) (dec 3))]))]
    declares := .mk (by decide) (fun h => absurd h (by decide)) (fun _ => by decide)
    attitude := by
      intro s hs
      simp only [List.mem_cons, List.not_mem_nil, or_false] at hs
      subst hs
      exact .eulerAngle rfl (.mk .z .y .x) },
  { md := aemMeta (py "QUATERNION/RATE") [quatType (py "FIRST"), rotSeq (py "313")]
    decl := ⟨py "QUATERNION/RATE", py "FIRST", py "313"⟩
    texts := []
    states := [(py "2000-01-01", [dec 1, dec 2, dec 3, dec 4, dec 5, dec 6, dec 7], attitude (py "quaternion_euler_rate")
      (.obj .QuaternionEulerRateType [(py "epoch", S (py "2000-01-01")), (py "quaternion", quaternion (dec 1) (dec 2) (dec 3) (dec 4)),
        (py "rotation_rates", rotationRates 'Z' 'X' 'Z' (dec 5) (dec 6) (dec 7))]))]
    declares := .mk (by decide) (fun _ => by decide) (fun _ => by decide)
    attitude := by
      intro s hs
      simp only [List.mem_cons, List.not_mem_nil, or_false] at hs
      subst hs
      exact .quaternionRate (ds := [dec 1, dec 2, dec 3, dec 4]) rfl .first (.mk .z .x .z) },
  { md := aemMeta (py "EULER_ANGLE/RATE") [rotSeq (py "123")]
    decl := ⟨py "EULER_ANGLE/RATE", [], py "123"⟩
    texts := [py "c"]
    states := [(py "2000-001", [dec 1, dec 2, dec 3, dec 4, dec 5, dec 6], attitude (py "euler_angle_rate")
      (.obj .EulerAngleRateType [(py "epoch", S (py "2000-001")), (py "rotation_angles", rotationAngles 'X' 'Y' 'Z' (dec 1) (dec 2) (dec 3)),
        (py "rotation_rates", rotationRates 'X' 'Y' 'Z' (dec 4) (dec 5) (dec 6))]))]
    declares := .mk (by decide) (fun h => absurd h (by decide)) (fun _ => by decide)
    attitude := by
      intro s hs
      simp only [List.mem_cons, List.not_mem_nil, or_false] at hs
      subst hs
      exact .eulerAngleRate rfl (.mk .x .y .z) }]

example : WellFormedAem (aem header (richAem.map AemSeg.val)) := aem_of_b (by decide +kernel)

/-! ## C26 -/

/-- **C26**, what holds: a well-formed AEM with quaternions, quaternions with rates, angles or angles with rates is
written, and what is written is read back as the same AEM. -/
theorem C26_partial (o : Val) (h : WellFormedAem o) : ∃ text, kvnToString o = .ok text ∧ kvnFromString text = .ok o :=
  aem_round_trip h

/-- What is written of an attitude state of an AEM is in the text. -/
theorem inAem_written {h m co : Val} {segs sts : List Val} {x : Val} {text : Str}
    (hs : aemSegment m (.obj .AemData [(py "comment", co), (py "attitude_state", .list sts)]) ∈ segs)
    (hx : x ∈ sts) (hw : kvnToString (aem h segs) = .ok text) :
    ∃ full, text = joinWith (py "\n") full ∧ ObjLines (py "attitude_state") x full := by
  obtain ⟨_, full, ho, rfl⟩ := kvnToString_obj (n := py "aem") (i := (py "CCSDS_AEM_VERS", py "1.0")) (by decide) (by decide) (by decide) hw
  refine ⟨full, rfl, ?_⟩
  obtain ⟨_, a1, w1, p1⟩ := obj_inside (by decide) ho
  obtain ⟨_, a2, w2, p2⟩ := vars_inside (k := py "body") w1 (.tail _ (.head _))
  obtain ⟨_, a3, w3, p3⟩ := sub_inside (by decide) rfl w2
  obtain ⟨_, a4, w4, p4⟩ := vars_inside (k := py "segment") w3 (.head _)
  obtain ⟨_, a5, w5, p5⟩ := list_written (by decide) w4 hs
  obtain ⟨_, a6, w6, p6⟩ := obj_inside (by decide) w5
  obtain ⟨_, a7, w7, p7⟩ := vars_inside (k := py "data") w6 (.tail _ (.head _))
  obtain ⟨_, a8, w8, p8⟩ := sub_inside (by decide) rfl w7
  have p := ((((((p8.trans p7).trans p6).trans p5).trans p4).trans p3).trans p2).trans p1
  obtain ⟨_, a9, w9, p9⟩ := vars_inside (k := py "attitude_state") w8 (.tail _ (.head _))
  obtain ⟨b, b', w, p'⟩ := list_written (by decide) w9 hx
  exact ⟨b, b', w, (p'.trans p9).trans p⟩

/-- A quaternion and its derivative. -/
def quaternionDerivative (e : Str) (q : Val) (qc q1 q2 q3 : Dec) : Val :=
  let dot (d : Dec) : Val := .obj .QuaternionDotType [(py "value", .dec d), (py "units", .none)]
  attitude (py "quaternion_derivative") (.obj .QuaternionDerivativeType [(py "epoch", .str e), (py "quaternion", q),
    (py "quaternion_rate", .obj .QuaternionRateType
      [(py "qc_dot", dot qc), (py "q1_dot", dot q1), (py "q2_dot", dot q2), (py "q3_dot", dot q3)])])

theorem collate_derivative {e : Str} {qc q1 q2 q3 pc p1 p2 p3 : Dec} {key : Str} {out : List Str} :
    ∀ o, collateObj key out (quaternionDerivative e (quaternion qc q1 q2 q3) pc p1 p2 p3) ≠ .ok o := by
  intro o ho
  have hso : isSpecialOut .AttitudeStateType = true := by decide
  unfold quaternionDerivative attitude at ho
  simp only [collateObj, hso, if_true] at ho
  have : ∃ err, quaternionLine .QuaternionDerivativeType [[(py "qc", .dec qc), (py "q1", .dec q1), (py "q2", .dec q2), (py "q3", .dec q3)],
      [(py "qc_dot", .obj .QuaternionDotType [(py "value", .dec pc), (py "units", .none)]),
       (py "q1_dot", .obj .QuaternionDotType [(py "value", .dec p1), (py "units", .none)]),
       (py "q2_dot", .obj .QuaternionDotType [(py "value", .dec p2), (py "units", .none)]),
       (py "q3_dot", .obj .QuaternionDotType [(py "value", .dec p3), (py "units", .none)])]] out = .error err := by
    unfold quaternionLine
    cases quatLast out with
    | error err => exact ⟨err, rfl⟩
    | ok b => cases b <;> exact ⟨.keyError, rfl⟩
  obtain ⟨err, herr⟩ := this
  have hc : Except.bind (Except.bind (quaternionLine .QuaternionDerivativeType [[(py "qc", .dec qc), (py "q1", .dec q1), (py "q2", .dec q2), (py "q3", .dec q3)],
      [(py "qc_dot", .obj .QuaternionDotType [(py "value", .dec pc), (py "units", .none)]),
       (py "q1_dot", .obj .QuaternionDotType [(py "value", .dec p1), (py "units", .none)]),
       (py "q2_dot", .obj .QuaternionDotType [(py "value", .dec p2), (py "units", .none)]),
       (py "q3_dot", .obj .QuaternionDotType [(py "value", .dec p3), (py "units", .none)])]] out)
      (fun line => Except.bind (fillSingle (e :: line)) fun l => .ok [l])) (fun ls => .ok (out ++ ls)) = .ok o := ho
  rw [herr] at hc
  cases hc

/-- **C26 is false** for quaternions with derivatives: no AEM with such a state can be written. -/
theorem C26_refuted_derivative (h m co : Val) (segs sts : List Val) (e : Str) (qc q1 q2 q3 pc p1 p2 p3 : Dec)
    (hs : aemSegment m (.obj .AemData [(py "comment", co), (py "attitude_state", .list sts)]) ∈ segs)
    (hx : quaternionDerivative e (quaternion qc q1 q2 q3) pc p1 p2 p3 ∈ sts) : ∀ text, kvnToString (aem h segs) ≠ .ok text := by
  intro text hw
  obtain ⟨full, rfl, out, o, h1, h2⟩ := inAem_written hs hx hw
  exact collate_derivative o h1

/-- A spin. -/
def spinState (e : Str) (d₁ d₂ d₃ d₄ : Dec) : Val :=
  let a (d : Dec) : Val := .obj .AngleType [(py "value", .dec d), (py "units", .none)]
  attitude (py "spin") (.obj .SpinType [(py "epoch", .str e), (py "spin_alpha", a d₁), (py "spin_delta", a d₂),
    (py "spin_angle", a d₃), (py "spin_angle_vel", .obj .AngleRateType [(py "value", .dec d₄), (py "units", .none)])])

def statePath (rest : List Step) : List Step := segmentPath 0 ([.f (py "data"), .f (py "attitude_state"), .i 0] ++ rest)

/-- **C26 is false** for spins: the numbers are lost. -/
theorem C26_refuted_spin :
    ∃ v, writeRead (aem header [aemSegment (aemMeta (py "SPIN") []) (aemData [] [spinState (py "2000-01-01") (dec 1) (dec 2) (dec 3) (dec 4)])]) = .ok v ∧
      v.at (statePath [.f (py "spin"), .f (py "spin_alpha")]) = some .none :=
  ok_of_check _ (by decide +kernel)

/-- **C26 is false** for attitude types in lower case, which the schema allows: what is written cannot be read. -/
theorem C26_refuted_case :
    (∃ m ms, Cls.members .AttitudeTypeType = some ms ∧ (m, py "quaternion") ∈ ms) ∧
    writeRead (aem header [aemSegment (aemMeta (py "quaternion") [quatType (py "LAST")])
      (aemData [] [quatState (py "2000-01-01") (dec 4) (dec 1) (dec 2) (dec 3)])]) = .error .indexError := by
  refine ⟨⟨py "QUATERNION", _, rfl, by decide⟩, by decide +kernel⟩

/-! ## C31 and C32 -/

/-- **C31 and C32**, reading: an AEM text in which every attitude line consists of an epoch and the numbers of an attitude
in the order declared by the metadata of its segment is read as the AEM with these attitudes.  `Attitude` says what the
order is: `QUATERNION_TYPE` gives the place of the scalar component, the digits of `EULER_ROT_SEQ` give the axes. -/
theorem C31_read (src ver : Str) (raw lh ls : List Line) (h : Val) (segs : List Val) (hver : XmlText ver)
    (hsrc : (splitChar '\n' src).filterMap parseLine = [py "CCSDS_AEM_VERS", ver] :: raw)
    (hraw : raw.filter (fun l => !(l.key ∈ [py "META_START", py "META_STOP", py "DATA_START", py "DATA_STOP"])) = lh ++ ls)
    (hh : KeyBlockOf Spelled .NdmHeader h lh) (hs : AemSegmentsOf Spelled AttitudeRead segs ls) (hne : segs ≠ []) :
    kvnFromString src = .ok (aem h segs) := by
  refine read_aem (ver₀ := py "1.0") (by decide) (xmlCheck_ok hver) hsrc ?_ hh hs hne
  rw [← hraw]
  unfold deleteMarkers
  congr 1
  funext l
  rw [List.contains_eq_mem]
  rfl

/-- **C31**, reading one quaternion: the scalar component is the first or last number as declared, whatever the spacing. -/
theorem C31_scalar (src ver : Str) (raw lh lm : List Line) (h m : Val) (D : AttitudeDecl) (e s : Str) (a b c d : Dec)
    (hver : XmlText ver) (hsrc : (splitChar '\n' src).filterMap parseLine = [py "CCSDS_AEM_VERS", ver] :: raw)
    (hraw : raw.filter (fun l => !(l.key ∈ [py "META_START", py "META_STOP", py "DATA_START", py "DATA_STOP"])) =
      lh ++ lm ++ [[e ++ ' ' :: s]])
    (hh : KeyBlockOf Spelled .NdmHeader h lh) (hm : KeyBlockOf Spelled .AemMetadata m lm) (hd : Declares D m)
    (ht : D.type = py "QUATERNION") (he : DateText e) (hty : ¬ py "Type" <:+: e)
    (hw : List.Forall₂ Spells (words s) [a, b, c, d]) :
    (D.quaternion = py "FIRST" → kvnFromString src = .ok (aem h [aemSegment m (aemData []
      [attitude (py "quaternion_state") (.obj .QuaternionEphemerisType [(py "epoch", .str e),
        (py "quaternion", quaternion a.plain b.plain c.plain d.plain)])])])) ∧
    (D.quaternion = py "LAST" → kvnFromString src = .ok (aem h [aemSegment m (aemData []
      [attitude (py "quaternion_state") (.obj .QuaternionEphemerisType [(py "epoch", .str e),
        (py "quaternion", quaternion d.plain a.plain b.plain c.plain)])])])) := by
  have key : ∀ v, Attitude D e ([a, b, c, d].map Dec.plain) v →
      kvnFromString src = .ok (aem h [aemSegment m (aemData [] [v])]) := by
    intro v hv
    refine C31_read src ver raw lh (lm ++ [[e ++ ' ' :: s]]) h _ hver hsrc (by rw [hraw, List.append_assoc]) hh ?_ (by simp)
    have := AemSegmentsOf.cons (K := Spelled) (P := AttitudeRead) hm hd (.mk (texts := []) (by simp) (by simp) (by simp)
      (.cons (.mk he hty hw hv) .nil)) .nil (by simp)
    simpa [aemData] using this
  refine ⟨fun hq => key _ (.quaternion ht ?_), fun hq => key _ (.quaternion ht ?_)⟩
  · rw [hq]; exact .first
  · rw [hq]; exact .last

/-- **C31**, writing: the lines written for a well-formed AEM are the header, and for every segment its metadata, its
comments and its attitudes, with the numbers in the order declared by the metadata of the segment. -/
theorem C31_written (h : Val) (lh ls : List Line) (segs : List Val) (hh : KeyBlock .NdmHeader h lh)
    (hs : AemSegments AttitudeState segs ls) : ∃ text raw, kvnToString (aem h segs) = .ok text ∧
      (splitChar '\n' text).filterMap parseLine = [py "CCSDS_AEM_VERS", py "1.0"] :: raw ∧
      raw.filter (fun l : Line => !(l.key ∈ [py "META_START", py "META_STOP", py "DATA_START", py "DATA_STOP"])) = lh ++ ls := by
  obtain ⟨text, raw, h1, h2, h3⟩ := write_aem hh hs
  refine ⟨text, raw, h1, h2, ?_⟩
  rw [← h3]
  unfold deleteMarkers
  congr 1
  funext l
  rw [List.contains_eq_mem]
  rfl

/-- **C31**, what holds: for `FIRST` and `LAST`, writing and reading use the declared order (`C31_written`, `C31_read`), so
that every component is read back as it was. -/
theorem C31_partial (h m : Val) (lh lm : List Line) (D : AttitudeDecl) (e : Str) (qc q1 q2 q3 : Dec)
    (hh : KeyBlock .NdmHeader h lh) (hm : KeyBlock .AemMetadata m lm) (hd : Declares D m) (ht : D.type = py "QUATERNION")
    (he : DateText e) (hty : ¬ py "Type" <:+: e) (hp : ∀ d ∈ [qc, q1, q2, q3], d.plain = d)
    (hq : D.quaternion = py "FIRST" ∨ D.quaternion = py "LAST") :
    let o := aem h [aemSegment m (aemData [] [attitude (py "quaternion_state") (.obj .QuaternionEphemerisType
      [(py "epoch", .str e), (py "quaternion", quaternion qc q1 q2 q3)])])]
    ∃ text raw, kvnToString o = .ok text ∧ (splitChar '\n' text).filterMap parseLine = [py "CCSDS_AEM_VERS", py "1.0"] :: raw ∧
      raw.filter (fun l : Line => !(l.key ∈ [py "META_START", py "META_STOP", py "DATA_START", py "DATA_STOP"])) =
        lh ++ lm ++ [[joinWith (py "  ") (e :: (if D.quaternion = py "FIRST" then [qc, q1, q2, q3] else [q1, q2, q3, qc]).map Dec.toStr)]] ∧
      kvnFromString text = .ok o := by
  intro o
  have ho : QuaternionOrder qc q1 q2 q3 D.quaternion (if D.quaternion = py "FIRST" then [qc, q1, q2, q3] else [q1, q2, q3, qc]) := by
    rcases hq with hq | hq
    · rw [hq, if_pos rfl]; exact .first
    · rw [hq, if_neg (by decide)]; exact .last
  have hall : ∀ d ∈ (if D.quaternion = py "FIRST" then [qc, q1, q2, q3] else [q1, q2, q3, qc]), d.plain = d := by
    intro d hd
    apply hp
    split at hd <;> simp only [List.mem_cons, List.not_mem_nil, or_false] at hd ⊢ <;> tauto
  have hs := AemSegmentsOf.cons (K := Written) (P := AttitudeState) hm hd (.mk (texts := []) (by simp) (by simp) (by simp)
    (.cons (.mk he hty hall (.quaternion ht ho)) .nil)) .nil (by simp)
  simp only [List.map_nil, List.nil_append, List.append_nil] at hs
  obtain ⟨text, raw, h1, h2, h3⟩ := C31_written h lh _ _ hh hs
  refine ⟨text, raw, h1, h2, by rw [h3, List.append_assoc], ?_⟩
  exact C31_read text _ raw lh _ h _ (by intro c hc; revert hc; revert c; decide) h2 h3 hh.spelled (hs.mono fun _ _ _ h => h.read) (by simp)

/-- Every rotation sequence of the schema names three axes. -/
theorem C32_sequences : ∀ ms, Cls.members .RotseqType = some ms → ∀ p ∈ ms, ∃ a₁ a₂ a₃, Axes p.2 a₁ a₂ a₃ := by
  have aux : ∀ {s : Str}, (s.length == 3 && s.all fun c => c == '1' || c == '2' || c == '3') = true →
      ∃ a₁ a₂ a₃, Axes s a₁ a₂ a₃ := by
    have ax : ∀ c : Char, (c == '1' || c == '2' || c == '3') = true → ∃ a, Axis c a := by
      intro c h
      simp only [Bool.or_eq_true, beq_iff_eq] at h
      rcases h with (rfl | rfl) | rfl
      · exact ⟨_, .x⟩
      · exact ⟨_, .y⟩
      · exact ⟨_, .z⟩
    intro s h
    match s with
    | [] | [_] | [_, _] => simp at h
    | _ :: _ :: _ :: _ :: _ => simp at h
    | [a, b, c] =>
      simp only [List.length_cons, List.length_nil, Nat.zero_add, Nat.reduceAdd, beq_self_eq_true, List.all_cons, List.all_nil,
        Bool.and_true, Bool.true_and, Bool.and_eq_true] at h
      obtain ⟨a₁, h1⟩ := ax a h.1
      obtain ⟨a₂, h2⟩ := ax b h.2.1
      obtain ⟨a₃, h3⟩ := ax c h.2.2
      exact ⟨a₁, a₂, a₃, .mk h1 h2 h3⟩
  intro ms hms p hp
  apply aux
  revert p
  rw [← List.all_eq_true (p := fun p : Str × Str => p.2.length == 3 && p.2.all fun c => c == '1' || c == '2' || c == '3')]
  have : (Cls.members .RotseqType).all (fun ms => ms.all fun p : Str × Str => p.2.length == 3 && p.2.all fun c => c == '1' || c == '2' || c == '3') = true := by
    decide +kernel
  rw [hms] at this
  exact this

/-- **C32**: for every rotation sequence of the schema, the three angles of a line, or the three rates, or both, are
labelled with the axes of the sequence, in order. -/
theorem C32 (src ver : Str) (raw lh lm : List Line) (h m : Val) (D : AttitudeDecl) (e s : Str) (ds : List Dec)
    (hver : XmlText ver) (hsrc : (splitChar '\n' src).filterMap parseLine = [py "CCSDS_AEM_VERS", ver] :: raw)
    (hraw : raw.filter (fun l => !(l.key ∈ [py "META_START", py "META_STOP", py "DATA_START", py "DATA_STOP"])) =
      lh ++ lm ++ [[e ++ ' ' :: s]])
    (hh : KeyBlockOf Spelled .NdmHeader h lh) (hm : KeyBlockOf Spelled .AemMetadata m lm) (hd : Declares D m)
    (he : DateText e) (hty : ¬ py "Type" <:+: e) (hw : List.Forall₂ Spells (words s) ds)
    (n : Str) (ms : List (Str × Str)) (hms : Cls.members .RotseqType = some ms) (hq : (n, D.rotations) ∈ ms) :
    ∃ a₁ a₂ a₃, Axes D.rotations a₁ a₂ a₃ ∧
      (∀ d₁ d₂ d₃, D.type = py "EULER_ANGLE" → ds.map Dec.plain = [d₁, d₂, d₃] →
        kvnFromString src = .ok (aem h [aemSegment m (aemData [] [attitude (py "euler_angle") (.obj .EulerAngleType
          [(py "epoch", .str e), (py "rotation_angles", rotationAngles a₁ a₂ a₃ d₁ d₂ d₃)])])])) ∧
      (∀ d₁ d₂ d₃ r₁ r₂ r₃, D.type = py "EULER_ANGLE/RATE" → ds.map Dec.plain = [d₁, d₂, d₃, r₁, r₂, r₃] →
        kvnFromString src = .ok (aem h [aemSegment m (aemData [] [attitude (py "euler_angle_rate") (.obj .EulerAngleRateType
          [(py "epoch", .str e), (py "rotation_angles", rotationAngles a₁ a₂ a₃ d₁ d₂ d₃),
            (py "rotation_rates", rotationRates a₁ a₂ a₃ r₁ r₂ r₃)])])])) ∧
      (∀ qc q1 q2 q3 r₁ r₂ r₃, D.type = py "QUATERNION/RATE" → D.quaternion = py "FIRST" →
        ds.map Dec.plain = [qc, q1, q2, q3, r₁, r₂, r₃] →
        kvnFromString src = .ok (aem h [aemSegment m (aemData [] [attitude (py "quaternion_euler_rate") (.obj .QuaternionEulerRateType
          [(py "epoch", .str e), (py "quaternion", quaternion qc q1 q2 q3),
            (py "rotation_rates", rotationRates a₁ a₂ a₃ r₁ r₂ r₃)])])])) ∧
      (∀ qc q1 q2 q3 r₁ r₂ r₃, D.type = py "QUATERNION/RATE" → D.quaternion = py "LAST" →
        ds.map Dec.plain = [q1, q2, q3, qc, r₁, r₂, r₃] →
        kvnFromString src = .ok (aem h [aemSegment m (aemData [] [attitude (py "quaternion_euler_rate") (.obj .QuaternionEulerRateType
          [(py "epoch", .str e), (py "quaternion", quaternion qc q1 q2 q3),
            (py "rotation_rates", rotationRates a₁ a₂ a₃ r₁ r₂ r₃)])])])) := by
  obtain ⟨a₁, a₂, a₃, hax⟩ := C32_sequences ms hms _ hq
  have key : ∀ v, Attitude D e (ds.map Dec.plain) v →
      kvnFromString src = .ok (aem h [aemSegment m (aemData [] [v])]) := by
    intro v hv
    refine C31_read src ver raw lh (lm ++ [[e ++ ' ' :: s]]) h _ hver hsrc (by rw [hraw, List.append_assoc]) hh ?_ (by simp)
    have := AemSegmentsOf.cons (K := Spelled) (P := AttitudeRead) hm hd (.mk (texts := []) (by simp) (by simp) (by simp)
      (.cons (.mk he hty hw hv) .nil)) .nil (by simp)
    simpa [aemData] using this
  refine ⟨a₁, a₂, a₃, hax, ?_, ?_, ?_, ?_⟩
  · intro d₁ d₂ d₃ ht hds
    exact key _ (hds ▸ .eulerAngle ht hax)
  · intro d₁ d₂ d₃ r₁ r₂ r₃ ht hds
    exact key _ (hds ▸ .eulerAngleRate ht hax)
  · intro qc q1 q2 q3 r₁ r₂ r₃ ht hq hds
    have ho : QuaternionOrder qc q1 q2 q3 D.quaternion [qc, q1, q2, q3] := by rw [hq]; exact .first
    exact key _ (hds ▸ .quaternionRate (ds := [qc, q1, q2, q3]) ht ho hax)
  · intro qc q1 q2 q3 r₁ r₂ r₃ ht hq hds
    have ho : QuaternionOrder qc q1 q2 q3 D.quaternion [q1, q2, q3, qc] := by rw [hq]; exact .last
    exact key _ (hds ▸ .quaternionRate (ds := [q1, q2, q3, qc]) ht ho hax)

/-! A text that meets the conditions of `C31_scalar` and one that meets those of `C32`. -/

def oneAem (type extra line : Str) : Str := (py "CCSDS_AEM_VERS = 1.0
" ++ headText ++ py "META_START
OBJECT_NAME = A
OBJECT_ID = B
REF_FRAME_A = X
REF_FRAME_B = Y
ATTITUDE_DIR = A2B
TIME_SYSTEM = UTC
START_TIME = 2000-01-01
STOP_TIME = 2000-01-02
ATTITUDE_TYPE = " ++ type ++ py "
" ++ extra ++ py "
META_STOP
DATA_START
" ++ line ++ py "
DATA_STOP
")

def oneAemHead : List Line := [[py "CREATION_DATE", py "2000-01-01"], [py "ORIGINATOR", py "X"]]
def oneAemMeta (type : Str) (extra : Line) : List Line := [[py "OBJECT_NAME", py "A"], [py "OBJECT_ID", py "B"],
  [py "REF_FRAME_A", py "X"], [py "REF_FRAME_B", py "Y"], [py "ATTITUDE_DIR", py "A2B"], [py "TIME_SYSTEM", py "UTC"],
  [py "START_TIME", py "2000-01-01"], [py "STOP_TIME", py "2000-01-02"], [py "ATTITUDE_TYPE", type], extra]

def oneAemRaw (type : Str) (extra : Line) (line : Str) : List Line :=
  oneAemHead ++ [py "META_START"] :: oneAemMeta type extra ++ [[py "META_STOP"], [py "DATA_START"], [line], [py "DATA_STOP"]]

example : kvnFromString (oneAem (py "QUATERNION") (py "QUATERNION_TYPE = LAST") (py "2000-01-01T00:00:00 1 \t 2   3 1E+1")) =
    .ok (aem header [aemSegment (aemMeta (py "QUATERNION") [quatType (py "LAST")]) (aemData []
      [quatState (py "2000-01-01T00:00:00") (.fin false 10 0) (.fin false 1 0) (.fin false 2 0) (.fin false 3 0)])]) :=
  (C31_scalar _ (py "1.0") (oneAemRaw (py "QUATERNION") [py "QUATERNION_TYPE", py "LAST"] (py "2000-01-01T00:00:00 1 \t 2   3 1E+1")) oneAemHead (oneAemMeta (py "QUATERNION") [py "QUATERNION_TYPE", py "LAST"]) header
    (aemMeta (py "QUATERNION") [quatType (py "LAST")]) ⟨py "QUATERNION", py "LAST", []⟩ (py "2000-01-01T00:00:00") (py "1 \t 2   3 1E+1")
    (.fin false 1 0) (.fin false 2 0) (.fin false 3 0) (.fin false 1 1) (by decide) (by decide +kernel)
    (by decide +kernel) (keyBlock_of_b (by decide +kernel)).spelled (keyBlock_of_b (by decide +kernel)).spelled
    (.mk (by decide) (fun _ => by decide) (fun h => absurd h (by decide))) rfl (date_of_b (by decide +kernel))
    (infix_of_b (by decide +kernel)) (by decide +kernel)).2 rfl

example : kvnFromString (oneAem (py "EULER_ANGLE") (py "EULER_ROT_SEQ = 312") (py "2000-01-01T00:00:00 1 2   3")) =
    .ok (aem header [aemSegment (aemMeta (py "EULER_ANGLE") [rotSeq (py "312")]) (aemData [] [attitude (py "euler_angle") (.obj .EulerAngleType
      [(py "epoch", S (py "2000-01-01T00:00:00")), (py "rotation_angles", rotationAngles 'Z' 'X' 'Y' (.fin false 1 0) (.fin false 2 0) (.fin false 3 0))])])]) := by
  obtain ⟨a₁, a₂, a₃, hax, h1, -⟩ := C32 (oneAem (py "EULER_ANGLE") (py "EULER_ROT_SEQ = 312") (py "2000-01-01T00:00:00 1 2   3")) (py "1.0")
    (oneAemRaw (py "EULER_ANGLE") [py "EULER_ROT_SEQ", py "312"] (py "2000-01-01T00:00:00 1 2   3")) oneAemHead
    (oneAemMeta (py "EULER_ANGLE") [py "EULER_ROT_SEQ", py "312"]) header
    (aemMeta (py "EULER_ANGLE") [rotSeq (py "312")]) ⟨py "EULER_ANGLE", [], py "312"⟩ (py "2000-01-01T00:00:00") (py "1 2   3")
    [.fin false 1 0, .fin false 2 0, .fin false 3 0] (by decide) (by decide +kernel) (by decide +kernel)
    (keyBlock_of_b (by decide +kernel)).spelled (keyBlock_of_b (by decide +kernel)).spelled
    (.mk (by decide) (fun h => absurd h (by decide)) (fun _ => by decide)) (date_of_b (by decide +kernel))
    (infix_of_b (by decide +kernel)) (by decide +kernel) (py "VALUE_312") _ rfl (by decide +kernel)
  have := h1 (.fin false 1 0) (.fin false 2 0) (.fin false 3 0) rfl rfl
  cases hax with
  | mk x1 x2 x3 => cases x1; cases x2; cases x3; exact this

end Ndm
