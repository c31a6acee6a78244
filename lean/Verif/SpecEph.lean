import Verif.SpecRead
import Verif.Spec
import Mathlib.Data.List.Forall2

/-! # Well-formed ephemeris, attitude and tracking data messages (specification for C24, C25, C26, C29-C34)

These messages consist of segments, each with keyword lines (the metadata) followed by data lines of a form of their
own.  As in `SpecRt.lean`, the relations give a well-formed object together with the lines of its notation; the marker
lines (`META_START`, ...) are left out. -/

namespace Ndm

/-- A point in time as it stands at the beginning of a data line: it starts with a four-digit year and a hyphen. -/
structure DateText (e : Str) : Prop where
  year : ∃ a b c d r, e = a :: b :: c :: d :: '-' :: r ∧ ∀ x ∈ [a, b, c, d], isAsciiDigit x = true
  noBlank : ∀ c ∈ e, isSpace c = false
  plain : ∀ c ∈ e, c ≠ '=' ∧ c ≠ '[' ∧ xmlChar c = true

/-- A number without a unit, stored in a value class such as `PositionType`. -/
def number (c : Cls) (d : Dec) : Val := .obj c [(py "value", .dec d), (py "units", .none)]

/-- The text `t` is a spelling of the number `d`. -/
def Spells (t : Str) (d : Dec) : Prop := Dec.parse t = some d ∧ XmlText t

instance (t : Str) (d : Dec) : Decidable (Spells t d) := inferInstanceAs (Decidable (_ ∧ _))

/-- The given attributes hold the given numbers; the remaining ones are absent. -/
def numbered : List (Str × Cls) → List Dec → List (Str × Val)
  | [], _ => []
  | (a, c) :: as, d :: ds => (a, number c d) :: numbered as ds
  | (a, _) :: as, [] => (a, .none) :: numbered as []

/-- Neither an infinity nor a NaN. -/
def Dec.Finite : Dec → Prop
  | .fin _ _ _ => True
  | _ => False

/-- An object made of keywords only, with a keyword line after its comments. -/
inductive KeyBlockOf (K : Cls → List (Str × Val) → List Line → Prop) (c : Cls) : Val → List Line → Prop
  | mk {kvs ls} : K c kvs ls → ls ≠ [] → ls.getLast?.map Line.key ≠ some (py "COMMENT") →
      KeyBlockOf K c (.obj c kvs) ls

/-- An object made of keywords only, as it is written. -/
abbrev KeyBlock : Cls → Val → List Line → Prop := KeyBlockOf Written

/-- Objects one after the other. -/
inductive Each (P : Val → List Line → Prop) : List Val → List Line → Prop
  | nil : Each P [] []
  | cons {x l xs ls} : P x l → Each P xs ls → Each P (x :: xs) (l ++ ls)

/-! ## Orbit ephemeris messages -/

/-- The components of a state vector. -/
def stateAttrs : List (Str × Cls) := [
  (py "x", .PositionType), (py "y", .PositionType), (py "z", .PositionType),
  (py "x_dot", .VelocityType), (py "y_dot", .VelocityType), (py "z_dot", .VelocityType),
  (py "x_ddot", .AccType), (py "y_ddot", .AccType), (py "z_ddot", .AccType)]

/-- A state vector: position and velocity, and possibly components of the acceleration, without units.  Its line holds
the epoch and the numbers. -/
inductive StateVector : Val → List Line → Prop
  | mk {e : Str} {ds : List Dec} : DateText e → 6 ≤ ds.length → ds.length ≤ 9 →
      StateVector (.obj .StateVectorAccType ((py "epoch", .str e) :: numbered stateAttrs ds))
        [[joinWith (py "  ") (e :: ds.map Dec.toStr)]]

/-- A line that is a state vector, whatever the spacing and the spelling of the numbers. -/
inductive StateText : Val → List Line → Prop
  | mk {e s : Str} {ts : List Str} {ds : List Dec} : DateText e → words s = e :: ts → ' ' ∈ s → List.Forall₂ Spells ts ds →
      ds.length ≤ 9 →
      StateText (.obj .StateVectorAccType ((py "epoch", .str e) :: numbered stateAttrs ds)) [[s]]

/-- The elements of a covariance matrix, row by row of its lower triangle. -/
def covarianceAttrs : List (Str × Cls) := [
  (py "cx_x", .PositionCovarianceType),
  (py "cy_x", .PositionCovarianceType), (py "cy_y", .PositionCovarianceType),
  (py "cz_x", .PositionCovarianceType), (py "cz_y", .PositionCovarianceType), (py "cz_z", .PositionCovarianceType),
  (py "cx_dot_x", .PositionVelocityCovarianceType), (py "cx_dot_y", .PositionVelocityCovarianceType),
  (py "cx_dot_z", .PositionVelocityCovarianceType), (py "cx_dot_x_dot", .VelocityCovarianceType),
  (py "cy_dot_x", .PositionVelocityCovarianceType), (py "cy_dot_y", .PositionVelocityCovarianceType),
  (py "cy_dot_z", .PositionVelocityCovarianceType), (py "cy_dot_x_dot", .VelocityCovarianceType),
  (py "cy_dot_y_dot", .VelocityCovarianceType),
  (py "cz_dot_x", .PositionVelocityCovarianceType), (py "cz_dot_y", .PositionVelocityCovarianceType),
  (py "cz_dot_z", .PositionVelocityCovarianceType), (py "cz_dot_x_dot", .VelocityCovarianceType),
  (py "cz_dot_y_dot", .VelocityCovarianceType), (py "cz_dot_z_dot", .VelocityCovarianceType)]

/-- Six rows of one to six items. -/
def lowerTriangle {α : Type} (l : List α) : List (List α) :=
  [l.take 1, (l.drop 1).take 2, (l.drop 3).take 3, (l.drop 6).take 4, (l.drop 10).take 5, (l.drop 15).take 6]

/-- A covariance matrix with all its 21 elements, without units, comments and reference frame.  Its lines are the epoch
and the rows of the lower triangle. -/
inductive Covariance : Val → List Line → Prop
  | mk {e : Str} {ds : List Dec} : Plain e → ds.length = 21 → (∀ d ∈ ds, d.Finite) →
      Covariance (.obj .OemCovarianceMatrixType ((py "comment", .list []) :: (py "epoch", .str e) ::
          (py "cov_ref_frame", .none) :: numbered covarianceAttrs ds))
        ([py "EPOCH", e] :: (lowerTriangle (ds.map Dec.toStr)).map fun row => [joinWith (py "  ") row])

/-- The data of a segment: at most one comment, at least one state vector, any number of covariance matrices. -/
inductive OemDataOf (S C : Val → List Line → Prop) : Val → List Line → Prop
  | mk {texts : List Str} {svs lsv cms lcm} : (∀ t ∈ texts, PlainComment t) → texts.length ≤ 1 → svs ≠ [] →
      Each S svs lsv → Each C cms lcm →
      OemDataOf S C (.obj .OemData [(py "comment", .list (texts.map .str)), (py "state_vector", .list svs),
        (py "covariance_matrix", .list cms)]) (texts.map (fun t => [py "COMMENT", t]) ++ (lsv ++ lcm))

/-- The text `t` is a spelling of the number `d` as a covariance matrix may have it: it is also a number for `float`,
and it begins with a digit, a sign or the point. -/
structure Element (t : Str) (d : Dec) : Prop where
  spells : Spells t d
  float : floatOk t = true
  start : ∃ c r, t = c :: r ∧ (isAsciiDigit c = true ∨ c ∈ ['+', '-', '.'])

/-- Lines that are a covariance matrix, whatever the spacing and the spelling of the numbers. -/
inductive CovarianceText : Val → List Line → Prop
  | mk {e : Str} {rows ts : List Str} {ds : List Dec} : XmlText e → rows.map words = lowerTriangle ts → ds.length = 21 →
      List.Forall₂ Element ts ds →
      CovarianceText (.obj .OemCovarianceMatrixType ((py "comment", .list []) :: (py "epoch", .str e) ::
          (py "cov_ref_frame", .none) :: numbered covarianceAttrs ds))
        ([py "EPOCH", e] :: rows.map fun row => [row])

abbrev OemDataOk : Val → List Line → Prop := OemDataOf StateVector Covariance

/-- The segments of an OEM.  Two conditions concern the lines `ls` of the following segments, because a section is
found by looking for its keywords from where it should start:

* if the data have a comment, the following segments have no metadata keyword that this one lacks;
* if there is a covariance matrix in a later segment, the metadata of the next segment have no comment. -/
inductive OemSegmentsOf (K : Cls → List (Str × Val) → List Line → Prop) (S C : Val → List Line → Prop) :
    List Val → List Line → Prop
  | nil : OemSegmentsOf K S C [] []
  | cons {m lm d ld segs ls} : KeyBlockOf K .OemMetadata m lm → OemDataOf S C d ld → OemSegmentsOf K S C segs ls →
      (ld.head?.map Line.key = some (py "COMMENT") →
        ∀ l ∈ ls, l.key ≠ py "COMMENT" → l.key ∈ (Cls.keyAttrs .OemMetadata).map (fun f => upper f.name) →
          ∃ l' ∈ lm, l'.key = l.key) →
      (ls.head?.map Line.key = some (py "COMMENT") → ∀ l ∈ ls, l.key ≠ py "EPOCH") →
      OemSegmentsOf K S C (.obj .OemSegment [(py "metadata", m), (py "data", d)] :: segs) (lm ++ ld ++ ls)

abbrev OemSegments : List Val → List Line → Prop := OemSegmentsOf Written StateVector Covariance

/-- A well-formed OEM: a header and at least one segment. -/
inductive WellFormedOem : Val → Prop
  | mk {h lh segs ls} : KeyBlock .NdmHeader h lh → segs ≠ [] → OemSegments segs ls →
      WellFormedOem (.obj .Oem [(py "header", h), (py "body", .obj .OemBody [(py "segment", .list segs)])])

/-! ## Units -/

/-- The value `v'` is `v` without its unit. -/
inductive WithoutUnit : Val → Val → Prop
  | same {v} : WithoutUnit v v
  | drop {c d u} : WithoutUnit (.obj c [(py "value", .dec d), (py "units", u)]) (number c d)

/-- The state vector or covariance matrix `x'` is `x` without the units of its elements. -/
inductive UnitsLeftOut : Val → Val → Prop
  | mk {c vs vs'} : c = .StateVectorAccType ∨ c = .OemCovarianceMatrixType →
      List.Forall₂ (fun p p' => p.1 = p'.1 ∧ WithoutUnit p.2 p'.2) vs vs' → UnitsLeftOut (.obj c vs) (.obj c vs')

/-- The segment `s'` is `s` without the units in its state vectors and covariance matrices. -/
inductive SegmentUnitsLeftOut : Val → Val → Prop
  | mk {m co svs svs' cms cms'} : List.Forall₂ UnitsLeftOut svs svs' → List.Forall₂ UnitsLeftOut cms cms' →
      SegmentUnitsLeftOut
        (.obj .OemSegment [(py "metadata", m), (py "data", .obj .OemData [(py "comment", co),
          (py "state_vector", .list svs), (py "covariance_matrix", .list cms)])])
        (.obj .OemSegment [(py "metadata", m), (py "data", .obj .OemData [(py "comment", co),
          (py "state_vector", .list svs'), (py "covariance_matrix", .list cms')])])

/-- The OEM `o'` is `o` without the units in its state vectors and covariance matrices. -/
inductive OemUnitsLeftOut : Val → Val → Prop
  | mk {h segs segs'} : List.Forall₂ SegmentUnitsLeftOut segs segs' →
      OemUnitsLeftOut (.obj .Oem [(py "header", h), (py "body", .obj .OemBody [(py "segment", .list segs)])])
        (.obj .Oem [(py "header", h), (py "body", .obj .OemBody [(py "segment", .list segs')])])

/-- An OEM with a header and segments. -/
def oem (h : Val) (segs : List Val) : Val :=
  .obj .Oem [(py "header", h), (py "body", .obj .OemBody [(py "segment", .list segs)])]

/-- A segment with metadata, data comments, state vectors and covariance matrices. -/
def oemSegment (m co : Val) (svs cms : List Val) : Val :=
  .obj .OemSegment [(py "metadata", m), (py "data", .obj .OemData [(py "comment", co), (py "state_vector", .list svs),
    (py "covariance_matrix", .list cms)])]

/-- The text is made of lines, among which `ls` stand one after the other. -/
def HasLines (text : Str) (ls : List Str) : Prop := ∃ pre post, text = ['\n'].intercalate (pre ++ ls ++ post)

/-- The attributes hold the given numbers, each with any unit or none; the remaining ones are absent. -/
inductive Measured : List (Str × Cls) → List Dec → List (Str × Val) → Prop
  | nil {ds} : Measured [] ds []
  | absent {a c as vs} : Measured as [] vs → Measured ((a, c) :: as) [] ((a, .none) :: vs)
  | present {a c as d ds u vs} : Measured as ds vs →
      Measured ((a, c) :: as) (d :: ds) ((a, .obj c [(py "value", .dec d), (py "units", u)]) :: vs)

/-! ## Tracking data messages -/

/-- An observation: a point in time and the value `v` of one quantity. -/
def observation (attr e : Str) (v : Val) : Val :=
  .obj .TrackingDataObservationType ((Cls.keyAttrs .TrackingDataObservationType).map fun g =>
    (g.name, if g.name = py "epoch" then .str e else if g.name = attr then v else .none))

/-- An observation of a number.  Its line holds the keyword of the quantity, the epoch filled up with blanks to 30
characters, and the number. -/
inductive Observation : Val → List Line → Prop
  | mk {e : Str} {f : Field} {d : Dec} : DateText e → e.length < 30 → f ∈ Cls.keyAttrs .TrackingDataObservationType →
      f.ty = .dec →
      Observation (observation f.name e (.dec d)) [[upper f.name, e ++ List.replicate (30 - e.length) ' ' ++ d.toStr]]

/-- A line that is an observation of any quantity, whatever the spacing between the epoch and the number. -/
inductive Observed : Val → List Line → Prop
  | mk {e s t : Str} {f : Field} {v : Val} : DateText e → words s = [e, t] → f ∈ Cls.keyAttrs .TrackingDataObservationType →
      f.name ≠ py "epoch" → KeyText f v [upper f.name, t] → Observed (observation f.name e v) [[upper f.name, s]]

/-- A line whose text is not mistaken for a point in time: the first word of the text does not begin with four
numerals, or has something other than a hyphen after them. -/
def Undated (l : Line) : Prop :=
  ∃ k v r w ws, l = k :: v :: r ∧ words v = w :: ws ∧ (isNumeric (w.take 4) = false ∨ ∃ c, w[4]? = some c ∧ c ≠ '-')

/-- The data of a segment: at most one comment, at least one observation. -/
inductive TdmDataOk (P : Val → List Line → Prop) : Val → List Line → Prop
  | mk {texts : List Str} {obs lo} : (∀ t ∈ texts, PlainComment t) → texts.length ≤ 1 → obs ≠ [] → Each P obs lo →
      TdmDataOk P (.obj .TdmData [(py "comment", .list (texts.map .str)), (py "observation", .list obs)])
        (texts.map (fun t => [py "COMMENT", t]) ++ lo)

/-- A segment of a TDM. -/
def tdmSegment (m d : Val) : Val := .obj .TdmSegment [(py "metadata", m), (py "data", d)]

/-- A TDM with a header and segments. -/
def tdm (h : Val) (segs : List Val) : Val :=
  .obj .Tdm [(py "header", h), (py "body", .obj .TdmBody [(py "segment", .list segs)])]

/-- The segments of a TDM.  Their first line is not mistaken for an observation of the segment before.  Either the following
segments have no metadata keyword that this one lacks, or this one has no comment in its data and observes some quantity
more than once. -/
inductive TdmSegmentsOf (K : Cls → List (Str × Val) → List Line → Prop) (P : Val → List Line → Prop) :
    List Val → List Line → Prop
  | nil : TdmSegmentsOf K P [] []
  | cons {m lm d ld segs ls} : KeyBlockOf K .TdmMetadata m lm → TdmDataOk P d ld → TdmSegmentsOf K P segs ls →
      (∀ l ∈ ls, l.key ≠ py "COMMENT" → l.key ∈ (Cls.keyAttrs .TdmMetadata).map (fun f => upper f.name) →
        ∃ l' ∈ lm, l'.key = l.key) ∨ (∀ l ∈ ld, l.key ≠ py "COMMENT") ∧ ¬ (ld.map Line.key).Nodup →
      (∀ l, ls.head? = some l → Undated l) →
      TdmSegmentsOf K P (tdmSegment m d :: segs) (lm ++ ld ++ ls)

abbrev TdmSegments (P : Val → List Line → Prop) : List Val → List Line → Prop := TdmSegmentsOf Written P

/-- A well-formed TDM: a header and at least one segment. -/
inductive WellFormedTdm : Val → Prop
  | mk {h lh segs ls} : KeyBlock .TdmHeader h lh → segs ≠ [] → TdmSegments Observation segs ls → WellFormedTdm (tdm h segs)

/-! ## Attitude ephemeris messages -/

/-- An attitude state with one attitude element. -/
def attitude (attr : Str) (v : Val) : Val :=
  .obj .AttitudeStateType ([py "quaternion_state", py "quaternion_derivative", py "quaternion_euler_rate", py "euler_angle",
    py "euler_angle_rate", py "spin", py "spin_nutation"].map fun a => (a, if a = attr then v else .none))

/-- A quaternion; `qc` is its scalar component. -/
def quaternion (qc q1 q2 q3 : Dec) : Val :=
  .obj .QuaternionType [(py "qc", .dec qc), (py "q1", .dec q1), (py "q2", .dec q2), (py "q3", .dec q3)]

/-- The components of a quaternion in the order declared by `QUATERNION_TYPE`: the scalar component is the first or
the last one. -/
inductive QuaternionOrder (qc q1 q2 q3 : Dec) : Str → List Dec → Prop
  | first : QuaternionOrder qc q1 q2 q3 (py "FIRST") [qc, q1, q2, q3]
  | last : QuaternionOrder qc q1 q2 q3 (py "LAST") [q1, q2, q3, qc]

/-- The axis that a digit of a rotation sequence stands for. -/
inductive Axis : Char → Char → Prop
  | x : Axis '1' 'X'
  | y : Axis '2' 'Y'
  | z : Axis '3' 'Z'

/-- The axes of a rotation sequence. -/
inductive Axes : Str → Char → Char → Char → Prop
  | mk {c₁ c₂ c₃ a₁ a₂ a₃} : Axis c₁ a₁ → Axis c₂ a₂ → Axis c₃ a₃ → Axes [c₁, c₂, c₃] a₁ a₂ a₃

/-- Three rotation angles about the given axes. -/
def rotationAngles (a₁ a₂ a₃ : Char) (d₁ d₂ d₃ : Dec) : Val :=
  let one (a : Char) (d : Dec) : Val := .obj .RotationAngleComponentType
    [(py "value", .dec d), (py "angle", .enum .AngleKeywordType (a :: py "_ANGLE")), (py "units", .none)]
  .obj .RotationAngleType [(py "rotation1", one a₁ d₁), (py "rotation2", one a₂ d₂), (py "rotation3", one a₃ d₃)]

/-- Three rotation rates about the given axes. -/
def rotationRates (a₁ a₂ a₃ : Char) (d₁ d₂ d₃ : Dec) : Val :=
  let one (a : Char) (d : Dec) : Val := .obj .RotationRateComponentType
    [(py "value", .dec d), (py "rate", .enum .AngleRateKeywordType (a :: py "_RATE")), (py "units", .none)]
  .obj .RotationRateType [(py "rotation1", one a₁ d₁), (py "rotation2", one a₂ d₂), (py "rotation3", one a₃ d₃)]

/-- What the metadata of a segment declare about its attitude states: the attitude type, the place of the scalar
component of quaternions, and the sequence of rotations. -/
structure AttitudeDecl where
  type : Str
  quaternion : Str
  rotations : Str

/-- The attitude state of the epoch `e` and the numbers `ds` under the declaration `D`. -/
inductive Attitude (D : AttitudeDecl) (e : Str) : List Dec → Val → Prop
  | quaternion {qc q1 q2 q3 ds} : D.type = py "QUATERNION" → QuaternionOrder qc q1 q2 q3 D.quaternion ds →
      Attitude D e ds (attitude (py "quaternion_state") (.obj .QuaternionEphemerisType
        [(py "epoch", .str e), (py "quaternion", quaternion qc q1 q2 q3)]))
  | quaternionRate {qc q1 q2 q3 ds a₁ a₂ a₃ r₁ r₂ r₃} : D.type = py "QUATERNION/RATE" →
      QuaternionOrder qc q1 q2 q3 D.quaternion ds → Axes D.rotations a₁ a₂ a₃ →
      Attitude D e (ds ++ [r₁, r₂, r₃]) (attitude (py "quaternion_euler_rate") (.obj .QuaternionEulerRateType
        [(py "epoch", .str e), (py "quaternion", quaternion qc q1 q2 q3),
          (py "rotation_rates", rotationRates a₁ a₂ a₃ r₁ r₂ r₃)]))
  | eulerAngle {a₁ a₂ a₃ d₁ d₂ d₃} : D.type = py "EULER_ANGLE" → Axes D.rotations a₁ a₂ a₃ →
      Attitude D e [d₁, d₂, d₃] (attitude (py "euler_angle") (.obj .EulerAngleType
        [(py "epoch", .str e), (py "rotation_angles", rotationAngles a₁ a₂ a₃ d₁ d₂ d₃)]))
  | eulerAngleRate {a₁ a₂ a₃ d₁ d₂ d₃ r₁ r₂ r₃} : D.type = py "EULER_ANGLE/RATE" → Axes D.rotations a₁ a₂ a₃ →
      Attitude D e [d₁, d₂, d₃, r₁, r₂, r₃] (attitude (py "euler_angle_rate") (.obj .EulerAngleRateType
        [(py "epoch", .str e), (py "rotation_angles", rotationAngles a₁ a₂ a₃ d₁ d₂ d₃),
          (py "rotation_rates", rotationRates a₁ a₂ a₃ r₁ r₂ r₃)]))

/-- The metadata make the declaration `D`; what the attitude type does not need may be left out. -/
inductive Declares (D : AttitudeDecl) : Val → Prop
  | mk {kvs} : (py "attitude_type", .enum .AttitudeTypeType D.type) ∈ kvs →
      (D.type ∈ [py "QUATERNION", py "QUATERNION/RATE"] →
        (py "quaternion_type", .enum .QuaternionTypeType D.quaternion) ∈ kvs) →
      (D.type ∈ [py "QUATERNION/RATE", py "EULER_ANGLE", py "EULER_ANGLE/RATE"] →
        (py "euler_rot_seq", .enum .RotseqType D.rotations) ∈ kvs) →
      Declares D (.obj .AemMetadata kvs)

/-- An attitude state and its line: the epoch and the numbers, separated by blanks.  The reader passes the object
through XML text once more: it removes every "Type" from the epoch and turns `1E+2` into `100`, so neither occurs. -/
inductive AttitudeState (D : AttitudeDecl) : Val → List Line → Prop
  | mk {e : Str} {ds : List Dec} {v : Val} : DateText e → ¬ py "Type" <:+: e → (∀ d ∈ ds, d.plain = d) → Attitude D e ds v →
      AttitudeState D v [[joinWith (py "  ") (e :: ds.map Dec.toStr)]]

/-- A line that is an attitude state, whatever the spacing between the numbers and their spelling.  Numbers such as
`1E+2` are read as `100`. -/
inductive AttitudeRead (D : AttitudeDecl) : Val → List Line → Prop
  | mk {e s : Str} {ds : List Dec} {v : Val} : DateText e → ¬ py "Type" <:+: e → List.Forall₂ Spells (words s) ds →
      Attitude D e (ds.map Dec.plain) v →
      AttitudeRead D v [[e ++ ' ' :: s]]

/-- The data of a segment: at most one comment, at least one attitude state. -/
inductive AemDataOk (P : Val → List Line → Prop) : Val → List Line → Prop
  | mk {texts : List Str} {sts lo} : (∀ t ∈ texts, PlainComment t) → texts.length ≤ 1 → sts ≠ [] → Each P sts lo →
      AemDataOk P (.obj .AemData [(py "comment", .list (texts.map .str)), (py "attitude_state", .list sts)])
        (texts.map (fun t => [py "COMMENT", t]) ++ lo)

/-- A segment of an AEM. -/
def aemSegment (m d : Val) : Val := .obj .AemSegment [(py "metadata", m), (py "data", d)]

/-- An AEM with a header and segments. -/
def aem (h : Val) (segs : List Val) : Val :=
  .obj .Aem [(py "header", h), (py "body", .obj .AemBody [(py "segment", .list segs)])]

/-- The segments of an AEM, each with attitude states as declared by its own metadata.  If the data have a comment, the
following segments have no metadata keyword that this one lacks. -/
inductive AemSegmentsOf (K : Cls → List (Str × Val) → List Line → Prop) (P : AttitudeDecl → Val → List Line → Prop) :
    List Val → List Line → Prop
  | nil : AemSegmentsOf K P [] []
  | cons {D m lm d ld segs ls} : KeyBlockOf K .AemMetadata m lm → Declares D m → AemDataOk (P D) d ld →
      AemSegmentsOf K P segs ls →
      (ld.head?.map Line.key = some (py "COMMENT") →
        ∀ l ∈ ls, l.key ≠ py "COMMENT" → l.key ∈ (Cls.keyAttrs .AemMetadata).map (fun f => upper f.name) →
          ∃ l' ∈ lm, l'.key = l.key) →
      AemSegmentsOf K P (aemSegment m d :: segs) (lm ++ ld ++ ls)

abbrev AemSegments (P : AttitudeDecl → Val → List Line → Prop) : List Val → List Line → Prop := AemSegmentsOf Written P

/-- A well-formed AEM: a header and at least one segment. -/
inductive WellFormedAem : Val → Prop
  | mk {h lh segs ls} : KeyBlock .NdmHeader h lh → segs ≠ [] → AemSegments AttitudeState segs ls →
      WellFormedAem (aem h segs)

end Ndm
