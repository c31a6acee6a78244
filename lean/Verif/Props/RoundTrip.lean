import Verif.Lemmas.RoundTrip
import Verif.Lemmas.GoodCheck
import Verif.Samples
import Verif.Props.Refuted

/-! # C21, C22, C23, C27, C28: writing a well-formed message and reading it back

`WellFormed` (`SpecRt.lean`) says what a well-formed message is: values of the declared types, one-line texts, present
blocks not empty, at most one comment directly in a block that has no keywords of its own. -/

namespace Ndm

/-- **C21.** A well-formed OPM is written, and what is written is read back as the same OPM. -/
theorem C21_opm (o : Val) (h : WellFormed .Opm o) :
    ∃ text, kvnToString o = .ok text ∧ kvnFromString text = .ok o :=
  round_trip (id := py "CCSDS_OPM_VERS") (ver := py "2.0") (by decide) opm_ok h

/-- **C22.** A well-formed OMM is written, and what is written is read back as the same OMM. -/
theorem C22_omm (o : Val) (h : WellFormed .Omm o) :
    ∃ text, kvnToString o = .ok text ∧ kvnFromString text = .ok o :=
  round_trip (id := py "CCSDS_OMM_VERS") (ver := py "2.0") (by decide) omm_ok h

/-- **C23.** A well-formed RDM is written, and what is written is read back as the same RDM. -/
theorem C23_rdm (o : Val) (h : WellFormed .Rdm o) :
    ∃ text, kvnToString o = .ok text ∧ kvnFromString text = .ok o :=
  round_trip (id := py "CCSDS_RDM_VERS") (ver := py "1.0") (by decide) rdm_ok h

/-- An OPM with comments, optional blocks, two maneuvers and user-defined parameters. -/
def richOpm : Val :=
  let man (i : Int) (more : List (Str × Val)) := mkObj .ManeuverParametersType ([(py "man_epoch_ignition", S (py "2000-01-01T10:00:00")),
    (py "man_duration", mkVal .DurationType i (.enum .TimeUnits (py "s"))),
    (py "man_delta_mass", mkVal .DeltamassType (-i) (.enum .MassUnits (py "kg"))), (py "man_ref_frame", S (py "RTN = [x] y")),
    (py "man_dv_1", mkVal .VelocityType (-4) .none)] ++ more)
  mkOpm [(py "comment", .list [S (py "data comment")]),
    (py "keplerian_elements", mkObj .KeplerianElementsType [(py "comment", .list [S (py "first"), S (py ""), S (py "= third")]),
      (py "eccentricity", .dec (.fin true 12345 (-20))), (py "gm", mkVal .GmType 398600 .none)]),
    (py "maneuver_parameters", .list [man 5 [(py "comment", .list [S (py "a"), S (py "b")])], man 6 []]),
    (py "user_defined_parameters", mkObj .UserDefinedType [(py "user_defined", .list [mkUser (py "A B") (py "1"), mkUser (py "EARTH_MODEL") (py "WGS-84 = x")])])]

example : WellFormed .Opm richOpm := wellFormed_of_b (by decide +kernel)

/-- An OMM with two optional blocks. -/
def richOmm : Val :=
  mkObj .Omm [(py "header", mkObj .NdmHeader [(py "comment", .list [S (py "a"), S (py "b")]), (py "originator", S (py "X"))]),
    (py "body", mkObj .OmmBody [(py "segment", mkObj .OmmSegment [
      (py "metadata", mkObj .OmmMetadata [(py "object_name", S (py "A"))]),
      (py "data", mkObj .OmmData [
        (py "mean_elements", mkObj .MeanElementsType [(py "epoch", S (py "2000-01-01")), (py "eccentricity", D 5)]),
        (py "tle_parameters", mkObj .TleParametersType [(py "norad_cat_id", .int (-7)), (py "element_set_no", S (py "12x")),
          (py "bstar", mkVal .BStarType 3 .none)]),
        (py "covariance_matrix", mkObj .OpmCovarianceMatrixType [(py "cov_ref_frame", S (py "")), (py "cx_x", mkVal .PositionCovarianceType 1 .none)])])])])]

example : WellFormed .Omm richOmm := wellFormed_of_b (by decide +kernel)

/-- An RDM. -/
def richRdm : Val :=
  mkObj .Rdm [(py "header", mkObj .RdmHeader [(py "message_id", S (py "X"))]),
    (py "body", mkObj .RdmBody [(py "segment", mkObj .RdmSegment [
      (py "metadata", mkObj .RdmMetadata [(py "object_name", S (py "A")), (py "intrack_thrust", .enum .YesNoType (py "YES"))]),
      (py "data", mkObj .RdmData [
        (py "atmospheric_reentry_parameters", mkObj .AtmosphericReentryParametersType [
          (py "orbit_lifetime", mkVal .DayIntervalType 5 (.enum .DayIntervalUnits (py "d")))]),
        (py "od_parameters", mkObj .OdParametersType [(py "obs_used", .int 5)]),
        (py "user_defined_parameters", mkObj .UserDefinedType [(py "user_defined", .list [mkUser (py "A") (py "1")])])])])])]

example : WellFormed .Rdm richRdm := wellFormed_of_b (by decide +kernel)

/-! ## C27: CDM -/

/-- **C27 is false** as stated: the two segments cannot have just any subsets of the optional keywords.  When the second
one has a keyword that the first one lacks, the written text cannot be read. -/
theorem C27_refuted : writeRead (mkCdm [cdmSegment [], cdmSegment [(py "gravity_model", S (py "EGM-96"))]]) = .error .parserError := by
  decide +kernel

/-- **C27**, what holds: a well-formed CDM (in particular: every keyword of a segment is also given in the earlier
ones) is written, and what is written is read back as the same CDM. -/
theorem C27_partial (o : Val) (h : WellFormed .Cdm o) :
    ∃ text, kvnToString o = .ok text ∧ kvnFromString text = .ok o :=
  round_trip (id := py "CCSDS_CDM_VERS") (ver := py "1.0") (by decide) cdm_ok h

/-- A CDM with a relative state vector, comments and optional blocks; its second object has fewer keywords. -/
def richCdm : Val :=
  let seg (obj : Str) (sv : List (Str × Val)) (more : List (Str × Val)) := mkObj .CdmSegment [
    (py "metadata", mkObj .CdmMetadata ([(py "comment", .list [S (py "m")]), (py "object", .enum .ObjectType obj),
      (py "object_name", S (py "N"))] ++ more)),
    (py "data", mkObj .CdmData [(py "comment", .list [S (py "d")]),
      (py "od_parameters", mkObj .OdParametersType [(py "comment", .list [S (py "od")]), (py "obs_used", .int 592)]),
      (py "state_vector", mkObj .CdmStateVectorType ([(py "x", mkVal .CdmPositionType 1 (.enum .PositionUnits (py "km")))] ++ sv)),
      (py "covariance_matrix", mkObj .CdmCovarianceMatrixType [(py "cr_r", mkVal .M2Type 41 (.enum .M2Units (py "m**2")))])])]
  mkObj .Cdm [(py "header", mkObj .CdmHeader [(py "comment", .list [S (py "h")]), (py "originator", S (py "X")), (py "message_id", S (py "1"))]),
    (py "body", mkObj .CdmBody [
      (py "relative_metadata_data", mkObj .RelativeMetadataData [(py "comment", .list [S (py "r")]), (py "tca", S (py "2000-01-01")),
        (py "miss_distance", mkVal .LengthType 715 (.enum .LengthUnits (py "m"))),
        (py "relative_state_vector", mkObj .RelativeStateVectorType [(py "relative_position_r", mkVal .LengthType 27 .none)]),
        (py "collision_probability", .dec (.fin false 4835 (-8)))]),
      (py "segment", .list [seg (py "OBJECT1") [(py "y", mkVal .CdmPositionType 2 .none)] [(py "gravity_model", S (py "EGM-96"))], seg (py "OBJECT2") [] []])])]

example : WellFormed .Cdm richCdm := wellFormed_of_b (by decide +kernel)

/-- A CDM without a relative state vector. -/
example : WellFormed .Cdm (mkObj .Cdm [(py "header", mkObj .CdmHeader [(py "originator", S (py "X"))]), (py "body", mkObj .CdmBody [
    (py "relative_metadata_data", mkObj .RelativeMetadataData [(py "tca", S (py "2000-01-01")), (py "collision_probability", D 5)]),
    (py "segment", .list [cdmSegment []])])]) := wellFormed_of_b (by decide +kernel)

/-! ## C28: APM -/

def mkRotation (c : Cls) (attr : Str) (axes : Cls) (axis : Str) (i : Int) (units : Val) : Val :=
  mkObj c [(py "value", D i), (attr, .enum axes axis), (py "units", units)]

/-- An APM with the given data besides the quaternion. -/
def mkApm (more : List (Str × Val)) : Val :=
  mkObj .Apm [(py "header", header), (py "body", mkObj .ApmBody [(py "segment", mkObj .ApmSegment [
    (py "metadata", mkObj .ApmMetadata [(py "object_name", S (py "A"))]),
    (py "data", mkObj .ApmData ((py "quaternion_state", mkObj .QuaternionStateType [(py "epoch", S (py "2000-01-01")),
      (py "quaternion", mkObj .QuaternionType [(py "qc", D 1), (py "q1", D 2), (py "q2", D 3), (py "q3", D 4)])]) :: more))])])]

/-- **C28 is false** as stated: an APM without the optional Euler elements is read back with an (empty) object in their
place. -/
theorem C28_refuted : ∃ v, writeRead (mkApm []) = .ok v ∧ (mkApm []).at eulerPath = some .none ∧
    v.at eulerPath = some (mkObj .EulerElementsThreeType [
      (py "rotation_angles", mkObj .RotationAngleType []), (py "rotation_rates", mkObj .RotationRateType [])]) :=
  ok_of_check _ (by decide +kernel)

/-- **C28**, what holds: a well-formed APM (in particular: one with Euler elements holding three angles and three rates)
is written, and what is written is read back as the same APM. -/
theorem C28_partial (o : Val) (h : WellFormed .Apm o) :
    ∃ text, kvnToString o = .ok text ∧ kvnFromString text = .ok o :=
  round_trip (id := py "CCSDS_APM_VERS") (ver := py "1.0") (by decide) apm_ok h

/-- An APM with Euler elements, one axis used twice, and two maneuvers. -/
def richApm : Val :=
  let ang (axis : Str) (i : Int) := mkRotation .RotationAngleComponentType (py "angle") .AngleKeywordType axis i (.enum .AngleUnits (py "deg"))
  let rate (axis : Str) (i : Int) := mkRotation .RotationRateComponentType (py "rate") .AngleRateKeywordType axis i .none
  let man (i : Int) := mkObj .AttManeuverParametersType [(py "man_epoch_start", S (py "2000-01-01")),
    (py "man_tor_1", mkVal .TorqueType i (.enum .TorqueUnits (py "N*m")))]
  mkApm [(py "euler_elements_three", mkObj .EulerElementsThreeType [(py "euler_frame_a", S (py "SC")),
      (py "euler_rot_seq", .enum .RotseqType (py "313")),
      (py "rotation_angles", mkObj .RotationAngleType [(py "rotation1", ang (py "Z_ANGLE") 1), (py "rotation2", ang (py "X_ANGLE") (-2)),
        (py "rotation3", ang (py "Z_ANGLE") 3)]),
      (py "rotation_rates", mkObj .RotationRateType [(py "rotation1", rate (py "Z_RATE") 1), (py "rotation2", rate (py "X_RATE") 2),
        (py "rotation3", rate (py "Z_RATE") 3)])]),
    (py "maneuver_parameters", .list [man 1, man 2])]

example : WellFormed .Apm richApm := wellFormed_of_b (by decide +kernel)

/-! ## C42: comments -/

def opmDataPath (k : Str) : List Step := [.f (py "body"), .f (py "segment"), .f (py "data"), .f k]

def opmStateVector (comments : List Val) : Val :=
  mkObj .StateVectorType [(py "comment", .list comments), (py "epoch", S (py "2000-01-01")), (py "x", mkVal .PositionType 1 .none)]

/-- **C42 is false.**  A comment of the state vector is read back as a comment of the enclosing data block. -/
theorem C42_refuted_moved : ∃ v, writeRead (mkOpm [(py "state_vector", opmStateVector [S (py "a")])]) = .ok v ∧
    v.at (opmDataPath (py "comment")) = some (.list [S (py "a")]) ∧
    v.at (opmDataPath (py "state_vector") ++ [.f (py "comment")]) = some (.list []) :=
  ok_of_check _ (by decide +kernel)

/-- **C42 is false.**  Of two comments of the data block the second is read back as a comment of the state vector. -/
theorem C42_refuted_second : ∃ v, writeRead (mkOpm [(py "comment", .list [S (py "a"), S (py "b")])]) = .ok v ∧
    v.at (opmDataPath (py "comment")) = some (.list [S (py "a")]) ∧
    v.at (opmDataPath (py "state_vector") ++ [.f (py "comment")]) = some (.list [S (py "b")]) :=
  ok_of_check _ (by decide +kernel)

/-- **C42**, what holds: with comments placed as `WellFormed` says, each is read back where it was. -/
theorem C42_partial (c : Cls) (hc : c = .Opm ∨ c = .Omm ∨ c = .Rdm ∨ c = .Cdm ∨ c = .Apm) (o : Val) (h : WellFormed c o) (path : List Step) :
    ∃ text v, kvnToString o = .ok text ∧ kvnFromString text = .ok v ∧ v.at path = o.at path := by
  rcases hc with rfl | rfl | rfl | rfl | rfl
  · obtain ⟨t, h1, h2⟩ := C21_opm o h; exact ⟨t, o, h1, h2, rfl⟩
  · obtain ⟨t, h1, h2⟩ := C22_omm o h; exact ⟨t, o, h1, h2, rfl⟩
  · obtain ⟨t, h1, h2⟩ := C23_rdm o h; exact ⟨t, o, h1, h2, rfl⟩
  · obtain ⟨t, h1, h2⟩ := C27_partial o h; exact ⟨t, o, h1, h2, rfl⟩
  · obtain ⟨t, h1, h2⟩ := C28_partial o h; exact ⟨t, o, h1, h2, rfl⟩

/-! ## C43: repeated blocks -/

/-- **C43 is false.**  A CDM whose second object has a keyword (`GRAVITY_MODEL`) that the first one lacks is written,
but the text cannot be read: `ParserError`.  With the segments in the other order it can. -/
theorem C43_refuted : writeRead (mkCdm [cdmSegment [], cdmSegment [(py "gravity_model", S (py "EGM-96"))]]) = .error .parserError ∧
    writeRead (mkCdm [cdmSegment [(py "gravity_model", S (py "EGM-96"))], cdmSegment []]) =
      .ok (mkCdm [cdmSegment [(py "gravity_model", S (py "EGM-96"))], cdmSegment []]) := by
  decide +kernel

end Ndm
