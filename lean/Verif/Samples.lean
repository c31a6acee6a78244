import Verif.ValEq

/-! # Sample texts and objects used by examples and counterexamples -/

namespace Ndm

/-- An instance of a class with some attributes set. -/
def mkObj (c : Cls) (kvs : List (Str × Val)) : Val :=
  match c.default with
  | .obj d vs => .obj d (kvs.foldl (fun a p => Val.setVar p.1 p.2 a) vs)
  | v => v

def S (s : Str) : Val := .str s
def D (i : Int) : Val := .dec (.fin (i < 0) i.natAbs 0)

/-- A value with a unit. -/
def mkVal (c : Cls) (i : Int) (units : Val) : Val := mkObj c [(py "value", D i), (py "units", units)]

def header : Val := mkObj .NdmHeader [(py "creation_date", S (py "2000-01-01")), (py "originator", S (py "X"))]

/-- An OPM with the given data attributes besides the state vector. -/
def mkOpm (more : List (Str × Val)) : Val :=
  let pos (i : Int) := mkVal .PositionType i (.enum .PositionUnits (py "km"))
  let vel (i : Int) := mkVal .VelocityType i (.enum .VelocityUnits (py "km/s"))
  mkObj .Opm [(py "header", header), (py "body", mkObj .OpmBody [(py "segment", mkObj .OpmSegment [
    (py "metadata", mkObj .OpmMetadata [(py "object_name", S (py "A")), (py "object_id", S (py "B")), (py "center_name", S (py "EARTH")),
      (py "ref_frame", S (py "GCRF")), (py "time_system", S (py "UTC"))]),
    (py "data", mkObj .OpmData ((py "state_vector", mkObj .StateVectorType [(py "epoch", S (py "2000-01-01")), (py "x", pos 1),
      (py "y", pos 2), (py "z", pos 3), (py "x_dot", vel 4), (py "y_dot", vel 5), (py "z_dot", vel 6)]) :: more))])])]

def mkUser (name value : Str) : Val :=
  mkObj .UserDefinedParameterType [(py "value", S value), (py "parameter", S name)]

def opmWithUser (ps : List Val) : Val :=
  mkOpm [(py "user_defined_parameters", mkObj .UserDefinedType [(py "user_defined", .list ps)])]

/-- The lines common to most sample texts. -/
def headText : Str := py "CREATION_DATE = 2000-01-01
ORIGINATOR = X
"

def opmBodyText : Str := headText ++ py "OBJECT_NAME = A
OBJECT_ID = B
CENTER_NAME = EARTH
REF_FRAME = GCRF
TIME_SYSTEM = UTC
EPOCH = 2000-01-01
X = 1 [km]
Y = 2 [km]
Z = 3 [km]
X_DOT = 4 [km/s]
Y_DOT = 5 [km/s]
Z_DOT = 6 [km/s]
"

def oemText (cov : Str) : Str := (py "CCSDS_OEM_VERS = 2.0
" ++ headText ++ py "META_START
OBJECT_NAME = A
OBJECT_ID = B
CENTER_NAME = EARTH
REF_FRAME = GCRF
TIME_SYSTEM = UTC
START_TIME = 2000-01-01
STOP_TIME = 2000-01-02
META_STOP
2000-01-01T00:00:00 1 2 3 4 5 6
COVARIANCE_START
EPOCH = 2000-01-01T00:00:00
" ++ cov ++ py "1
2 3
4 5 6
7 8 9 10
11 12 13 14 15
16 17 18 19 20 21
COVARIANCE_STOP
")

def aemText (type : Str) : Str := (py "CCSDS_AEM_VERS = 1.0
" ++ headText ++ py "META_START
OBJECT_NAME = A
OBJECT_ID = B
REF_FRAME_A = X
REF_FRAME_B = Y
ATTITUDE_DIR = A2B
TIME_SYSTEM = UTC
START_TIME = 2000-01-01
STOP_TIME = 2000-01-02
ATTITUDE_TYPE = QUATERNION
QUATERNION_TYPE = " ++ type ++ py "
META_STOP
DATA_START
2000-01-01T00:00:00 1 2 3 4
DATA_STOP
")

def apmText : Str := (py "CCSDS_APM_VERS = 1.0
" ++ headText ++ py "OBJECT_NAME = A
OBJECT_ID = B
TIME_SYSTEM = UTC
EPOCH = 2000-01-01
Q_FRAME_A = X
Q_FRAME_B = Y
Q_DIR = A2B
Q1 = 1
Q2 = 2
Q3 = 3
QC = 4
")

def mkTdm (obs : List Val) : Val :=
  mkObj .Tdm [(py "header", mkObj .TdmHeader [(py "creation_date", S (py "2000-01-01")), (py "originator", S (py "X"))]),
    (py "body", mkObj .TdmBody [(py "segment", .list [mkObj .TdmSegment [
      (py "metadata", mkObj .TdmMetadata [(py "time_system", S (py "UTC")), (py "participant_1", S (py "A"))]),
      (py "data", mkObj .TdmData [(py "observation", .list obs)])]])])]

/-- A segment of a CDM, with further metadata attributes. -/
def cdmSegment (more : List (Str × Val)) : Val :=
  mkObj .CdmSegment [
    (py "metadata", mkObj .CdmMetadata ([(py "object", .enum .ObjectType (py "OBJECT1")), (py "object_name", S (py "N")),
      (py "ref_frame", .enum .ReferenceFrameType (py "ITRF"))] ++ more)),
    (py "data", mkObj .CdmData [(py "state_vector", mkObj .CdmStateVectorType [(py "x", mkVal .CdmPositionType 1 .none)])])]

/-- A CDM with the given segments. -/
def mkCdm (segments : List Val) : Val :=
  mkObj .Cdm [(py "header", mkObj .CdmHeader [(py "originator", S (py "X"))]), (py "body", mkObj .CdmBody [
    (py "relative_metadata_data", mkObj .RelativeMetadataData [(py "tca", S (py "2000-01-01")),
      (py "miss_distance", mkVal .LengthType 7 (.enum .LengthUnits (py "m"))),
      (py "relative_state_vector", mkObj .RelativeStateVectorType [(py "relative_position_r", mkVal .LengthType 1 .none)]),
      (py "collision_probability", D 5)]),
    (py "segment", .list segments)])]

end Ndm
