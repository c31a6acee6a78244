import Verif.Py

/-! GENERATED by `/verif/tools/gen_schema.py` from `/repo/ccsds_ndm/models/ndmxml2/*.py`; do not edit.

The dataclass schema: every class and enumeration, with its fields in `__dataclass_fields__` order (inherited
fields first).  Each entry cites the file and lines it was read from.  Validation facets (`min_inclusive`,
`pattern`, `required`, ...) are dropped (`required` is in `SchemaFacets.lean`): neither this code base nor the `xsdata` parser it calls enforces them. -/

namespace Ndm

/-- The classes of `ccsds_ndm/models/ndmxml2` (dataclasses and enumerations). -/
inductive Cls where
  | AccUnits
  | AngleKeywordType
  | AngleRateKeywordType
  | AngleRateUnits
  | AngleUnits
  | AreaUnits
  | BallisticCoeffUnitsType
  | ControlledType
  | DayIntervalUnits
  | DisintegrationType
  | FrequencyUnits
  | GmUnits
  | ImpactUncertaintyType
  | Km2Units
  | Km2S2Units
  | Km2SUnits
  | LatLonUnits
  | LengthUnits
  | MassUnits
  | MomentUnits
  | Ms2Units
  | NdmHeader
  | ObjectDescriptionType
  | OemCovarianceMatrixAbstractType
  | OpmCovarianceMatrixAbstractType
  | PercentageUnits
  | PositionCovarianceUnits
  | PositionUnits
  | PositionVelocityCovarianceUnits
  | QuaternionDotUnits
  | QuaternionType
  | ReentryUncertaintyMethodType
  | RotDirectionType
  | RotseqType
  | TimeSystemType
  | TimeUnits
  | UserDefinedParameterType
  | VelocityCovarianceUnits
  | VelocityUnits
  | YesNoType
  | AccType
  | AltType
  | AngleRateType
  | AngleType
  | AreaType
  | BallisticCoeffType
  | DayIntervalType
  | DeltamassType
  | DistanceType
  | DurationType
  | FrequencyType
  | GmType
  | InclinationType
  | Km2Type
  | Km2S2Type
  | Km2SType
  | LatType
  | LengthType
  | LonType
  | MassType
  | MomentType
  | Ms2Type
  | PercentageType
  | PositionCovarianceType
  | PositionType
  | PositionVelocityCovarianceType
  | QuaternionDotType
  | RdmPositionType
  | RdmVelocityType
  | RotationAngleComponentType
  | RotationAngleComponentTypeold
  | RotationRateComponentType
  | RotationRateComponentTypeOld
  | UserDefinedType
  | VelocityCovarianceType
  | VelocityType
  | AtmosphericReentryParametersType
  | GroundImpactParametersType
  | OdParametersType
  | OemCovarianceMatrixType
  | OpmCovarianceMatrixType
  | QuaternionRateType
  | RdmSpacecraftParametersType
  | RotationAngleType
  | RotationRateType
  | SpacecraftParametersType
  | StateVectorAccType
  | StateVectorType
  | AemRateFrameType
  | AttitudeTypeType
  | QuaternionTypeType
  | AemMetadata
  | EulerAngleRateType
  | EulerAngleType
  | QuaternionDerivativeType
  | QuaternionEphemerisType
  | QuaternionEulerRateType
  | SpinNutationType
  | SpinType
  | AttitudeStateType
  | AemData
  | AemSegment
  | AemBody
  | AemType
  | ApmRateFrameType
  | TorqueUnits
  | ApmMetadata
  | AttSpacecraftParametersType
  | EulerElementsSpinType
  | EulerElementsThreeType
  | QuaternionStateType
  | TorqueType
  | AttManeuverParametersType
  | ApmData
  | ApmSegment
  | ApmBody
  | ApmType
  | CdmHeader
  | CovarianceMethodType
  | DvUnits
  | M2Units
  | M2KgUnits
  | M2S2Units
  | M2S3Units
  | M2S4Units
  | M2SUnits
  | M3KgUnits
  | M3Kgs2Units
  | M3KgsUnits
  | M4Kg2Units
  | ManeuverableType
  | ObjectType
  | ReferenceFrameType
  | ScreenVolumeFrameType
  | ScreenVolumeShapeType
  | WkgUnits
  | CdmMetadata
  | CdmPositionType
  | CdmVelocityType
  | DvType
  | M2Type
  | M2KgType
  | M2S2Type
  | M2S3Type
  | M2S4Type
  | M2SType
  | M3KgType
  | M3Kgs2Type
  | M3KgsType
  | M4Kg2Type
  | WkgType
  | AdditionalParametersType
  | CdmCovarianceMatrixType
  | CdmStateVectorType
  | RelativeStateVectorType
  | CdmData
  | RelativeMetadataData
  | CdmSegment
  | CdmBody
  | CdmType
  | OemMetadata
  | OemData
  | OemSegment
  | OemBody
  | OemType
  | BStarUnits
  | DRevUnits
  | DdRevUnits
  | OmmMetadata
  | RevUnits
  | BStarType
  | DRevType
  | DdRevType
  | RevType
  | MeanElementsType
  | TleParametersType
  | OmmData
  | OmmSegment
  | OmmBody
  | OmmType
  | OpmMetadata
  | KeplerianElementsType
  | ManeuverParametersType
  | OpmData
  | OpmSegment
  | OpmBody
  | OpmType
  | RdmHeader
  | RdmData
  | RdmMetadata
  | RdmSegment
  | RdmBody
  | RdmType
  | AngleTypeType
  | DataQualityType
  | IntegrationRefType
  | ModeType
  | RangeUnitsType
  | RangemodeType
  | RefFrameType
  | TdmHeader
  | TimetagRefType
  | TdmMetadata
  | TrackingDataObservationType
  | TdmData
  | TdmSegment
  | TdmBody
  | TdmType
  | NdmType
  | Aem
  | Apm
  | Cdm
  | Ndm
  | Oem
  | Omm
  | Opm
  | Rdm
  | Tdm
deriving DecidableEq, Repr

/-- How `xsdata` binds a field: `metadata["type"]` is `Element` / `Attribute`, or absent (element text). -/
inductive FKind where
  | elem | attr | text
deriving DecidableEq, Repr

/-- The type argument of `Optional[..]` / `List[..]` (`str`, `int`, `Decimal`, or a model class). -/
inductive FTy where
  | str | int | dec | cls (c : Cls)
deriving DecidableEq, Repr

/-- One dataclass field: python name, `metadata["name"]`, binding kind, type, `default_factory is list`, `init`. -/
structure Field where
  name : Str
  ccsds : Option Str
  kind : FKind
  ty : FTy
  isList : Bool
  init : Bool
deriving DecidableEq, Repr

/-- XML local name used by `xsdata`: `metadata["name"]` or, when absent, the python name. -/
def Field.xmlName (f : Field) : Str := f.ccsds.getD f.name

/-- `vars(clazz)["__dataclass_fields__"]`, in order; `[]` for enumerations. -/
def Cls.fields : Cls → List Field
  -- ndmxml2/ndmxml_2_0_0_common_2_0.py:110-140
  | .NdmHeader => [
      ⟨py "comment", some (py "COMMENT"), .elem, .str, true, true⟩,
      ⟨py "creation_date", some (py "CREATION_DATE"), .elem, .str, false, true⟩,
      ⟨py "originator", some (py "ORIGINATOR"), .elem, .str, false, true⟩]
  -- ndmxml2/ndmxml_2_0_0_common_2_0.py:159-188
  | .OemCovarianceMatrixAbstractType => [
      ⟨py "comment", some (py "COMMENT"), .elem, .str, true, true⟩,
      ⟨py "epoch", some (py "EPOCH"), .elem, .str, false, true⟩,
      ⟨py "cov_ref_frame", some (py "COV_REF_FRAME"), .elem, .str, false, true⟩]
  -- ndmxml2/ndmxml_2_0_0_common_2_0.py:192-211
  | .OpmCovarianceMatrixAbstractType => [
      ⟨py "comment", some (py "COMMENT"), .elem, .str, true, true⟩,
      ⟨py "cov_ref_frame", some (py "COV_REF_FRAME"), .elem, .str, false, true⟩]
  -- ndmxml2/ndmxml_2_0_0_common_2_0.py:235-282
  | .QuaternionType => [
      ⟨py "qc", some (py "QC"), .elem, .dec, false, true⟩,
      ⟨py "q1", some (py "Q1"), .elem, .dec, false, true⟩,
      ⟨py "q2", some (py "Q2"), .elem, .dec, false, true⟩,
      ⟨py "q3", some (py "Q3"), .elem, .dec, false, true⟩]
  -- ndmxml2/ndmxml_2_0_0_common_2_0.py:340-353
  | .UserDefinedParameterType => [
      ⟨py "value", none, .text, .str, false, true⟩,
      ⟨py "parameter", none, .attr, .str, false, true⟩]
  -- ndmxml2/ndmxml_2_0_0_common_2_0.py:372-384
  | .AccType => [
      ⟨py "value", none, .text, .dec, false, true⟩,
      ⟨py "units", none, .attr, (.cls .AccUnits), false, true⟩]
  -- ndmxml2/ndmxml_2_0_0_common_2_0.py:388-404
  | .AltType => [
      ⟨py "value", none, .text, .dec, false, true⟩,
      ⟨py "units", none, .attr, (.cls .LengthUnits), false, true⟩]
  -- ndmxml2/ndmxml_2_0_0_common_2_0.py:408-420
  | .AngleRateType => [
      ⟨py "value", none, .text, .dec, false, true⟩,
      ⟨py "units", none, .attr, (.cls .AngleRateUnits), false, true⟩]
  -- ndmxml2/ndmxml_2_0_0_common_2_0.py:424-440
  | .AngleType => [
      ⟨py "value", none, .text, .dec, false, true⟩,
      ⟨py "units", none, .attr, (.cls .AngleUnits), false, true⟩]
  -- ndmxml2/ndmxml_2_0_0_common_2_0.py:444-459
  | .AreaType => [
      ⟨py "value", none, .text, .dec, false, true⟩,
      ⟨py "units", none, .attr, (.cls .AreaUnits), false, true⟩]
  -- ndmxml2/ndmxml_2_0_0_common_2_0.py:463-478
  | .BallisticCoeffType => [
      ⟨py "value", none, .text, .dec, false, true⟩,
      ⟨py "units", none, .attr, (.cls .BallisticCoeffUnitsType), false, true⟩]
  -- ndmxml2/ndmxml_2_0_0_common_2_0.py:482-498
  | .DayIntervalType => [
      ⟨py "value", none, .text, .dec, false, true⟩,
      ⟨py "units", none, .attr, (.cls .DayIntervalUnits), false, true⟩]
  -- ndmxml2/ndmxml_2_0_0_common_2_0.py:502-517
  | .DeltamassType => [
      ⟨py "value", none, .text, .dec, false, true⟩,
      ⟨py "units", none, .attr, (.cls .MassUnits), false, true⟩]
  -- ndmxml2/ndmxml_2_0_0_common_2_0.py:521-533
  | .DistanceType => [
      ⟨py "value", none, .text, .dec, false, true⟩,
      ⟨py "units", none, .attr, (.cls .PositionUnits), false, true⟩]
  -- ndmxml2/ndmxml_2_0_0_common_2_0.py:537-552
  | .DurationType => [
      ⟨py "value", none, .text, .dec, false, true⟩,
      ⟨py "units", none, .attr, (.cls .TimeUnits), false, true⟩]
  -- ndmxml2/ndmxml_2_0_0_common_2_0.py:556-571
  | .FrequencyType => [
      ⟨py "value", none, .text, .dec, false, true⟩,
      ⟨py "units", none, .attr, (.cls .FrequencyUnits), false, true⟩]
  -- ndmxml2/ndmxml_2_0_0_common_2_0.py:575-590
  | .GmType => [
      ⟨py "value", none, .text, .dec, false, true⟩,
      ⟨py "units", none, .attr, (.cls .GmUnits), false, true⟩]
  -- ndmxml2/ndmxml_2_0_0_common_2_0.py:594-611
  | .InclinationType => [
      ⟨py "value", none, .text, .dec, false, true⟩,
      ⟨py "units", none, .attr, (.cls .AngleUnits), false, true⟩]
  -- ndmxml2/ndmxml_2_0_0_common_2_0.py:615-627
  | .Km2Type => [
      ⟨py "value", none, .text, .dec, false, true⟩,
      ⟨py "units", none, .attr, (.cls .Km2Units), false, true⟩]
  -- ndmxml2/ndmxml_2_0_0_common_2_0.py:631-643
  | .Km2S2Type => [
      ⟨py "value", none, .text, .dec, false, true⟩,
      ⟨py "units", none, .attr, (.cls .Km2S2Units), false, true⟩]
  -- ndmxml2/ndmxml_2_0_0_common_2_0.py:647-659
  | .Km2SType => [
      ⟨py "value", none, .text, .dec, false, true⟩,
      ⟨py "units", none, .attr, (.cls .Km2SUnits), false, true⟩]
  -- ndmxml2/ndmxml_2_0_0_common_2_0.py:663-680
  | .LatType => [
      ⟨py "value", none, .text, .dec, false, true⟩,
      ⟨py "units", none, .attr, (.cls .LatLonUnits), false, true⟩]
  -- ndmxml2/ndmxml_2_0_0_common_2_0.py:684-697
  | .LengthType => [
      ⟨py "value", none, .text, .dec, false, true⟩,
      ⟨py "units", none, .attr, (.cls .LengthUnits), false, true⟩]
  -- ndmxml2/ndmxml_2_0_0_common_2_0.py:701-718
  | .LonType => [
      ⟨py "value", none, .text, .dec, false, true⟩,
      ⟨py "units", none, .attr, (.cls .LatLonUnits), false, true⟩]
  -- ndmxml2/ndmxml_2_0_0_common_2_0.py:722-737
  | .MassType => [
      ⟨py "value", none, .text, .dec, false, true⟩,
      ⟨py "units", none, .attr, (.cls .MassUnits), false, true⟩]
  -- ndmxml2/ndmxml_2_0_0_common_2_0.py:741-753
  | .MomentType => [
      ⟨py "value", none, .text, .dec, false, true⟩,
      ⟨py "units", none, .attr, (.cls .MomentUnits), false, true⟩]
  -- ndmxml2/ndmxml_2_0_0_common_2_0.py:757-770
  | .Ms2Type => [
      ⟨py "value", none, .text, .dec, false, true⟩,
      ⟨py "units", none, .attr, (.cls .Ms2Units), false, true⟩]
  -- ndmxml2/ndmxml_2_0_0_common_2_0.py:774-791
  | .PercentageType => [
      ⟨py "value", none, .text, .dec, false, true⟩,
      ⟨py "units", none, .attr, (.cls .PercentageUnits), false, true⟩]
  -- ndmxml2/ndmxml_2_0_0_common_2_0.py:795-807
  | .PositionCovarianceType => [
      ⟨py "value", none, .text, .dec, false, true⟩,
      ⟨py "units", none, .attr, (.cls .PositionCovarianceUnits), false, true⟩]
  -- ndmxml2/ndmxml_2_0_0_common_2_0.py:811-823
  | .PositionType => [
      ⟨py "value", none, .text, .dec, false, true⟩,
      ⟨py "units", none, .attr, (.cls .PositionUnits), false, true⟩]
  -- ndmxml2/ndmxml_2_0_0_common_2_0.py:827-839
  | .PositionVelocityCovarianceType => [
      ⟨py "value", none, .text, .dec, false, true⟩,
      ⟨py "units", none, .attr, (.cls .PositionVelocityCovarianceUnits), false, true⟩]
  -- ndmxml2/ndmxml_2_0_0_common_2_0.py:843-855
  | .QuaternionDotType => [
      ⟨py "value", none, .text, .dec, false, true⟩,
      ⟨py "units", none, .attr, (.cls .QuaternionDotUnits), false, true⟩]
  -- ndmxml2/ndmxml_2_0_0_common_2_0.py:859-872
  | .RdmPositionType => [
      ⟨py "value", none, .text, .dec, false, true⟩,
      ⟨py "units", none, .attr, (.cls .PositionUnits), false, true⟩]
  -- ndmxml2/ndmxml_2_0_0_common_2_0.py:876-889
  | .RdmVelocityType => [
      ⟨py "value", none, .text, .dec, false, true⟩,
      ⟨py "units", none, .attr, (.cls .VelocityUnits), false, true⟩]
  -- ndmxml2/ndmxml_2_0_0_common_2_0.py:893-916
  | .RotationAngleComponentType => [
      ⟨py "value", none, .text, .dec, false, true⟩,
      ⟨py "angle", none, .attr, (.cls .AngleKeywordType), false, true⟩,
      ⟨py "units", none, .attr, (.cls .AngleUnits), false, true⟩]
  -- ndmxml2/ndmxml_2_0_0_common_2_0.py:920-945
  | .RotationAngleComponentTypeold => [
      ⟨py "units", none, .attr, (.cls .AngleUnits), false, true⟩,
      ⟨py "angle", none, .attr, (.cls .AngleKeywordType), false, true⟩,
      ⟨py "value", none, .attr, .dec, false, true⟩]
  -- ndmxml2/ndmxml_2_0_0_common_2_0.py:949-968
  | .RotationRateComponentType => [
      ⟨py "value", none, .text, .dec, false, true⟩,
      ⟨py "rate", none, .attr, (.cls .AngleRateKeywordType), false, true⟩,
      ⟨py "units", none, .attr, (.cls .AngleRateUnits), false, true⟩]
  -- ndmxml2/ndmxml_2_0_0_common_2_0.py:972-995
  | .RotationRateComponentTypeOld => [
      ⟨py "units", none, .attr, (.cls .AngleRateUnits), false, true⟩,
      ⟨py "rate", none, .attr, (.cls .AngleRateKeywordType), false, true⟩,
      ⟨py "value", none, .attr, .dec, false, true⟩]
  -- ndmxml2/ndmxml_2_0_0_common_2_0.py:999-1020
  | .UserDefinedType => [
      ⟨py "comment", some (py "COMMENT"), .elem, .str, true, true⟩,
      ⟨py "user_defined", some (py "USER_DEFINED"), .elem, (.cls .UserDefinedParameterType), true, true⟩]
  -- ndmxml2/ndmxml_2_0_0_common_2_0.py:1024-1036
  | .VelocityCovarianceType => [
      ⟨py "value", none, .text, .dec, false, true⟩,
      ⟨py "units", none, .attr, (.cls .VelocityCovarianceUnits), false, true⟩]
  -- ndmxml2/ndmxml_2_0_0_common_2_0.py:1040-1052
  | .VelocityType => [
      ⟨py "value", none, .text, .dec, false, true⟩,
      ⟨py "units", none, .attr, (.cls .VelocityUnits), false, true⟩]
  -- ndmxml2/ndmxml_2_0_0_common_2_0.py:1056-1136
  | .AtmosphericReentryParametersType => [
      ⟨py "comment", some (py "COMMENT"), .elem, .str, true, true⟩,
      ⟨py "orbit_lifetime", some (py "ORBIT_LIFETIME"), .elem, (.cls .DayIntervalType), false, true⟩,
      ⟨py "reentry_altitude", some (py "REENTRY_ALTITUDE"), .elem, (.cls .PositionType), false, true⟩,
      ⟨py "orbit_lifetime_window_start", some (py "ORBIT_LIFETIME_WINDOW_START"), .elem, (.cls .DayIntervalType), false, true⟩,
      ⟨py "orbit_lifetime_window_end", some (py "ORBIT_LIFETIME_WINDOW_END"), .elem, (.cls .DayIntervalType), false, true⟩,
      ⟨py "nominal_reentry_epoch", some (py "NOMINAL_REENTRY_EPOCH"), .elem, .str, false, true⟩,
      ⟨py "reentry_window_start", some (py "REENTRY_WINDOW_START"), .elem, .str, false, true⟩,
      ⟨py "reentry_window_end", some (py "REENTRY_WINDOW_END"), .elem, .str, false, true⟩,
      ⟨py "orbit_lifetime_confidence_level", some (py "ORBIT_LIFETIME_CONFIDENCE_LEVEL"), .elem, (.cls .PercentageType), false, true⟩]
  -- ndmxml2/ndmxml_2_0_0_common_2_0.py:1140-1404
  | .GroundImpactParametersType => [
      ⟨py "comment", some (py "COMMENT"), .elem, .str, true, true⟩,
      ⟨py "probability_of_impact", some (py "PROBABILITY_OF_IMPACT"), .elem, .dec, false, true⟩,
      ⟨py "probability_of_burn_up", some (py "PROBABILITY_OF_BURN_UP"), .elem, .dec, false, true⟩,
      ⟨py "probability_of_break_up", some (py "PROBABILITY_OF_BREAK_UP"), .elem, .dec, false, true⟩,
      ⟨py "probability_of_land_impact", some (py "PROBABILITY_OF_LAND_IMPACT"), .elem, .dec, false, true⟩,
      ⟨py "probability_of_casualty", some (py "PROBABILITY_OF_CASUALTY"), .elem, .dec, false, true⟩,
      ⟨py "nominal_impact_epoch", some (py "NOMINAL_IMPACT_EPOCH"), .elem, .str, false, true⟩,
      ⟨py "impact_window_start", some (py "IMPACT_WINDOW_START"), .elem, .str, false, true⟩,
      ⟨py "impact_window_end", some (py "IMPACT_WINDOW_END"), .elem, .str, false, true⟩,
      ⟨py "impact_ref_frame", some (py "IMPACT_REF_FRAME"), .elem, .str, false, true⟩,
      ⟨py "nominal_impact_lon", some (py "NOMINAL_IMPACT_LON"), .elem, (.cls .LonType), false, true⟩,
      ⟨py "nominal_impact_lat", some (py "NOMINAL_IMPACT_LAT"), .elem, (.cls .LatType), false, true⟩,
      ⟨py "nominal_impact_alt", some (py "NOMINAL_IMPACT_ALT"), .elem, (.cls .AltType), false, true⟩,
      ⟨py "impact_1_confidence", some (py "IMPACT_1_CONFIDENCE"), .elem, (.cls .PercentageType), false, true⟩,
      ⟨py "impact_1_start_lon", some (py "IMPACT_1_START_LON"), .elem, (.cls .LonType), false, true⟩,
      ⟨py "impact_1_start_lat", some (py "IMPACT_1_START_LAT"), .elem, (.cls .LatType), false, true⟩,
      ⟨py "impact_1_stop_lon", some (py "IMPACT_1_STOP_LON"), .elem, (.cls .LonType), false, true⟩,
      ⟨py "impact_1_stop_lat", some (py "IMPACT_1_STOP_LAT"), .elem, (.cls .LatType), false, true⟩,
      ⟨py "impact_1_cross_track", some (py "IMPACT_1_CROSS_TRACK"), .elem, (.cls .DistanceType), false, true⟩,
      ⟨py "impact_2_confidence", some (py "IMPACT_2_CONFIDENCE"), .elem, (.cls .PercentageType), false, true⟩,
      ⟨py "impact_2_start_lon", some (py "IMPACT_2_START_LON"), .elem, (.cls .LonType), false, true⟩,
      ⟨py "impact_2_start_lat", some (py "IMPACT_2_START_LAT"), .elem, (.cls .LatType), false, true⟩,
      ⟨py "impact_2_stop_lon", some (py "IMPACT_2_STOP_LON"), .elem, (.cls .LonType), false, true⟩,
      ⟨py "impact_2_stop_lat", some (py "IMPACT_2_STOP_LAT"), .elem, (.cls .LatType), false, true⟩,
      ⟨py "impact_2_cross_track", some (py "IMPACT_2_CROSS_TRACK"), .elem, (.cls .DistanceType), false, true⟩,
      ⟨py "impact_3_confidence", some (py "IMPACT_3_CONFIDENCE"), .elem, (.cls .PercentageType), false, true⟩,
      ⟨py "impact_3_start_lon", some (py "IMPACT_3_START_LON"), .elem, (.cls .LonType), false, true⟩,
      ⟨py "impact_3_start_lat", some (py "IMPACT_3_START_LAT"), .elem, (.cls .LatType), false, true⟩,
      ⟨py "impact_3_stop_lon", some (py "IMPACT_3_STOP_LON"), .elem, (.cls .LonType), false, true⟩,
      ⟨py "impact_3_stop_lat", some (py "IMPACT_3_STOP_LAT"), .elem, (.cls .LatType), false, true⟩,
      ⟨py "impact_3_cross_track", some (py "IMPACT_3_CROSS_TRACK"), .elem, (.cls .DistanceType), false, true⟩]
  -- ndmxml2/ndmxml_2_0_0_common_2_0.py:1408-1502
  | .OdParametersType => [
      ⟨py "comment", some (py "COMMENT"), .elem, .str, true, true⟩,
      ⟨py "time_lastob_start", some (py "TIME_LASTOB_START"), .elem, .str, false, true⟩,
      ⟨py "time_lastob_end", some (py "TIME_LASTOB_END"), .elem, .str, false, true⟩,
      ⟨py "recommended_od_span", some (py "RECOMMENDED_OD_SPAN"), .elem, (.cls .DayIntervalType), false, true⟩,
      ⟨py "actual_od_span", some (py "ACTUAL_OD_SPAN"), .elem, (.cls .DayIntervalType), false, true⟩,
      ⟨py "obs_available", some (py "OBS_AVAILABLE"), .elem, .int, false, true⟩,
      ⟨py "obs_used", some (py "OBS_USED"), .elem, .int, false, true⟩,
      ⟨py "tracks_available", some (py "TRACKS_AVAILABLE"), .elem, .int, false, true⟩,
      ⟨py "tracks_used", some (py "TRACKS_USED"), .elem, .int, false, true⟩,
      ⟨py "residuals_accepted", some (py "RESIDUALS_ACCEPTED"), .elem, (.cls .PercentageType), false, true⟩,
      ⟨py "weighted_rms", some (py "WEIGHTED_RMS"), .elem, .dec, false, true⟩]
  -- ndmxml2/ndmxml_2_0_0_common_2_0.py:1506-1698 (inherits OemCovarianceMatrixAbstractType)
  | .OemCovarianceMatrixType => [
      ⟨py "comment", some (py "COMMENT"), .elem, .str, true, true⟩,
      ⟨py "epoch", some (py "EPOCH"), .elem, .str, false, true⟩,
      ⟨py "cov_ref_frame", some (py "COV_REF_FRAME"), .elem, .str, false, true⟩,
      ⟨py "cx_x", some (py "CX_X"), .elem, (.cls .PositionCovarianceType), false, true⟩,
      ⟨py "cy_x", some (py "CY_X"), .elem, (.cls .PositionCovarianceType), false, true⟩,
      ⟨py "cy_y", some (py "CY_Y"), .elem, (.cls .PositionCovarianceType), false, true⟩,
      ⟨py "cz_x", some (py "CZ_X"), .elem, (.cls .PositionCovarianceType), false, true⟩,
      ⟨py "cz_y", some (py "CZ_Y"), .elem, (.cls .PositionCovarianceType), false, true⟩,
      ⟨py "cz_z", some (py "CZ_Z"), .elem, (.cls .PositionCovarianceType), false, true⟩,
      ⟨py "cx_dot_x", some (py "CX_DOT_X"), .elem, (.cls .PositionVelocityCovarianceType), false, true⟩,
      ⟨py "cx_dot_y", some (py "CX_DOT_Y"), .elem, (.cls .PositionVelocityCovarianceType), false, true⟩,
      ⟨py "cx_dot_z", some (py "CX_DOT_Z"), .elem, (.cls .PositionVelocityCovarianceType), false, true⟩,
      ⟨py "cx_dot_x_dot", some (py "CX_DOT_X_DOT"), .elem, (.cls .VelocityCovarianceType), false, true⟩,
      ⟨py "cy_dot_x", some (py "CY_DOT_X"), .elem, (.cls .PositionVelocityCovarianceType), false, true⟩,
      ⟨py "cy_dot_y", some (py "CY_DOT_Y"), .elem, (.cls .PositionVelocityCovarianceType), false, true⟩,
      ⟨py "cy_dot_z", some (py "CY_DOT_Z"), .elem, (.cls .PositionVelocityCovarianceType), false, true⟩,
      ⟨py "cy_dot_x_dot", some (py "CY_DOT_X_DOT"), .elem, (.cls .VelocityCovarianceType), false, true⟩,
      ⟨py "cy_dot_y_dot", some (py "CY_DOT_Y_DOT"), .elem, (.cls .VelocityCovarianceType), false, true⟩,
      ⟨py "cz_dot_x", some (py "CZ_DOT_X"), .elem, (.cls .PositionVelocityCovarianceType), false, true⟩,
      ⟨py "cz_dot_y", some (py "CZ_DOT_Y"), .elem, (.cls .PositionVelocityCovarianceType), false, true⟩,
      ⟨py "cz_dot_z", some (py "CZ_DOT_Z"), .elem, (.cls .PositionVelocityCovarianceType), false, true⟩,
      ⟨py "cz_dot_x_dot", some (py "CZ_DOT_X_DOT"), .elem, (.cls .VelocityCovarianceType), false, true⟩,
      ⟨py "cz_dot_y_dot", some (py "CZ_DOT_Y_DOT"), .elem, (.cls .VelocityCovarianceType), false, true⟩,
      ⟨py "cz_dot_z_dot", some (py "CZ_DOT_Z_DOT"), .elem, (.cls .VelocityCovarianceType), false, true⟩]
  -- ndmxml2/ndmxml_2_0_0_common_2_0.py:1702-1894 (inherits OpmCovarianceMatrixAbstractType)
  | .OpmCovarianceMatrixType => [
      ⟨py "comment", some (py "COMMENT"), .elem, .str, true, true⟩,
      ⟨py "cov_ref_frame", some (py "COV_REF_FRAME"), .elem, .str, false, true⟩,
      ⟨py "cx_x", some (py "CX_X"), .elem, (.cls .PositionCovarianceType), false, true⟩,
      ⟨py "cy_x", some (py "CY_X"), .elem, (.cls .PositionCovarianceType), false, true⟩,
      ⟨py "cy_y", some (py "CY_Y"), .elem, (.cls .PositionCovarianceType), false, true⟩,
      ⟨py "cz_x", some (py "CZ_X"), .elem, (.cls .PositionCovarianceType), false, true⟩,
      ⟨py "cz_y", some (py "CZ_Y"), .elem, (.cls .PositionCovarianceType), false, true⟩,
      ⟨py "cz_z", some (py "CZ_Z"), .elem, (.cls .PositionCovarianceType), false, true⟩,
      ⟨py "cx_dot_x", some (py "CX_DOT_X"), .elem, (.cls .PositionVelocityCovarianceType), false, true⟩,
      ⟨py "cx_dot_y", some (py "CX_DOT_Y"), .elem, (.cls .PositionVelocityCovarianceType), false, true⟩,
      ⟨py "cx_dot_z", some (py "CX_DOT_Z"), .elem, (.cls .PositionVelocityCovarianceType), false, true⟩,
      ⟨py "cx_dot_x_dot", some (py "CX_DOT_X_DOT"), .elem, (.cls .VelocityCovarianceType), false, true⟩,
      ⟨py "cy_dot_x", some (py "CY_DOT_X"), .elem, (.cls .PositionVelocityCovarianceType), false, true⟩,
      ⟨py "cy_dot_y", some (py "CY_DOT_Y"), .elem, (.cls .PositionVelocityCovarianceType), false, true⟩,
      ⟨py "cy_dot_z", some (py "CY_DOT_Z"), .elem, (.cls .PositionVelocityCovarianceType), false, true⟩,
      ⟨py "cy_dot_x_dot", some (py "CY_DOT_X_DOT"), .elem, (.cls .VelocityCovarianceType), false, true⟩,
      ⟨py "cy_dot_y_dot", some (py "CY_DOT_Y_DOT"), .elem, (.cls .VelocityCovarianceType), false, true⟩,
      ⟨py "cz_dot_x", some (py "CZ_DOT_X"), .elem, (.cls .PositionVelocityCovarianceType), false, true⟩,
      ⟨py "cz_dot_y", some (py "CZ_DOT_Y"), .elem, (.cls .PositionVelocityCovarianceType), false, true⟩,
      ⟨py "cz_dot_z", some (py "CZ_DOT_Z"), .elem, (.cls .PositionVelocityCovarianceType), false, true⟩,
      ⟨py "cz_dot_x_dot", some (py "CZ_DOT_X_DOT"), .elem, (.cls .VelocityCovarianceType), false, true⟩,
      ⟨py "cz_dot_y_dot", some (py "CZ_DOT_Y_DOT"), .elem, (.cls .VelocityCovarianceType), false, true⟩,
      ⟨py "cz_dot_z_dot", some (py "CZ_DOT_Z_DOT"), .elem, (.cls .VelocityCovarianceType), false, true⟩]
  -- ndmxml2/ndmxml_2_0_0_common_2_0.py:1898-1937
  | .QuaternionRateType => [
      ⟨py "qc_dot", some (py "QC_DOT"), .elem, (.cls .QuaternionDotType), false, true⟩,
      ⟨py "q1_dot", some (py "Q1_DOT"), .elem, (.cls .QuaternionDotType), false, true⟩,
      ⟨py "q2_dot", some (py "Q2_DOT"), .elem, (.cls .QuaternionDotType), false, true⟩,
      ⟨py "q3_dot", some (py "Q3_DOT"), .elem, (.cls .QuaternionDotType), false, true⟩]
  -- ndmxml2/ndmxml_2_0_0_common_2_0.py:1941-2034
  | .RdmSpacecraftParametersType => [
      ⟨py "comment", some (py "COMMENT"), .elem, .str, true, true⟩,
      ⟨py "wet_mass", some (py "WET_MASS"), .elem, (.cls .MassType), false, true⟩,
      ⟨py "dry_mass", some (py "DRY_MASS"), .elem, (.cls .MassType), false, true⟩,
      ⟨py "hazardous_substances", some (py "HAZARDOUS_SUBSTANCES"), .elem, .str, false, true⟩,
      ⟨py "solar_rad_area", some (py "SOLAR_RAD_AREA"), .elem, (.cls .AreaType), false, true⟩,
      ⟨py "solar_rad_coeff", some (py "SOLAR_RAD_COEFF"), .elem, .dec, false, true⟩,
      ⟨py "drag_area", some (py "DRAG_AREA"), .elem, (.cls .AreaType), false, true⟩,
      ⟨py "drag_coeff", some (py "DRAG_COEFF"), .elem, .dec, false, true⟩,
      ⟨py "rcs", some (py "RCS"), .elem, (.cls .AreaType), false, true⟩,
      ⟨py "ballistic_coeff", some (py "BALLISTIC_COEFF"), .elem, (.cls .BallisticCoeffType), false, true⟩,
      ⟨py "thrust_acceleration", some (py "THRUST_ACCELERATION"), .elem, (.cls .Ms2Type), false, true⟩]
  -- ndmxml2/ndmxml_2_0_0_common_2_0.py:2038-2065
  | .RotationAngleType => [
      ⟨py "rotation1", none, .elem, (.cls .RotationAngleComponentType), false, true⟩,
      ⟨py "rotation2", none, .elem, (.cls .RotationAngleComponentType), false, true⟩,
      ⟨py "rotation3", none, .elem, (.cls .RotationAngleComponentType), false, true⟩]
  -- ndmxml2/ndmxml_2_0_0_common_2_0.py:2069-2096
  | .RotationRateType => [
      ⟨py "rotation1", none, .elem, (.cls .RotationRateComponentType), false, true⟩,
      ⟨py "rotation2", none, .elem, (.cls .RotationRateComponentType), false, true⟩,
      ⟨py "rotation3", none, .elem, (.cls .RotationRateComponentType), false, true⟩]
  -- ndmxml2/ndmxml_2_0_0_common_2_0.py:2100-2158
  | .SpacecraftParametersType => [
      ⟨py "comment", some (py "COMMENT"), .elem, .str, true, true⟩,
      ⟨py "mass", some (py "MASS"), .elem, (.cls .MassType), false, true⟩,
      ⟨py "solar_rad_area", some (py "SOLAR_RAD_AREA"), .elem, (.cls .AreaType), false, true⟩,
      ⟨py "solar_rad_coeff", some (py "SOLAR_RAD_COEFF"), .elem, .dec, false, true⟩,
      ⟨py "drag_area", some (py "DRAG_AREA"), .elem, (.cls .AreaType), false, true⟩,
      ⟨py "drag_coeff", some (py "DRAG_COEFF"), .elem, .dec, false, true⟩]
  -- ndmxml2/ndmxml_2_0_0_common_2_0.py:2162-2253
  | .StateVectorAccType => [
      ⟨py "epoch", some (py "EPOCH"), .elem, .str, false, true⟩,
      ⟨py "x", some (py "X"), .elem, (.cls .PositionType), false, true⟩,
      ⟨py "y", some (py "Y"), .elem, (.cls .PositionType), false, true⟩,
      ⟨py "z", some (py "Z"), .elem, (.cls .PositionType), false, true⟩,
      ⟨py "x_dot", some (py "X_DOT"), .elem, (.cls .VelocityType), false, true⟩,
      ⟨py "y_dot", some (py "Y_DOT"), .elem, (.cls .VelocityType), false, true⟩,
      ⟨py "z_dot", some (py "Z_DOT"), .elem, (.cls .VelocityType), false, true⟩,
      ⟨py "x_ddot", some (py "X_DDOT"), .elem, (.cls .AccType), false, true⟩,
      ⟨py "y_ddot", some (py "Y_DDOT"), .elem, (.cls .AccType), false, true⟩,
      ⟨py "z_ddot", some (py "Z_DDOT"), .elem, (.cls .AccType), false, true⟩]
  -- ndmxml2/ndmxml_2_0_0_common_2_0.py:2257-2332
  | .StateVectorType => [
      ⟨py "comment", some (py "COMMENT"), .elem, .str, true, true⟩,
      ⟨py "epoch", some (py "EPOCH"), .elem, .str, false, true⟩,
      ⟨py "x", some (py "X"), .elem, (.cls .PositionType), false, true⟩,
      ⟨py "y", some (py "Y"), .elem, (.cls .PositionType), false, true⟩,
      ⟨py "z", some (py "Z"), .elem, (.cls .PositionType), false, true⟩,
      ⟨py "x_dot", some (py "X_DOT"), .elem, (.cls .VelocityType), false, true⟩,
      ⟨py "y_dot", some (py "Y_DOT"), .elem, (.cls .VelocityType), false, true⟩,
      ⟨py "z_dot", some (py "Z_DOT"), .elem, (.cls .VelocityType), false, true⟩]
  -- ndmxml2/ndmxml_2_0_0_aem_1_0.py:54-214
  | .AemMetadata => [
      ⟨py "comment", some (py "COMMENT"), .elem, .str, true, true⟩,
      ⟨py "object_name", some (py "OBJECT_NAME"), .elem, .str, false, true⟩,
      ⟨py "object_id", some (py "OBJECT_ID"), .elem, .str, false, true⟩,
      ⟨py "center_name", some (py "CENTER_NAME"), .elem, .str, false, true⟩,
      ⟨py "ref_frame_a", some (py "REF_FRAME_A"), .elem, .str, false, true⟩,
      ⟨py "ref_frame_b", some (py "REF_FRAME_B"), .elem, .str, false, true⟩,
      ⟨py "attitude_dir", some (py "ATTITUDE_DIR"), .elem, (.cls .RotDirectionType), false, true⟩,
      ⟨py "time_system", some (py "TIME_SYSTEM"), .elem, (.cls .TimeSystemType), false, true⟩,
      ⟨py "start_time", some (py "START_TIME"), .elem, .str, false, true⟩,
      ⟨py "useable_start_time", some (py "USEABLE_START_TIME"), .elem, .str, false, true⟩,
      ⟨py "useable_stop_time", some (py "USEABLE_STOP_TIME"), .elem, .str, false, true⟩,
      ⟨py "stop_time", some (py "STOP_TIME"), .elem, .str, false, true⟩,
      ⟨py "attitude_type", some (py "ATTITUDE_TYPE"), .elem, (.cls .AttitudeTypeType), false, true⟩,
      ⟨py "quaternion_type", some (py "QUATERNION_TYPE"), .elem, (.cls .QuaternionTypeType), false, true⟩,
      ⟨py "euler_rot_seq", some (py "EULER_ROT_SEQ"), .elem, (.cls .RotseqType), false, true⟩,
      ⟨py "rate_frame", some (py "RATE_FRAME"), .elem, (.cls .AemRateFrameType), false, true⟩,
      ⟨py "interpolation_method", some (py "INTERPOLATION_METHOD"), .elem, .str, false, true⟩,
      ⟨py "interpolation_degree", some (py "INTERPOLATION_DEGREE"), .elem, .int, false, true⟩]
  -- ndmxml2/ndmxml_2_0_0_aem_1_0.py:218-247
  | .EulerAngleRateType => [
      ⟨py "epoch", some (py "EPOCH"), .elem, .str, false, true⟩,
      ⟨py "rotation_angles", some (py "rotationAngles"), .elem, (.cls .RotationAngleType), false, true⟩,
      ⟨py "rotation_rates", some (py "rotationRates"), .elem, (.cls .RotationRateType), false, true⟩]
  -- ndmxml2/ndmxml_2_0_0_aem_1_0.py:251-272
  | .EulerAngleType => [
      ⟨py "epoch", some (py "EPOCH"), .elem, .str, false, true⟩,
      ⟨py "rotation_angles", some (py "rotationAngles"), .elem, (.cls .RotationAngleType), false, true⟩]
  -- ndmxml2/ndmxml_2_0_0_aem_1_0.py:276-306
  | .QuaternionDerivativeType => [
      ⟨py "epoch", some (py "EPOCH"), .elem, .str, false, true⟩,
      ⟨py "quaternion", none, .elem, (.cls .QuaternionType), false, true⟩,
      ⟨py "quaternion_rate", some (py "quaternionRate"), .elem, (.cls .QuaternionRateType), false, true⟩]
  -- ndmxml2/ndmxml_2_0_0_aem_1_0.py:310-331
  | .QuaternionEphemerisType => [
      ⟨py "epoch", some (py "EPOCH"), .elem, .str, false, true⟩,
      ⟨py "quaternion", none, .elem, (.cls .QuaternionType), false, true⟩]
  -- ndmxml2/ndmxml_2_0_0_aem_1_0.py:335-364
  | .QuaternionEulerRateType => [
      ⟨py "epoch", some (py "EPOCH"), .elem, .str, false, true⟩,
      ⟨py "quaternion", none, .elem, (.cls .QuaternionType), false, true⟩,
      ⟨py "rotation_rates", some (py "rotationRates"), .elem, (.cls .RotationRateType), false, true⟩]
  -- ndmxml2/ndmxml_2_0_0_aem_1_0.py:368-444
  | .SpinNutationType => [
      ⟨py "epoch", some (py "EPOCH"), .elem, .str, false, true⟩,
      ⟨py "spin_alpha", some (py "SPIN_ALPHA"), .elem, (.cls .AngleType), false, true⟩,
      ⟨py "spin_delta", some (py "SPIN_DELTA"), .elem, (.cls .AngleType), false, true⟩,
      ⟨py "spin_angle", some (py "SPIN_ANGLE"), .elem, (.cls .AngleType), false, true⟩,
      ⟨py "spin_angle_vel", some (py "SPIN_ANGLE_VEL"), .elem, (.cls .AngleRateType), false, true⟩,
      ⟨py "nutation", some (py "NUTATION"), .elem, (.cls .AngleType), false, true⟩,
      ⟨py "nutation_per", some (py "NUTATION_PER"), .elem, (.cls .DurationType), false, true⟩,
      ⟨py "nutation_phase", some (py "NUTATION_PHASE"), .elem, (.cls .AngleType), false, true⟩]
  -- ndmxml2/ndmxml_2_0_0_aem_1_0.py:448-497
  | .SpinType => [
      ⟨py "epoch", some (py "EPOCH"), .elem, .str, false, true⟩,
      ⟨py "spin_alpha", some (py "SPIN_ALPHA"), .elem, (.cls .AngleType), false, true⟩,
      ⟨py "spin_delta", some (py "SPIN_DELTA"), .elem, (.cls .AngleType), false, true⟩,
      ⟨py "spin_angle", some (py "SPIN_ANGLE"), .elem, (.cls .AngleType), false, true⟩,
      ⟨py "spin_angle_vel", some (py "SPIN_ANGLE_VEL"), .elem, (.cls .AngleRateType), false, true⟩]
  -- ndmxml2/ndmxml_2_0_0_aem_1_0.py:501-559
  | .AttitudeStateType => [
      ⟨py "quaternion_state", some (py "quaternionState"), .elem, (.cls .QuaternionEphemerisType), false, true⟩,
      ⟨py "quaternion_derivative", some (py "quaternionDerivative"), .elem, (.cls .QuaternionDerivativeType), false, true⟩,
      ⟨py "quaternion_euler_rate", some (py "quaternionEulerRate"), .elem, (.cls .QuaternionEulerRateType), false, true⟩,
      ⟨py "euler_angle", some (py "eulerAngle"), .elem, (.cls .EulerAngleType), false, true⟩,
      ⟨py "euler_angle_rate", some (py "eulerAngleRate"), .elem, (.cls .EulerAngleRateType), false, true⟩,
      ⟨py "spin", none, .elem, (.cls .SpinType), false, true⟩,
      ⟨py "spin_nutation", some (py "spinNutation"), .elem, (.cls .SpinNutationType), false, true⟩]
  -- ndmxml2/ndmxml_2_0_0_aem_1_0.py:563-583
  | .AemData => [
      ⟨py "comment", some (py "COMMENT"), .elem, .str, true, true⟩,
      ⟨py "attitude_state", some (py "attitudeState"), .elem, (.cls .AttitudeStateType), true, true⟩]
  -- ndmxml2/ndmxml_2_0_0_aem_1_0.py:587-606
  | .AemSegment => [
      ⟨py "metadata", none, .elem, (.cls .AemMetadata), false, true⟩,
      ⟨py "data", none, .elem, (.cls .AemData), false, true⟩]
  -- ndmxml2/ndmxml_2_0_0_aem_1_0.py:610-621
  | .AemBody => [
      ⟨py "segment", none, .elem, (.cls .AemSegment), true, true⟩]
  -- ndmxml2/ndmxml_2_0_0_aem_1_0.py:625-660
  | .AemType => [
      ⟨py "header", none, .elem, (.cls .NdmHeader), false, true⟩,
      ⟨py "body", none, .elem, (.cls .AemBody), false, true⟩,
      ⟨py "id", none, .attr, .str, false, false⟩,
      ⟨py "version", none, .attr, .str, false, false⟩]
  -- ndmxml2/ndmxml_2_0_0_apm_1_0.py:34-80
  | .ApmMetadata => [
      ⟨py "comment", some (py "COMMENT"), .elem, .str, true, true⟩,
      ⟨py "object_name", some (py "OBJECT_NAME"), .elem, .str, false, true⟩,
      ⟨py "object_id", some (py "OBJECT_ID"), .elem, .str, false, true⟩,
      ⟨py "center_name", some (py "CENTER_NAME"), .elem, .str, false, true⟩,
      ⟨py "time_system", some (py "TIME_SYSTEM"), .elem, (.cls .TimeSystemType), false, true⟩]
  -- ndmxml2/ndmxml_2_0_0_apm_1_0.py:84-157
  | .AttSpacecraftParametersType => [
      ⟨py "comment", some (py "COMMENT"), .elem, .str, true, true⟩,
      ⟨py "inertia_ref_frame", some (py "INERTIA_REF_FRAME"), .elem, .str, false, true⟩,
      ⟨py "i11", some (py "I11"), .elem, (.cls .MomentType), false, true⟩,
      ⟨py "i22", some (py "I22"), .elem, (.cls .MomentType), false, true⟩,
      ⟨py "i33", some (py "I33"), .elem, (.cls .MomentType), false, true⟩,
      ⟨py "i12", some (py "I12"), .elem, (.cls .MomentType), false, true⟩,
      ⟨py "i13", some (py "I13"), .elem, (.cls .MomentType), false, true⟩,
      ⟨py "i23", some (py "I23"), .elem, (.cls .MomentType), false, true⟩]
  -- ndmxml2/ndmxml_2_0_0_apm_1_0.py:161-254
  | .EulerElementsSpinType => [
      ⟨py "comment", some (py "COMMENT"), .elem, .str, true, true⟩,
      ⟨py "spin_frame_a", some (py "SPIN_FRAME_A"), .elem, .str, false, true⟩,
      ⟨py "spin_frame_b", some (py "SPIN_FRAME_B"), .elem, .str, false, true⟩,
      ⟨py "spin_dir", some (py "SPIN_DIR"), .elem, (.cls .RotDirectionType), false, true⟩,
      ⟨py "spin_alpha", some (py "SPIN_ALPHA"), .elem, (.cls .AngleType), false, true⟩,
      ⟨py "spin_delta", some (py "SPIN_DELTA"), .elem, (.cls .AngleType), false, true⟩,
      ⟨py "spin_angle", some (py "SPIN_ANGLE"), .elem, (.cls .AngleType), false, true⟩,
      ⟨py "spin_angle_vel", some (py "SPIN_ANGLE_VEL"), .elem, (.cls .AngleRateType), false, true⟩,
      ⟨py "nutation", some (py "NUTATION"), .elem, (.cls .AngleType), false, true⟩,
      ⟨py "nutation_per", some (py "NUTATION_PER"), .elem, (.cls .DurationType), false, true⟩,
      ⟨py "nutation_phase", some (py "NUTATION_PHASE"), .elem, (.cls .AngleType), false, true⟩]
  -- ndmxml2/ndmxml_2_0_0_apm_1_0.py:258-325
  | .EulerElementsThreeType => [
      ⟨py "comment", some (py "COMMENT"), .elem, .str, true, true⟩,
      ⟨py "euler_frame_a", some (py "EULER_FRAME_A"), .elem, .str, false, true⟩,
      ⟨py "euler_frame_b", some (py "EULER_FRAME_B"), .elem, .str, false, true⟩,
      ⟨py "euler_dir", some (py "EULER_DIR"), .elem, (.cls .RotDirectionType), false, true⟩,
      ⟨py "euler_rot_seq", some (py "EULER_ROT_SEQ"), .elem, (.cls .RotseqType), false, true⟩,
      ⟨py "rate_frame", some (py "RATE_FRAME"), .elem, (.cls .ApmRateFrameType), false, true⟩,
      ⟨py "rotation_angles", some (py "rotationAngles"), .elem, (.cls .RotationAngleType), false, true⟩,
      ⟨py "rotation_rates", some (py "rotationRates"), .elem, (.cls .RotationRateType), false, true⟩]
  -- ndmxml2/ndmxml_2_0_0_apm_1_0.py:329-393
  | .QuaternionStateType => [
      ⟨py "comment", some (py "COMMENT"), .elem, .str, true, true⟩,
      ⟨py "epoch", some (py "EPOCH"), .elem, .str, false, true⟩,
      ⟨py "q_frame_a", some (py "Q_FRAME_A"), .elem, .str, false, true⟩,
      ⟨py "q_frame_b", some (py "Q_FRAME_B"), .elem, .str, false, true⟩,
      ⟨py "q_dir", some (py "Q_DIR"), .elem, (.cls .RotDirectionType), false, true⟩,
      ⟨py "quaternion", none, .elem, (.cls .QuaternionType), false, true⟩,
      ⟨py "quaternion_rate", some (py "quaternionRate"), .elem, (.cls .QuaternionRateType), false, true⟩]
  -- ndmxml2/ndmxml_2_0_0_apm_1_0.py:397-409
  | .TorqueType => [
      ⟨py "value", none, .text, .dec, false, true⟩,
      ⟨py "units", none, .attr, (.cls .TorqueUnits), false, true⟩]
  -- ndmxml2/ndmxml_2_0_0_apm_1_0.py:413-479
  | .AttManeuverParametersType => [
      ⟨py "comment", some (py "COMMENT"), .elem, .str, true, true⟩,
      ⟨py "man_epoch_start", some (py "MAN_EPOCH_START"), .elem, .str, false, true⟩,
      ⟨py "man_duration", some (py "MAN_DURATION"), .elem, (.cls .DurationType), false, true⟩,
      ⟨py "man_ref_frame", some (py "MAN_REF_FRAME"), .elem, .str, false, true⟩,
      ⟨py "man_tor_1", some (py "MAN_TOR_1"), .elem, (.cls .TorqueType), false, true⟩,
      ⟨py "man_tor_2", some (py "MAN_TOR_2"), .elem, (.cls .TorqueType), false, true⟩,
      ⟨py "man_tor_3", some (py "MAN_TOR_3"), .elem, (.cls .TorqueType), false, true⟩]
  -- ndmxml2/ndmxml_2_0_0_apm_1_0.py:483-535
  | .ApmData => [
      ⟨py "comment", some (py "COMMENT"), .elem, .str, true, true⟩,
      ⟨py "quaternion_state", some (py "quaternionState"), .elem, (.cls .QuaternionStateType), false, true⟩,
      ⟨py "euler_elements_three", some (py "eulerElementsThree"), .elem, (.cls .EulerElementsThreeType), false, true⟩,
      ⟨py "euler_elements_spin", some (py "eulerElementsSpin"), .elem, (.cls .EulerElementsSpinType), false, true⟩,
      ⟨py "spacecraft_parameters", some (py "spacecraftParameters"), .elem, (.cls .AttSpacecraftParametersType), false, true⟩,
      ⟨py "maneuver_parameters", some (py "maneuverParameters"), .elem, (.cls .AttManeuverParametersType), true, true⟩]
  -- ndmxml2/ndmxml_2_0_0_apm_1_0.py:539-558
  | .ApmSegment => [
      ⟨py "metadata", none, .elem, (.cls .ApmMetadata), false, true⟩,
      ⟨py "data", none, .elem, (.cls .ApmData), false, true⟩]
  -- ndmxml2/ndmxml_2_0_0_apm_1_0.py:562-573
  | .ApmBody => [
      ⟨py "segment", none, .elem, (.cls .ApmSegment), false, true⟩]
  -- ndmxml2/ndmxml_2_0_0_apm_1_0.py:577-612
  | .ApmType => [
      ⟨py "header", none, .elem, (.cls .NdmHeader), false, true⟩,
      ⟨py "body", none, .elem, (.cls .ApmBody), false, true⟩,
      ⟨py "id", none, .attr, .str, false, false⟩,
      ⟨py "version", none, .attr, .str, false, false⟩]
  -- ndmxml2/ndmxml_2_0_0_cdm_1_0.py:22-69
  | .CdmHeader => [
      ⟨py "comment", some (py "COMMENT"), .elem, .str, true, true⟩,
      ⟨py "creation_date", some (py "CREATION_DATE"), .elem, .str, false, true⟩,
      ⟨py "originator", some (py "ORIGINATOR"), .elem, .str, false, true⟩,
      ⟨py "message_for", some (py "MESSAGE_FOR"), .elem, .str, false, true⟩,
      ⟨py "message_id", some (py "MESSAGE_ID"), .elem, .str, false, true⟩]
  -- ndmxml2/ndmxml_2_0_0_cdm_1_0.py:167-355
  | .CdmMetadata => [
      ⟨py "comment", some (py "COMMENT"), .elem, .str, true, true⟩,
      ⟨py "object", some (py "OBJECT"), .elem, (.cls .ObjectType), false, true⟩,
      ⟨py "object_designator", some (py "OBJECT_DESIGNATOR"), .elem, .str, false, true⟩,
      ⟨py "catalog_name", some (py "CATALOG_NAME"), .elem, .str, false, true⟩,
      ⟨py "object_name", some (py "OBJECT_NAME"), .elem, .str, false, true⟩,
      ⟨py "international_designator", some (py "INTERNATIONAL_DESIGNATOR"), .elem, .str, false, true⟩,
      ⟨py "object_type", some (py "OBJECT_TYPE"), .elem, (.cls .ObjectDescriptionType), false, true⟩,
      ⟨py "operator_contact_position", some (py "OPERATOR_CONTACT_POSITION"), .elem, .str, false, true⟩,
      ⟨py "operator_organization", some (py "OPERATOR_ORGANIZATION"), .elem, .str, false, true⟩,
      ⟨py "operator_phone", some (py "OPERATOR_PHONE"), .elem, .str, false, true⟩,
      ⟨py "operator_email", some (py "OPERATOR_EMAIL"), .elem, .str, false, true⟩,
      ⟨py "ephemeris_name", some (py "EPHEMERIS_NAME"), .elem, .str, false, true⟩,
      ⟨py "covariance_method", some (py "COVARIANCE_METHOD"), .elem, (.cls .CovarianceMethodType), false, true⟩,
      ⟨py "maneuverable", some (py "MANEUVERABLE"), .elem, (.cls .ManeuverableType), false, true⟩,
      ⟨py "orbit_center", some (py "ORBIT_CENTER"), .elem, .str, false, true⟩,
      ⟨py "ref_frame", some (py "REF_FRAME"), .elem, (.cls .ReferenceFrameType), false, true⟩,
      ⟨py "gravity_model", some (py "GRAVITY_MODEL"), .elem, .str, false, true⟩,
      ⟨py "atmospheric_model", some (py "ATMOSPHERIC_MODEL"), .elem, .str, false, true⟩,
      ⟨py "n_body_perturbations", some (py "N_BODY_PERTURBATIONS"), .elem, .str, false, true⟩,
      ⟨py "solar_rad_pressure", some (py "SOLAR_RAD_PRESSURE"), .elem, (.cls .YesNoType), false, true⟩,
      ⟨py "earth_tides", some (py "EARTH_TIDES"), .elem, (.cls .YesNoType), false, true⟩,
      ⟨py "intrack_thrust", some (py "INTRACK_THRUST"), .elem, (.cls .YesNoType), false, true⟩]
  -- ndmxml2/ndmxml_2_0_0_cdm_1_0.py:359-372
  | .CdmPositionType => [
      ⟨py "value", none, .text, .dec, false, true⟩,
      ⟨py "units", none, .attr, (.cls .PositionUnits), false, true⟩]
  -- ndmxml2/ndmxml_2_0_0_cdm_1_0.py:376-389
  | .CdmVelocityType => [
      ⟨py "value", none, .text, .dec, false, true⟩,
      ⟨py "units", none, .attr, (.cls .VelocityUnits), false, true⟩]
  -- ndmxml2/ndmxml_2_0_0_cdm_1_0.py:393-406
  | .DvType => [
      ⟨py "value", none, .text, .dec, false, true⟩,
      ⟨py "units", none, .attr, (.cls .DvUnits), false, true⟩]
  -- ndmxml2/ndmxml_2_0_0_cdm_1_0.py:410-423
  | .M2Type => [
      ⟨py "value", none, .text, .dec, false, true⟩,
      ⟨py "units", none, .attr, (.cls .M2Units), false, true⟩]
  -- ndmxml2/ndmxml_2_0_0_cdm_1_0.py:427-443
  | .M2KgType => [
      ⟨py "value", none, .text, .dec, false, true⟩,
      ⟨py "units", none, .attr, (.cls .M2KgUnits), false, true⟩]
  -- ndmxml2/ndmxml_2_0_0_cdm_1_0.py:447-460
  | .M2S2Type => [
      ⟨py "value", none, .text, .dec, false, true⟩,
      ⟨py "units", none, .attr, (.cls .M2S2Units), false, true⟩]
  -- ndmxml2/ndmxml_2_0_0_cdm_1_0.py:464-477
  | .M2S3Type => [
      ⟨py "value", none, .text, .dec, false, true⟩,
      ⟨py "units", none, .attr, (.cls .M2S3Units), false, true⟩]
  -- ndmxml2/ndmxml_2_0_0_cdm_1_0.py:481-494
  | .M2S4Type => [
      ⟨py "value", none, .text, .dec, false, true⟩,
      ⟨py "units", none, .attr, (.cls .M2S4Units), false, true⟩]
  -- ndmxml2/ndmxml_2_0_0_cdm_1_0.py:498-511
  | .M2SType => [
      ⟨py "value", none, .text, .dec, false, true⟩,
      ⟨py "units", none, .attr, (.cls .M2SUnits), false, true⟩]
  -- ndmxml2/ndmxml_2_0_0_cdm_1_0.py:515-528
  | .M3KgType => [
      ⟨py "value", none, .text, .dec, false, true⟩,
      ⟨py "units", none, .attr, (.cls .M3KgUnits), false, true⟩]
  -- ndmxml2/ndmxml_2_0_0_cdm_1_0.py:532-545
  | .M3Kgs2Type => [
      ⟨py "value", none, .text, .dec, false, true⟩,
      ⟨py "units", none, .attr, (.cls .M3Kgs2Units), false, true⟩]
  -- ndmxml2/ndmxml_2_0_0_cdm_1_0.py:549-562
  | .M3KgsType => [
      ⟨py "value", none, .text, .dec, false, true⟩,
      ⟨py "units", none, .attr, (.cls .M3KgsUnits), false, true⟩]
  -- ndmxml2/ndmxml_2_0_0_cdm_1_0.py:566-579
  | .M4Kg2Type => [
      ⟨py "value", none, .text, .dec, false, true⟩,
      ⟨py "units", none, .attr, (.cls .M4Kg2Units), false, true⟩]
  -- ndmxml2/ndmxml_2_0_0_cdm_1_0.py:583-599
  | .WkgType => [
      ⟨py "value", none, .text, .dec, false, true⟩,
      ⟨py "units", none, .attr, (.cls .WkgUnits), false, true⟩]
  -- ndmxml2/ndmxml_2_0_0_cdm_1_0.py:603-678
  | .AdditionalParametersType => [
      ⟨py "comment", some (py "COMMENT"), .elem, .str, true, true⟩,
      ⟨py "area_pc", some (py "AREA_PC"), .elem, (.cls .AreaType), false, true⟩,
      ⟨py "area_drg", some (py "AREA_DRG"), .elem, (.cls .AreaType), false, true⟩,
      ⟨py "area_srp", some (py "AREA_SRP"), .elem, (.cls .AreaType), false, true⟩,
      ⟨py "mass", some (py "MASS"), .elem, (.cls .MassType), false, true⟩,
      ⟨py "cd_area_over_mass", some (py "CD_AREA_OVER_MASS"), .elem, (.cls .M2KgType), false, true⟩,
      ⟨py "cr_area_over_mass", some (py "CR_AREA_OVER_MASS"), .elem, (.cls .M2KgType), false, true⟩,
      ⟨py "thrust_acceleration", some (py "THRUST_ACCELERATION"), .elem, (.cls .Ms2Type), false, true⟩,
      ⟨py "sedr", some (py "SEDR"), .elem, (.cls .WkgType), false, true⟩]
  -- ndmxml2/ndmxml_2_0_0_cdm_1_0.py:682-1074
  | .CdmCovarianceMatrixType => [
      ⟨py "comment", some (py "COMMENT"), .elem, .str, true, true⟩,
      ⟨py "cr_r", some (py "CR_R"), .elem, (.cls .M2Type), false, true⟩,
      ⟨py "ct_r", some (py "CT_R"), .elem, (.cls .M2Type), false, true⟩,
      ⟨py "ct_t", some (py "CT_T"), .elem, (.cls .M2Type), false, true⟩,
      ⟨py "cn_r", some (py "CN_R"), .elem, (.cls .M2Type), false, true⟩,
      ⟨py "cn_t", some (py "CN_T"), .elem, (.cls .M2Type), false, true⟩,
      ⟨py "cn_n", some (py "CN_N"), .elem, (.cls .M2Type), false, true⟩,
      ⟨py "crdot_r", some (py "CRDOT_R"), .elem, (.cls .M2SType), false, true⟩,
      ⟨py "crdot_t", some (py "CRDOT_T"), .elem, (.cls .M2SType), false, true⟩,
      ⟨py "crdot_n", some (py "CRDOT_N"), .elem, (.cls .M2SType), false, true⟩,
      ⟨py "crdot_rdot", some (py "CRDOT_RDOT"), .elem, (.cls .M2S2Type), false, true⟩,
      ⟨py "ctdot_r", some (py "CTDOT_R"), .elem, (.cls .M2SType), false, true⟩,
      ⟨py "ctdot_t", some (py "CTDOT_T"), .elem, (.cls .M2SType), false, true⟩,
      ⟨py "ctdot_n", some (py "CTDOT_N"), .elem, (.cls .M2SType), false, true⟩,
      ⟨py "ctdot_rdot", some (py "CTDOT_RDOT"), .elem, (.cls .M2S2Type), false, true⟩,
      ⟨py "ctdot_tdot", some (py "CTDOT_TDOT"), .elem, (.cls .M2S2Type), false, true⟩,
      ⟨py "cndot_r", some (py "CNDOT_R"), .elem, (.cls .M2SType), false, true⟩,
      ⟨py "cndot_t", some (py "CNDOT_T"), .elem, (.cls .M2SType), false, true⟩,
      ⟨py "cndot_n", some (py "CNDOT_N"), .elem, (.cls .M2SType), false, true⟩,
      ⟨py "cndot_rdot", some (py "CNDOT_RDOT"), .elem, (.cls .M2S2Type), false, true⟩,
      ⟨py "cndot_tdot", some (py "CNDOT_TDOT"), .elem, (.cls .M2S2Type), false, true⟩,
      ⟨py "cndot_ndot", some (py "CNDOT_NDOT"), .elem, (.cls .M2S2Type), false, true⟩,
      ⟨py "cdrg_r", some (py "CDRG_R"), .elem, (.cls .M3KgType), false, true⟩,
      ⟨py "cdrg_t", some (py "CDRG_T"), .elem, (.cls .M3KgType), false, true⟩,
      ⟨py "cdrg_n", some (py "CDRG_N"), .elem, (.cls .M3KgType), false, true⟩,
      ⟨py "cdrg_rdot", some (py "CDRG_RDOT"), .elem, (.cls .M3KgsType), false, true⟩,
      ⟨py "cdrg_tdot", some (py "CDRG_TDOT"), .elem, (.cls .M3KgsType), false, true⟩,
      ⟨py "cdrg_ndot", some (py "CDRG_NDOT"), .elem, (.cls .M3KgsType), false, true⟩,
      ⟨py "cdrg_drg", some (py "CDRG_DRG"), .elem, (.cls .M4Kg2Type), false, true⟩,
      ⟨py "csrp_r", some (py "CSRP_R"), .elem, (.cls .M3KgType), false, true⟩,
      ⟨py "csrp_t", some (py "CSRP_T"), .elem, (.cls .M3KgType), false, true⟩,
      ⟨py "csrp_n", some (py "CSRP_N"), .elem, (.cls .M3KgType), false, true⟩,
      ⟨py "csrp_rdot", some (py "CSRP_RDOT"), .elem, (.cls .M3KgsType), false, true⟩,
      ⟨py "csrp_tdot", some (py "CSRP_TDOT"), .elem, (.cls .M3KgsType), false, true⟩,
      ⟨py "csrp_ndot", some (py "CSRP_NDOT"), .elem, (.cls .M3KgsType), false, true⟩,
      ⟨py "csrp_drg", some (py "CSRP_DRG"), .elem, (.cls .M4Kg2Type), false, true⟩,
      ⟨py "csrp_srp", some (py "CSRP_SRP"), .elem, (.cls .M4Kg2Type), false, true⟩,
      ⟨py "cthr_r", some (py "CTHR_R"), .elem, (.cls .M2S2Type), false, true⟩,
      ⟨py "cthr_t", some (py "CTHR_T"), .elem, (.cls .M2S2Type), false, true⟩,
      ⟨py "cthr_n", some (py "CTHR_N"), .elem, (.cls .M2S2Type), false, true⟩,
      ⟨py "cthr_rdot", some (py "CTHR_RDOT"), .elem, (.cls .M2S3Type), false, true⟩,
      ⟨py "cthr_tdot", some (py "CTHR_TDOT"), .elem, (.cls .M2S3Type), false, true⟩,
      ⟨py "cthr_ndot", some (py "CTHR_NDOT"), .elem, (.cls .M2S3Type), false, true⟩,
      ⟨py "cthr_drg", some (py "CTHR_DRG"), .elem, (.cls .M3Kgs2Type), false, true⟩,
      ⟨py "cthr_srp", some (py "CTHR_SRP"), .elem, (.cls .M3Kgs2Type), false, true⟩,
      ⟨py "cthr_thr", some (py "CTHR_THR"), .elem, (.cls .M2S4Type), false, true⟩]
  -- ndmxml2/ndmxml_2_0_0_cdm_1_0.py:1078-1143
  | .CdmStateVectorType => [
      ⟨py "comment", some (py "COMMENT"), .elem, .str, true, true⟩,
      ⟨py "x", some (py "X"), .elem, (.cls .CdmPositionType), false, true⟩,
      ⟨py "y", some (py "Y"), .elem, (.cls .CdmPositionType), false, true⟩,
      ⟨py "z", some (py "Z"), .elem, (.cls .CdmPositionType), false, true⟩,
      ⟨py "x_dot", some (py "X_DOT"), .elem, (.cls .CdmVelocityType), false, true⟩,
      ⟨py "y_dot", some (py "Y_DOT"), .elem, (.cls .CdmVelocityType), false, true⟩,
      ⟨py "z_dot", some (py "Z_DOT"), .elem, (.cls .CdmVelocityType), false, true⟩]
  -- ndmxml2/ndmxml_2_0_0_cdm_1_0.py:1147-1204
  | .RelativeStateVectorType => [
      ⟨py "relative_position_r", some (py "RELATIVE_POSITION_R"), .elem, (.cls .LengthType), false, true⟩,
      ⟨py "relative_position_t", some (py "RELATIVE_POSITION_T"), .elem, (.cls .LengthType), false, true⟩,
      ⟨py "relative_position_n", some (py "RELATIVE_POSITION_N"), .elem, (.cls .LengthType), false, true⟩,
      ⟨py "relative_velocity_r", some (py "RELATIVE_VELOCITY_R"), .elem, (.cls .DvType), false, true⟩,
      ⟨py "relative_velocity_t", some (py "RELATIVE_VELOCITY_T"), .elem, (.cls .DvType), false, true⟩,
      ⟨py "relative_velocity_n", some (py "RELATIVE_VELOCITY_N"), .elem, (.cls .DvType), false, true⟩]
  -- ndmxml2/ndmxml_2_0_0_cdm_1_0.py:1208-1253
  | .CdmData => [
      ⟨py "comment", some (py "COMMENT"), .elem, .str, true, true⟩,
      ⟨py "od_parameters", some (py "odParameters"), .elem, (.cls .OdParametersType), false, true⟩,
      ⟨py "additional_parameters", some (py "additionalParameters"), .elem, (.cls .AdditionalParametersType), false, true⟩,
      ⟨py "state_vector", some (py "stateVector"), .elem, (.cls .CdmStateVectorType), false, true⟩,
      ⟨py "covariance_matrix", some (py "covarianceMatrix"), .elem, (.cls .CdmCovarianceMatrixType), false, true⟩]
  -- ndmxml2/ndmxml_2_0_0_cdm_1_0.py:1257-1397
  | .RelativeMetadataData => [
      ⟨py "comment", some (py "COMMENT"), .elem, .str, true, true⟩,
      ⟨py "tca", some (py "TCA"), .elem, .str, false, true⟩,
      ⟨py "miss_distance", some (py "MISS_DISTANCE"), .elem, (.cls .LengthType), false, true⟩,
      ⟨py "relative_speed", some (py "RELATIVE_SPEED"), .elem, (.cls .DvType), false, true⟩,
      ⟨py "relative_state_vector", some (py "relativeStateVector"), .elem, (.cls .RelativeStateVectorType), false, true⟩,
      ⟨py "start_screen_period", some (py "START_SCREEN_PERIOD"), .elem, .str, false, true⟩,
      ⟨py "stop_screen_period", some (py "STOP_SCREEN_PERIOD"), .elem, .str, false, true⟩,
      ⟨py "screen_volume_frame", some (py "SCREEN_VOLUME_FRAME"), .elem, (.cls .ScreenVolumeFrameType), false, true⟩,
      ⟨py "screen_volume_shape", some (py "SCREEN_VOLUME_SHAPE"), .elem, (.cls .ScreenVolumeShapeType), false, true⟩,
      ⟨py "screen_volume_x", some (py "SCREEN_VOLUME_X"), .elem, (.cls .LengthType), false, true⟩,
      ⟨py "screen_volume_y", some (py "SCREEN_VOLUME_Y"), .elem, (.cls .LengthType), false, true⟩,
      ⟨py "screen_volume_z", some (py "SCREEN_VOLUME_Z"), .elem, (.cls .LengthType), false, true⟩,
      ⟨py "screen_entry_time", some (py "SCREEN_ENTRY_TIME"), .elem, .str, false, true⟩,
      ⟨py "screen_exit_time", some (py "SCREEN_EXIT_TIME"), .elem, .str, false, true⟩,
      ⟨py "collision_probability", some (py "COLLISION_PROBABILITY"), .elem, .dec, false, true⟩,
      ⟨py "collision_probability_method", some (py "COLLISION_PROBABILITY_METHOD"), .elem, .str, false, true⟩]
  -- ndmxml2/ndmxml_2_0_0_cdm_1_0.py:1401-1420
  | .CdmSegment => [
      ⟨py "metadata", none, .elem, (.cls .CdmMetadata), false, true⟩,
      ⟨py "data", none, .elem, (.cls .CdmData), false, true⟩]
  -- ndmxml2/ndmxml_2_0_0_cdm_1_0.py:1424-1445
  | .CdmBody => [
      ⟨py "relative_metadata_data", some (py "relativeMetadataData"), .elem, (.cls .RelativeMetadataData), false, true⟩,
      ⟨py "segment", none, .elem, (.cls .CdmSegment), true, true⟩]
  -- ndmxml2/ndmxml_2_0_0_cdm_1_0.py:1449-1484
  | .CdmType => [
      ⟨py "header", none, .elem, (.cls .CdmHeader), false, true⟩,
      ⟨py "body", none, .elem, (.cls .CdmBody), false, true⟩,
      ⟨py "id", none, .attr, .str, false, false⟩,
      ⟨py "version", none, .attr, .str, false, false⟩]
  -- ndmxml2/ndmxml_2_0_0_oem_2_0.py:14-133
  | .OemMetadata => [
      ⟨py "comment", some (py "COMMENT"), .elem, .str, true, true⟩,
      ⟨py "object_name", some (py "OBJECT_NAME"), .elem, .str, false, true⟩,
      ⟨py "object_id", some (py "OBJECT_ID"), .elem, .str, false, true⟩,
      ⟨py "center_name", some (py "CENTER_NAME"), .elem, .str, false, true⟩,
      ⟨py "ref_frame", some (py "REF_FRAME"), .elem, .str, false, true⟩,
      ⟨py "ref_frame_epoch", some (py "REF_FRAME_EPOCH"), .elem, .str, false, true⟩,
      ⟨py "time_system", some (py "TIME_SYSTEM"), .elem, .str, false, true⟩,
      ⟨py "start_time", some (py "START_TIME"), .elem, .str, false, true⟩,
      ⟨py "useable_start_time", some (py "USEABLE_START_TIME"), .elem, .str, false, true⟩,
      ⟨py "useable_stop_time", some (py "USEABLE_STOP_TIME"), .elem, .str, false, true⟩,
      ⟨py "stop_time", some (py "STOP_TIME"), .elem, .str, false, true⟩,
      ⟨py "interpolation", some (py "INTERPOLATION"), .elem, .str, false, true⟩,
      ⟨py "interpolation_degree", some (py "INTERPOLATION_DEGREE"), .elem, .int, false, true⟩]
  -- ndmxml2/ndmxml_2_0_0_oem_2_0.py:137-165
  | .OemData => [
      ⟨py "comment", some (py "COMMENT"), .elem, .str, true, true⟩,
      ⟨py "state_vector", some (py "stateVector"), .elem, (.cls .StateVectorAccType), true, true⟩,
      ⟨py "covariance_matrix", some (py "covarianceMatrix"), .elem, (.cls .OemCovarianceMatrixType), true, true⟩]
  -- ndmxml2/ndmxml_2_0_0_oem_2_0.py:169-188
  | .OemSegment => [
      ⟨py "metadata", none, .elem, (.cls .OemMetadata), false, true⟩,
      ⟨py "data", none, .elem, (.cls .OemData), false, true⟩]
  -- ndmxml2/ndmxml_2_0_0_oem_2_0.py:192-203
  | .OemBody => [
      ⟨py "segment", none, .elem, (.cls .OemSegment), true, true⟩]
  -- ndmxml2/ndmxml_2_0_0_oem_2_0.py:207-242
  | .OemType => [
      ⟨py "header", none, .elem, (.cls .NdmHeader), false, true⟩,
      ⟨py "body", none, .elem, (.cls .OemBody), false, true⟩,
      ⟨py "id", none, .attr, .str, false, false⟩,
      ⟨py "version", none, .attr, .str, false, false⟩]
  -- ndmxml2/ndmxml_2_0_0_omm_2_0.py:35-109
  | .OmmMetadata => [
      ⟨py "comment", some (py "COMMENT"), .elem, .str, true, true⟩,
      ⟨py "object_name", some (py "OBJECT_NAME"), .elem, .str, false, true⟩,
      ⟨py "object_id", some (py "OBJECT_ID"), .elem, .str, false, true⟩,
      ⟨py "center_name", some (py "CENTER_NAME"), .elem, .str, false, true⟩,
      ⟨py "ref_frame", some (py "REF_FRAME"), .elem, .str, false, true⟩,
      ⟨py "ref_frame_epoch", some (py "REF_FRAME_EPOCH"), .elem, .str, false, true⟩,
      ⟨py "time_system", some (py "TIME_SYSTEM"), .elem, .str, false, true⟩,
      ⟨py "mean_element_theory", some (py "MEAN_ELEMENT_THEORY"), .elem, .str, false, true⟩]
  -- ndmxml2/ndmxml_2_0_0_omm_2_0.py:118-130
  | .BStarType => [
      ⟨py "value", none, .text, .dec, false, true⟩,
      ⟨py "units", none, .attr, (.cls .BStarUnits), false, true⟩]
  -- ndmxml2/ndmxml_2_0_0_omm_2_0.py:134-146
  | .DRevType => [
      ⟨py "value", none, .text, .dec, false, true⟩,
      ⟨py "units", none, .attr, (.cls .DRevUnits), false, true⟩]
  -- ndmxml2/ndmxml_2_0_0_omm_2_0.py:150-162
  | .DdRevType => [
      ⟨py "value", none, .text, .dec, false, true⟩,
      ⟨py "units", none, .attr, (.cls .DdRevUnits), false, true⟩]
  -- ndmxml2/ndmxml_2_0_0_omm_2_0.py:166-178
  | .RevType => [
      ⟨py "value", none, .text, .dec, false, true⟩,
      ⟨py "units", none, .attr, (.cls .RevUnits), false, true⟩]
  -- ndmxml2/ndmxml_2_0_0_omm_2_0.py:182-273
  | .MeanElementsType => [
      ⟨py "comment", some (py "COMMENT"), .elem, .str, true, true⟩,
      ⟨py "epoch", some (py "EPOCH"), .elem, .str, false, true⟩,
      ⟨py "semi_major_axis", some (py "SEMI_MAJOR_AXIS"), .elem, (.cls .DistanceType), false, true⟩,
      ⟨py "mean_motion", some (py "MEAN_MOTION"), .elem, (.cls .RevType), false, true⟩,
      ⟨py "eccentricity", some (py "ECCENTRICITY"), .elem, .dec, false, true⟩,
      ⟨py "inclination", some (py "INCLINATION"), .elem, (.cls .InclinationType), false, true⟩,
      ⟨py "ra_of_asc_node", some (py "RA_OF_ASC_NODE"), .elem, (.cls .AngleType), false, true⟩,
      ⟨py "arg_of_pericenter", some (py "ARG_OF_PERICENTER"), .elem, (.cls .AngleType), false, true⟩,
      ⟨py "mean_anomaly", some (py "MEAN_ANOMALY"), .elem, (.cls .AngleType), false, true⟩,
      ⟨py "gm", some (py "GM"), .elem, (.cls .GmType), false, true⟩]
  -- ndmxml2/ndmxml_2_0_0_omm_2_0.py:277-360
  | .TleParametersType => [
      ⟨py "comment", some (py "COMMENT"), .elem, .str, true, true⟩,
      ⟨py "ephemeris_type", some (py "EPHEMERIS_TYPE"), .elem, .int, false, true⟩,
      ⟨py "classification_type", some (py "CLASSIFICATION_TYPE"), .elem, .str, false, true⟩,
      ⟨py "norad_cat_id", some (py "NORAD_CAT_ID"), .elem, .int, false, true⟩,
      ⟨py "element_set_no", some (py "ELEMENT_SET_NO"), .elem, .int, false, true⟩,
      ⟨py "rev_at_epoch", some (py "REV_AT_EPOCH"), .elem, .int, false, true⟩,
      ⟨py "bstar", some (py "BSTAR"), .elem, (.cls .BStarType), false, true⟩,
      ⟨py "mean_motion_dot", some (py "MEAN_MOTION_DOT"), .elem, (.cls .DRevType), false, true⟩,
      ⟨py "mean_motion_ddot", some (py "MEAN_MOTION_DDOT"), .elem, (.cls .DdRevType), false, true⟩]
  -- ndmxml2/ndmxml_2_0_0_omm_2_0.py:364-416
  | .OmmData => [
      ⟨py "comment", some (py "COMMENT"), .elem, .str, true, true⟩,
      ⟨py "mean_elements", some (py "meanElements"), .elem, (.cls .MeanElementsType), false, true⟩,
      ⟨py "spacecraft_parameters", some (py "spacecraftParameters"), .elem, (.cls .SpacecraftParametersType), false, true⟩,
      ⟨py "tle_parameters", some (py "tleParameters"), .elem, (.cls .TleParametersType), false, true⟩,
      ⟨py "covariance_matrix", some (py "covarianceMatrix"), .elem, (.cls .OpmCovarianceMatrixType), false, true⟩,
      ⟨py "user_defined_parameters", some (py "userDefinedParameters"), .elem, (.cls .UserDefinedType), false, true⟩]
  -- ndmxml2/ndmxml_2_0_0_omm_2_0.py:420-439
  | .OmmSegment => [
      ⟨py "metadata", none, .elem, (.cls .OmmMetadata), false, true⟩,
      ⟨py "data", none, .elem, (.cls .OmmData), false, true⟩]
  -- ndmxml2/ndmxml_2_0_0_omm_2_0.py:443-454
  | .OmmBody => [
      ⟨py "segment", none, .elem, (.cls .OmmSegment), false, true⟩]
  -- ndmxml2/ndmxml_2_0_0_omm_2_0.py:458-493
  | .OmmType => [
      ⟨py "header", none, .elem, (.cls .NdmHeader), false, true⟩,
      ⟨py "body", none, .elem, (.cls .OmmBody), false, true⟩,
      ⟨py "id", none, .attr, .str, false, false⟩,
      ⟨py "version", none, .attr, .str, false, false⟩]
  -- ndmxml2/ndmxml_2_0_0_opm_2_0.py:24-89
  | .OpmMetadata => [
      ⟨py "comment", some (py "COMMENT"), .elem, .str, true, true⟩,
      ⟨py "object_name", some (py "OBJECT_NAME"), .elem, .str, false, true⟩,
      ⟨py "object_id", some (py "OBJECT_ID"), .elem, .str, false, true⟩,
      ⟨py "center_name", some (py "CENTER_NAME"), .elem, .str, false, true⟩,
      ⟨py "ref_frame", some (py "REF_FRAME"), .elem, .str, false, true⟩,
      ⟨py "ref_frame_epoch", some (py "REF_FRAME_EPOCH"), .elem, .str, false, true⟩,
      ⟨py "time_system", some (py "TIME_SYSTEM"), .elem, .str, false, true⟩]
  -- ndmxml2/ndmxml_2_0_0_opm_2_0.py:93-175
  | .KeplerianElementsType => [
      ⟨py "comment", some (py "COMMENT"), .elem, .str, true, true⟩,
      ⟨py "semi_major_axis", some (py "SEMI_MAJOR_AXIS"), .elem, (.cls .DistanceType), false, true⟩,
      ⟨py "eccentricity", some (py "ECCENTRICITY"), .elem, .dec, false, true⟩,
      ⟨py "inclination", some (py "INCLINATION"), .elem, (.cls .InclinationType), false, true⟩,
      ⟨py "ra_of_asc_node", some (py "RA_OF_ASC_NODE"), .elem, (.cls .AngleType), false, true⟩,
      ⟨py "arg_of_pericenter", some (py "ARG_OF_PERICENTER"), .elem, (.cls .AngleType), false, true⟩,
      ⟨py "true_anomaly", some (py "TRUE_ANOMALY"), .elem, (.cls .AngleType), false, true⟩,
      ⟨py "mean_anomaly", some (py "MEAN_ANOMALY"), .elem, (.cls .AngleType), false, true⟩,
      ⟨py "gm", some (py "GM"), .elem, (.cls .GmType), false, true⟩]
  -- ndmxml2/ndmxml_2_0_0_opm_2_0.py:179-254
  | .ManeuverParametersType => [
      ⟨py "comment", some (py "COMMENT"), .elem, .str, true, true⟩,
      ⟨py "man_epoch_ignition", some (py "MAN_EPOCH_IGNITION"), .elem, .str, false, true⟩,
      ⟨py "man_duration", some (py "MAN_DURATION"), .elem, (.cls .DurationType), false, true⟩,
      ⟨py "man_delta_mass", some (py "MAN_DELTA_MASS"), .elem, (.cls .DeltamassType), false, true⟩,
      ⟨py "man_ref_frame", some (py "MAN_REF_FRAME"), .elem, .str, false, true⟩,
      ⟨py "man_dv_1", some (py "MAN_DV_1"), .elem, (.cls .VelocityType), false, true⟩,
      ⟨py "man_dv_2", some (py "MAN_DV_2"), .elem, (.cls .VelocityType), false, true⟩,
      ⟨py "man_dv_3", some (py "MAN_DV_3"), .elem, (.cls .VelocityType), false, true⟩]
  -- ndmxml2/ndmxml_2_0_0_opm_2_0.py:258-318
  | .OpmData => [
      ⟨py "comment", some (py "COMMENT"), .elem, .str, true, true⟩,
      ⟨py "state_vector", some (py "stateVector"), .elem, (.cls .StateVectorType), false, true⟩,
      ⟨py "keplerian_elements", some (py "keplerianElements"), .elem, (.cls .KeplerianElementsType), false, true⟩,
      ⟨py "spacecraft_parameters", some (py "spacecraftParameters"), .elem, (.cls .SpacecraftParametersType), false, true⟩,
      ⟨py "covariance_matrix", some (py "covarianceMatrix"), .elem, (.cls .OpmCovarianceMatrixType), false, true⟩,
      ⟨py "maneuver_parameters", some (py "maneuverParameters"), .elem, (.cls .ManeuverParametersType), true, true⟩,
      ⟨py "user_defined_parameters", some (py "userDefinedParameters"), .elem, (.cls .UserDefinedType), false, true⟩]
  -- ndmxml2/ndmxml_2_0_0_opm_2_0.py:322-341
  | .OpmSegment => [
      ⟨py "metadata", none, .elem, (.cls .OpmMetadata), false, true⟩,
      ⟨py "data", none, .elem, (.cls .OpmData), false, true⟩]
  -- ndmxml2/ndmxml_2_0_0_opm_2_0.py:345-356
  | .OpmBody => [
      ⟨py "segment", none, .elem, (.cls .OpmSegment), false, true⟩]
  -- ndmxml2/ndmxml_2_0_0_opm_2_0.py:360-395
  | .OpmType => [
      ⟨py "header", none, .elem, (.cls .NdmHeader), false, true⟩,
      ⟨py "body", none, .elem, (.cls .OpmBody), false, true⟩,
      ⟨py "id", none, .attr, .str, false, false⟩,
      ⟨py "version", none, .attr, .str, false, false⟩]
  -- ndmxml2/ndmxml_2_0_0_rdm_1_0.py:25-64
  | .RdmHeader => [
      ⟨py "comment", some (py "COMMENT"), .elem, .str, true, true⟩,
      ⟨py "creation_date", some (py "CREATION_DATE"), .elem, .str, false, true⟩,
      ⟨py "originator", some (py "ORIGINATOR"), .elem, .str, false, true⟩,
      ⟨py "message_id", some (py "MESSAGE_ID"), .elem, .str, false, true⟩]
  -- ndmxml2/ndmxml_2_0_0_rdm_1_0.py:68-136
  | .RdmData => [
      ⟨py "comment", some (py "COMMENT"), .elem, .str, true, true⟩,
      ⟨py "atmospheric_reentry_parameters", some (py "atmosphericReentryParameters"), .elem, (.cls .AtmosphericReentryParametersType), false, true⟩,
      ⟨py "ground_impact_parameters", some (py "groundImpactParameters"), .elem, (.cls .GroundImpactParametersType), false, true⟩,
      ⟨py "state_vector", some (py "stateVector"), .elem, (.cls .StateVectorType), false, true⟩,
      ⟨py "covariance_matrix", some (py "covarianceMatrix"), .elem, (.cls .OpmCovarianceMatrixType), false, true⟩,
      ⟨py "spacecraft_parameters", some (py "spacecraftParameters"), .elem, (.cls .RdmSpacecraftParametersType), false, true⟩,
      ⟨py "od_parameters", some (py "odParameters"), .elem, (.cls .OdParametersType), false, true⟩,
      ⟨py "user_defined_parameters", some (py "userDefinedParameters"), .elem, (.cls .UserDefinedType), false, true⟩]
  -- ndmxml2/ndmxml_2_0_0_rdm_1_0.py:140-393
  | .RdmMetadata => [
      ⟨py "comment", some (py "COMMENT"), .elem, .str, true, true⟩,
      ⟨py "object_name", some (py "OBJECT_NAME"), .elem, .str, false, true⟩,
      ⟨py "international_designator", some (py "INTERNATIONAL_DESIGNATOR"), .elem, .str, false, true⟩,
      ⟨py "catalog_name", some (py "CATALOG_NAME"), .elem, .str, false, true⟩,
      ⟨py "object_designator", some (py "OBJECT_DESIGNATOR"), .elem, .str, false, true⟩,
      ⟨py "object_type", some (py "OBJECT_TYPE"), .elem, (.cls .ObjectDescriptionType), false, true⟩,
      ⟨py "object_owner", some (py "OBJECT_OWNER"), .elem, .str, false, true⟩,
      ⟨py "object_operator", some (py "OBJECT_OPERATOR"), .elem, .str, false, true⟩,
      ⟨py "controlled_reentry", some (py "CONTROLLED_REENTRY"), .elem, (.cls .ControlledType), false, true⟩,
      ⟨py "center_name", some (py "CENTER_NAME"), .elem, .str, false, true⟩,
      ⟨py "time_system", some (py "TIME_SYSTEM"), .elem, .str, false, true⟩,
      ⟨py "epoch_tzero", some (py "EPOCH_TZERO"), .elem, .str, false, true⟩,
      ⟨py "ref_frame", some (py "REF_FRAME"), .elem, .str, false, true⟩,
      ⟨py "ref_frame_epoch", some (py "REF_FRAME_EPOCH"), .elem, .str, false, true⟩,
      ⟨py "ephemeris_name", some (py "EPHEMERIS_NAME"), .elem, .str, false, true⟩,
      ⟨py "gravity_model", some (py "GRAVITY_MODEL"), .elem, .str, false, true⟩,
      ⟨py "atmospheric_model", some (py "ATMOSPHERIC_MODEL"), .elem, .str, false, true⟩,
      ⟨py "solar_flux_prediction", some (py "SOLAR_FLUX_PREDICTION"), .elem, .str, false, true⟩,
      ⟨py "n_body_perturbations", some (py "N_BODY_PERTURBATIONS"), .elem, .str, false, true⟩,
      ⟨py "solar_rad_pressure", some (py "SOLAR_RAD_PRESSURE"), .elem, .str, false, true⟩,
      ⟨py "earth_tides", some (py "EARTH_TIDES"), .elem, .str, false, true⟩,
      ⟨py "intrack_thrust", some (py "INTRACK_THRUST"), .elem, (.cls .YesNoType), false, true⟩,
      ⟨py "drag_parameters_source", some (py "DRAG_PARAMETERS_SOURCE"), .elem, .str, false, true⟩,
      ⟨py "drag_parameters_altitude", some (py "DRAG_PARAMETERS_ALTITUDE"), .elem, (.cls .DistanceType), false, true⟩,
      ⟨py "reentry_uncertainty_method", some (py "REENTRY_UNCERTAINTY_METHOD"), .elem, (.cls .ReentryUncertaintyMethodType), false, true⟩,
      ⟨py "reentry_disintegration", some (py "REENTRY_DISINTEGRATION"), .elem, (.cls .DisintegrationType), false, true⟩,
      ⟨py "impact_uncertainty_method", some (py "IMPACT_UNCERTAINTY_METHOD"), .elem, (.cls .ImpactUncertaintyType), false, true⟩,
      ⟨py "previous_message_id", some (py "PREVIOUS_MESSAGE_ID"), .elem, .str, false, true⟩,
      ⟨py "previous_message_epoch", some (py "PREVIOUS_MESSAGE_EPOCH"), .elem, .str, false, true⟩,
      ⟨py "next_message_epoch", some (py "NEXT_MESSAGE_EPOCH"), .elem, .str, false, true⟩]
  -- ndmxml2/ndmxml_2_0_0_rdm_1_0.py:397-416
  | .RdmSegment => [
      ⟨py "metadata", none, .elem, (.cls .RdmMetadata), false, true⟩,
      ⟨py "data", none, .elem, (.cls .RdmData), false, true⟩]
  -- ndmxml2/ndmxml_2_0_0_rdm_1_0.py:420-431
  | .RdmBody => [
      ⟨py "segment", none, .elem, (.cls .RdmSegment), false, true⟩]
  -- ndmxml2/ndmxml_2_0_0_rdm_1_0.py:435-470
  | .RdmType => [
      ⟨py "header", none, .elem, (.cls .RdmHeader), false, true⟩,
      ⟨py "body", none, .elem, (.cls .RdmBody), false, true⟩,
      ⟨py "id", none, .attr, .str, false, false⟩,
      ⟨py "version", none, .attr, .str, false, false⟩]
  -- ndmxml2/ndmxml_2_0_0_tdm_2_0.py:85-123
  | .TdmHeader => [
      ⟨py "comment", some (py "COMMENT"), .elem, .str, true, true⟩,
      ⟨py "creation_date", some (py "CREATION_DATE"), .elem, .str, false, true⟩,
      ⟨py "originator", some (py "ORIGINATOR"), .elem, .str, false, true⟩,
      ⟨py "message_id", some (py "MESSAGE_ID"), .elem, .str, false, true⟩]
  -- ndmxml2/ndmxml_2_0_0_tdm_2_0.py:134-637
  | .TdmMetadata => [
      ⟨py "comment", some (py "COMMENT"), .elem, .str, true, true⟩,
      ⟨py "track_id", some (py "TRACK_ID"), .elem, .str, false, true⟩,
      ⟨py "data_types", some (py "DATA_TYPES"), .elem, .str, false, true⟩,
      ⟨py "time_system", some (py "TIME_SYSTEM"), .elem, (.cls .TimeSystemType), false, true⟩,
      ⟨py "start_time", some (py "START_TIME"), .elem, .str, false, true⟩,
      ⟨py "stop_time", some (py "STOP_TIME"), .elem, .str, false, true⟩,
      ⟨py "participant_1", some (py "PARTICIPANT_1"), .elem, .str, false, true⟩,
      ⟨py "participant_2", some (py "PARTICIPANT_2"), .elem, .str, false, true⟩,
      ⟨py "participant_3", some (py "PARTICIPANT_3"), .elem, .str, false, true⟩,
      ⟨py "participant_4", some (py "PARTICIPANT_4"), .elem, .str, false, true⟩,
      ⟨py "participant_5", some (py "PARTICIPANT_5"), .elem, .str, false, true⟩,
      ⟨py "mode", some (py "MODE"), .elem, (.cls .ModeType), false, true⟩,
      ⟨py "path", some (py "PATH"), .elem, .str, false, true⟩,
      ⟨py "path_1", some (py "PATH_1"), .elem, .str, false, true⟩,
      ⟨py "path_2", some (py "PATH_2"), .elem, .str, false, true⟩,
      ⟨py "ephemeris_name_1", some (py "EPHEMERIS_NAME_1"), .elem, .str, false, true⟩,
      ⟨py "ephemeris_name_2", some (py "EPHEMERIS_NAME_2"), .elem, .str, false, true⟩,
      ⟨py "ephemeris_name_3", some (py "EPHEMERIS_NAME_3"), .elem, .str, false, true⟩,
      ⟨py "ephemeris_name_4", some (py "EPHEMERIS_NAME_4"), .elem, .str, false, true⟩,
      ⟨py "ephemeris_name_5", some (py "EPHEMERIS_NAME_5"), .elem, .str, false, true⟩,
      ⟨py "transmit_band", some (py "TRANSMIT_BAND"), .elem, .str, false, true⟩,
      ⟨py "receive_band", some (py "RECEIVE_BAND"), .elem, .str, false, true⟩,
      ⟨py "turnaround_numerator", some (py "TURNAROUND_NUMERATOR"), .elem, .int, false, true⟩,
      ⟨py "turnaround_denominator", some (py "TURNAROUND_DENOMINATOR"), .elem, .int, false, true⟩,
      ⟨py "timetag_ref", some (py "TIMETAG_REF"), .elem, (.cls .TimetagRefType), false, true⟩,
      ⟨py "integration_interval", some (py "INTEGRATION_INTERVAL"), .elem, .dec, false, true⟩,
      ⟨py "integration_ref", some (py "INTEGRATION_REF"), .elem, (.cls .IntegrationRefType), false, true⟩,
      ⟨py "freq_offset", some (py "FREQ_OFFSET"), .elem, .dec, false, true⟩,
      ⟨py "range_mode", some (py "RANGE_MODE"), .elem, (.cls .RangemodeType), false, true⟩,
      ⟨py "range_modulus", some (py "RANGE_MODULUS"), .elem, .dec, false, true⟩,
      ⟨py "range_units", some (py "RANGE_UNITS"), .elem, (.cls .RangeUnitsType), false, true⟩,
      ⟨py "angle_type", some (py "ANGLE_TYPE"), .elem, (.cls .AngleTypeType), false, true⟩,
      ⟨py "reference_frame", some (py "REFERENCE_FRAME"), .elem, (.cls .RefFrameType), false, true⟩,
      ⟨py "interpolation", some (py "INTERPOLATION"), .elem, .str, false, true⟩,
      ⟨py "interpolation_degree", some (py "INTERPOLATION_DEGREE"), .elem, .int, false, true⟩,
      ⟨py "doppler_count_bias", some (py "DOPPLER_COUNT_BIAS"), .elem, .dec, false, true⟩,
      ⟨py "doppler_count_scale", some (py "DOPPLER_COUNT_SCALE"), .elem, .int, false, true⟩,
      ⟨py "doppler_count_rollover", some (py "DOPPLER_COUNT_ROLLOVER"), .elem, (.cls .YesNoType), false, true⟩,
      ⟨py "transmit_delay_1", some (py "TRANSMIT_DELAY_1"), .elem, .dec, false, true⟩,
      ⟨py "transmit_delay_2", some (py "TRANSMIT_DELAY_2"), .elem, .dec, false, true⟩,
      ⟨py "transmit_delay_3", some (py "TRANSMIT_DELAY_3"), .elem, .dec, false, true⟩,
      ⟨py "transmit_delay_4", some (py "TRANSMIT_DELAY_4"), .elem, .dec, false, true⟩,
      ⟨py "transmit_delay_5", some (py "TRANSMIT_DELAY_5"), .elem, .dec, false, true⟩,
      ⟨py "receive_delay_1", some (py "RECEIVE_DELAY_1"), .elem, .dec, false, true⟩,
      ⟨py "receive_delay_2", some (py "RECEIVE_DELAY_2"), .elem, .dec, false, true⟩,
      ⟨py "receive_delay_3", some (py "RECEIVE_DELAY_3"), .elem, .dec, false, true⟩,
      ⟨py "receive_delay_4", some (py "RECEIVE_DELAY_4"), .elem, .dec, false, true⟩,
      ⟨py "receive_delay_5", some (py "RECEIVE_DELAY_5"), .elem, .dec, false, true⟩,
      ⟨py "data_quality", some (py "DATA_QUALITY"), .elem, (.cls .DataQualityType), false, true⟩,
      ⟨py "correction_angle_1", some (py "CORRECTION_ANGLE_1"), .elem, .dec, false, true⟩,
      ⟨py "correction_angle_2", some (py "CORRECTION_ANGLE_2"), .elem, .dec, false, true⟩,
      ⟨py "correction_doppler", some (py "CORRECTION_DOPPLER"), .elem, .dec, false, true⟩,
      ⟨py "correction_mag", some (py "CORRECTION_MAG"), .elem, .dec, false, true⟩,
      ⟨py "correction_range", some (py "CORRECTION_RANGE"), .elem, .dec, false, true⟩,
      ⟨py "correction_rcs", some (py "CORRECTION_RCS"), .elem, .dec, false, true⟩,
      ⟨py "correction_receive", some (py "CORRECTION_RECEIVE"), .elem, .dec, false, true⟩,
      ⟨py "correction_transmit", some (py "CORRECTION_TRANSMIT"), .elem, .dec, false, true⟩,
      ⟨py "correction_aberration_yearly", some (py "CORRECTION_ABERRATION_YEARLY"), .elem, .dec, false, true⟩,
      ⟨py "correction_aberration_diurnal", some (py "CORRECTION_ABERRATION_DIURNAL"), .elem, .dec, false, true⟩,
      ⟨py "corrections_applied", some (py "CORRECTIONS_APPLIED"), .elem, (.cls .YesNoType), false, true⟩]
  -- ndmxml2/ndmxml_2_0_0_tdm_2_0.py:641-1040
  | .TrackingDataObservationType => [
      ⟨py "epoch", some (py "EPOCH"), .elem, .str, false, true⟩,
      ⟨py "angle_1", some (py "ANGLE_1"), .elem, (.cls .AngleType), false, true⟩,
      ⟨py "angle_2", some (py "ANGLE_2"), .elem, (.cls .AngleType), false, true⟩,
      ⟨py "carrier_power", some (py "CARRIER_POWER"), .elem, .dec, false, true⟩,
      ⟨py "clock_bias", some (py "CLOCK_BIAS"), .elem, .dec, false, true⟩,
      ⟨py "clock_drift", some (py "CLOCK_DRIFT"), .elem, .dec, false, true⟩,
      ⟨py "doppler_count", some (py "DOPPLER_COUNT"), .elem, .dec, false, true⟩,
      ⟨py "doppler_instantaneous", some (py "DOPPLER_INSTANTANEOUS"), .elem, .dec, false, true⟩,
      ⟨py "doppler_integrated", some (py "DOPPLER_INTEGRATED"), .elem, .dec, false, true⟩,
      ⟨py "dor", some (py "DOR"), .elem, .dec, false, true⟩,
      ⟨py "mag", some (py "MAG"), .elem, .dec, false, true⟩,
      ⟨py "pc_n0", some (py "PC_N0"), .elem, .dec, false, true⟩,
      ⟨py "pr_n0", some (py "PR_N0"), .elem, .dec, false, true⟩,
      ⟨py "pressure", some (py "PRESSURE"), .elem, .dec, false, true⟩,
      ⟨py "range", some (py "RANGE"), .elem, .dec, false, true⟩,
      ⟨py "rcs", some (py "RCS"), .elem, .dec, false, true⟩,
      ⟨py "receive_freq", some (py "RECEIVE_FREQ"), .elem, .dec, false, true⟩,
      ⟨py "receive_freq_1", some (py "RECEIVE_FREQ_1"), .elem, .dec, false, true⟩,
      ⟨py "receive_freq_2", some (py "RECEIVE_FREQ_2"), .elem, .dec, false, true⟩,
      ⟨py "receive_freq_3", some (py "RECEIVE_FREQ_3"), .elem, .dec, false, true⟩,
      ⟨py "receive_freq_4", some (py "RECEIVE_FREQ_4"), .elem, .dec, false, true⟩,
      ⟨py "receive_freq_5", some (py "RECEIVE_FREQ_5"), .elem, .dec, false, true⟩,
      ⟨py "receive_phase_ct_1", some (py "RECEIVE_PHASE_CT_1"), .elem, .dec, false, true⟩,
      ⟨py "receive_phase_ct_2", some (py "RECEIVE_PHASE_CT_2"), .elem, .dec, false, true⟩,
      ⟨py "receive_phase_ct_3", some (py "RECEIVE_PHASE_CT_3"), .elem, .dec, false, true⟩,
      ⟨py "receive_phase_ct_4", some (py "RECEIVE_PHASE_CT_4"), .elem, .dec, false, true⟩,
      ⟨py "receive_phase_ct_5", some (py "RECEIVE_PHASE_CT_5"), .elem, .dec, false, true⟩,
      ⟨py "rhumidity", some (py "RHUMIDITY"), .elem, .dec, false, true⟩,
      ⟨py "stec", some (py "STEC"), .elem, .dec, false, true⟩,
      ⟨py "temperature", some (py "TEMPERATURE"), .elem, .dec, false, true⟩,
      ⟨py "transmit_freq_1", some (py "TRANSMIT_FREQ_1"), .elem, .dec, false, true⟩,
      ⟨py "transmit_freq_2", some (py "TRANSMIT_FREQ_2"), .elem, .dec, false, true⟩,
      ⟨py "transmit_freq_3", some (py "TRANSMIT_FREQ_3"), .elem, .dec, false, true⟩,
      ⟨py "transmit_freq_4", some (py "TRANSMIT_FREQ_4"), .elem, .dec, false, true⟩,
      ⟨py "transmit_freq_5", some (py "TRANSMIT_FREQ_5"), .elem, .dec, false, true⟩,
      ⟨py "transmit_freq_rate_1", some (py "TRANSMIT_FREQ_RATE_1"), .elem, .dec, false, true⟩,
      ⟨py "transmit_freq_rate_2", some (py "TRANSMIT_FREQ_RATE_2"), .elem, .dec, false, true⟩,
      ⟨py "transmit_freq_rate_3", some (py "TRANSMIT_FREQ_RATE_3"), .elem, .dec, false, true⟩,
      ⟨py "transmit_freq_rate_4", some (py "TRANSMIT_FREQ_RATE_4"), .elem, .dec, false, true⟩,
      ⟨py "transmit_freq_rate_5", some (py "TRANSMIT_FREQ_RATE_5"), .elem, .dec, false, true⟩,
      ⟨py "transmit_phase_ct_1", some (py "TRANSMIT_PHASE_CT_1"), .elem, .dec, false, true⟩,
      ⟨py "transmit_phase_ct_2", some (py "TRANSMIT_PHASE_CT_2"), .elem, .dec, false, true⟩,
      ⟨py "transmit_phase_ct_3", some (py "TRANSMIT_PHASE_CT_3"), .elem, .dec, false, true⟩,
      ⟨py "transmit_phase_ct_4", some (py "TRANSMIT_PHASE_CT_4"), .elem, .dec, false, true⟩,
      ⟨py "transmit_phase_ct_5", some (py "TRANSMIT_PHASE_CT_5"), .elem, .dec, false, true⟩,
      ⟨py "tropo_dry", some (py "TROPO_DRY"), .elem, .dec, false, true⟩,
      ⟨py "tropo_wet", some (py "TROPO_WET"), .elem, .dec, false, true⟩,
      ⟨py "vlbi_delay", some (py "VLBI_DELAY"), .elem, .dec, false, true⟩]
  -- ndmxml2/ndmxml_2_0_0_tdm_2_0.py:1044-1063
  | .TdmData => [
      ⟨py "comment", some (py "COMMENT"), .elem, .str, true, true⟩,
      ⟨py "observation", none, .elem, (.cls .TrackingDataObservationType), true, true⟩]
  -- ndmxml2/ndmxml_2_0_0_tdm_2_0.py:1067-1086
  | .TdmSegment => [
      ⟨py "metadata", none, .elem, (.cls .TdmMetadata), false, true⟩,
      ⟨py "data", none, .elem, (.cls .TdmData), false, true⟩]
  -- ndmxml2/ndmxml_2_0_0_tdm_2_0.py:1090-1101
  | .TdmBody => [
      ⟨py "segment", none, .elem, (.cls .TdmSegment), true, true⟩]
  -- ndmxml2/ndmxml_2_0_0_tdm_2_0.py:1105-1140
  | .TdmType => [
      ⟨py "header", none, .elem, (.cls .TdmHeader), false, true⟩,
      ⟨py "body", none, .elem, (.cls .TdmBody), false, true⟩,
      ⟨py "id", none, .attr, .str, false, false⟩,
      ⟨py "version", none, .attr, .str, false, false⟩]
  -- ndmxml2/ndmxml_2_0_0_ndm_2_0.py:17-100
  | .NdmType => [
      ⟨py "message_id", some (py "MESSAGE_ID"), .elem, .str, false, true⟩,
      ⟨py "comment", some (py "COMMENT"), .elem, .str, true, true⟩,
      ⟨py "aem", none, .elem, (.cls .AemType), true, true⟩,
      ⟨py "apm", none, .elem, (.cls .ApmType), true, true⟩,
      ⟨py "cdm", none, .elem, (.cls .CdmType), true, true⟩,
      ⟨py "oem", none, .elem, (.cls .OemType), true, true⟩,
      ⟨py "omm", none, .elem, (.cls .OmmType), true, true⟩,
      ⟨py "opm", none, .elem, (.cls .OpmType), true, true⟩,
      ⟨py "rdm", none, .elem, (.cls .RdmType), true, true⟩,
      ⟨py "tdm", none, .elem, (.cls .TdmType), true, true⟩]
  -- ndmxml2/ndmxml_2_0_0_master_2_0.py:15-17 (inherits AemType)
  | .Aem => [
      ⟨py "header", none, .elem, (.cls .NdmHeader), false, true⟩,
      ⟨py "body", none, .elem, (.cls .AemBody), false, true⟩,
      ⟨py "id", none, .attr, .str, false, false⟩,
      ⟨py "version", none, .attr, .str, false, false⟩]
  -- ndmxml2/ndmxml_2_0_0_master_2_0.py:21-23 (inherits ApmType)
  | .Apm => [
      ⟨py "header", none, .elem, (.cls .NdmHeader), false, true⟩,
      ⟨py "body", none, .elem, (.cls .ApmBody), false, true⟩,
      ⟨py "id", none, .attr, .str, false, false⟩,
      ⟨py "version", none, .attr, .str, false, false⟩]
  -- ndmxml2/ndmxml_2_0_0_master_2_0.py:27-29 (inherits CdmType)
  | .Cdm => [
      ⟨py "header", none, .elem, (.cls .CdmHeader), false, true⟩,
      ⟨py "body", none, .elem, (.cls .CdmBody), false, true⟩,
      ⟨py "id", none, .attr, .str, false, false⟩,
      ⟨py "version", none, .attr, .str, false, false⟩]
  -- ndmxml2/ndmxml_2_0_0_master_2_0.py:33-35 (inherits NdmType)
  | .Ndm => [
      ⟨py "message_id", some (py "MESSAGE_ID"), .elem, .str, false, true⟩,
      ⟨py "comment", some (py "COMMENT"), .elem, .str, true, true⟩,
      ⟨py "aem", none, .elem, (.cls .AemType), true, true⟩,
      ⟨py "apm", none, .elem, (.cls .ApmType), true, true⟩,
      ⟨py "cdm", none, .elem, (.cls .CdmType), true, true⟩,
      ⟨py "oem", none, .elem, (.cls .OemType), true, true⟩,
      ⟨py "omm", none, .elem, (.cls .OmmType), true, true⟩,
      ⟨py "opm", none, .elem, (.cls .OpmType), true, true⟩,
      ⟨py "rdm", none, .elem, (.cls .RdmType), true, true⟩,
      ⟨py "tdm", none, .elem, (.cls .TdmType), true, true⟩]
  -- ndmxml2/ndmxml_2_0_0_master_2_0.py:39-41 (inherits OemType)
  | .Oem => [
      ⟨py "header", none, .elem, (.cls .NdmHeader), false, true⟩,
      ⟨py "body", none, .elem, (.cls .OemBody), false, true⟩,
      ⟨py "id", none, .attr, .str, false, false⟩,
      ⟨py "version", none, .attr, .str, false, false⟩]
  -- ndmxml2/ndmxml_2_0_0_master_2_0.py:45-47 (inherits OmmType)
  | .Omm => [
      ⟨py "header", none, .elem, (.cls .NdmHeader), false, true⟩,
      ⟨py "body", none, .elem, (.cls .OmmBody), false, true⟩,
      ⟨py "id", none, .attr, .str, false, false⟩,
      ⟨py "version", none, .attr, .str, false, false⟩]
  -- ndmxml2/ndmxml_2_0_0_master_2_0.py:51-53 (inherits OpmType)
  | .Opm => [
      ⟨py "header", none, .elem, (.cls .NdmHeader), false, true⟩,
      ⟨py "body", none, .elem, (.cls .OpmBody), false, true⟩,
      ⟨py "id", none, .attr, .str, false, false⟩,
      ⟨py "version", none, .attr, .str, false, false⟩]
  -- ndmxml2/ndmxml_2_0_0_master_2_0.py:57-59 (inherits RdmType)
  | .Rdm => [
      ⟨py "header", none, .elem, (.cls .RdmHeader), false, true⟩,
      ⟨py "body", none, .elem, (.cls .RdmBody), false, true⟩,
      ⟨py "id", none, .attr, .str, false, false⟩,
      ⟨py "version", none, .attr, .str, false, false⟩]
  -- ndmxml2/ndmxml_2_0_0_master_2_0.py:63-65 (inherits TdmType)
  | .Tdm => [
      ⟨py "header", none, .elem, (.cls .TdmHeader), false, true⟩,
      ⟨py "body", none, .elem, (.cls .TdmBody), false, true⟩,
      ⟨py "id", none, .attr, .str, false, false⟩,
      ⟨py "version", none, .attr, .str, false, false⟩]
  | _ => []

/-- `_member_names_` and values of an enumeration, in order; `none` for dataclasses. -/
def Cls.members : Cls → Option (List (Str × Str))
  -- ndmxml2/ndmxml_2_0_0_common_2_0.py:9-10
  | .AccUnits => some [(py "KM_S_2", py "km/s**2")]
  -- ndmxml2/ndmxml_2_0_0_common_2_0.py:13-16
  | .AngleKeywordType => some [(py "X_ANGLE", py "X_ANGLE"), (py "Y_ANGLE", py "Y_ANGLE"), (py "Z_ANGLE", py "Z_ANGLE")]
  -- ndmxml2/ndmxml_2_0_0_common_2_0.py:19-22
  | .AngleRateKeywordType => some [(py "X_RATE", py "X_RATE"), (py "Y_RATE", py "Y_RATE"), (py "Z_RATE", py "Z_RATE")]
  -- ndmxml2/ndmxml_2_0_0_common_2_0.py:25-26
  | .AngleRateUnits => some [(py "DEG_S", py "deg/s")]
  -- ndmxml2/ndmxml_2_0_0_common_2_0.py:29-30
  | .AngleUnits => some [(py "DEG", py "deg")]
  -- ndmxml2/ndmxml_2_0_0_common_2_0.py:33-34
  | .AreaUnits => some [(py "M_2", py "m**2")]
  -- ndmxml2/ndmxml_2_0_0_common_2_0.py:37-38
  | .BallisticCoeffUnitsType => some [(py "KG_M_2", py "kg/m**2")]
  -- ndmxml2/ndmxml_2_0_0_common_2_0.py:41-47
  | .ControlledType => some [(py "YES", py "YES"), (py "YES_1", py "yes"), (py "NO", py "NO"), (py "NO_1", py "no"), (py "UNKNOWN", py "UNKNOWN"), (py "UNKNOWN_1", py "unknown")]
  -- ndmxml2/ndmxml_2_0_0_common_2_0.py:50-51
  | .DayIntervalUnits => some [(py "D", py "d")]
  -- ndmxml2/ndmxml_2_0_0_common_2_0.py:54-58
  | .DisintegrationType => some [(py "NONE_VALUE", py "NONE"), (py "MASS_LOSS", py "MASS-LOSS"), (py "BREAK_UP", py "BREAK-UP"), (py "MASS_LOSS_BREAK_UP", py "MASS-LOSS + BREAK-UP")]
  -- ndmxml2/ndmxml_2_0_0_common_2_0.py:61-62
  | .FrequencyUnits => some [(py "HZ", py "Hz")]
  -- ndmxml2/ndmxml_2_0_0_common_2_0.py:65-67
  | .GmUnits => some [(py "KM_3_S_2", py "km**3/s**2"), (py "KM_3_S_2_1", py "KM**3/S**2")]
  -- ndmxml2/ndmxml_2_0_0_common_2_0.py:70-74
  | .ImpactUncertaintyType => some [(py "NONE_VALUE", py "NONE"), (py "ANALYTICAL", py "ANALYTICAL"), (py "STOCHASTIC", py "STOCHASTIC"), (py "EMPIRICAL", py "EMPIRICAL")]
  -- ndmxml2/ndmxml_2_0_0_common_2_0.py:77-78
  | .Km2Units => some [(py "KM_2", py "km**2")]
  -- ndmxml2/ndmxml_2_0_0_common_2_0.py:81-82
  | .Km2S2Units => some [(py "KM_2_S_2", py "km**2/s**2")]
  -- ndmxml2/ndmxml_2_0_0_common_2_0.py:85-86
  | .Km2SUnits => some [(py "KM_2_S", py "km**2/s")]
  -- ndmxml2/ndmxml_2_0_0_common_2_0.py:89-90
  | .LatLonUnits => some [(py "DEG", py "deg")]
  -- ndmxml2/ndmxml_2_0_0_common_2_0.py:93-94
  | .LengthUnits => some [(py "M", py "m")]
  -- ndmxml2/ndmxml_2_0_0_common_2_0.py:97-98
  | .MassUnits => some [(py "KG", py "kg")]
  -- ndmxml2/ndmxml_2_0_0_common_2_0.py:101-102
  | .MomentUnits => some [(py "KG_M_2", py "kg*m**2")]
  -- ndmxml2/ndmxml_2_0_0_common_2_0.py:105-106
  | .Ms2Units => some [(py "M_S_2", py "m/s**2")]
  -- ndmxml2/ndmxml_2_0_0_common_2_0.py:143-155
  | .ObjectDescriptionType => some [(py "PAYLOAD", py "PAYLOAD"), (py "PAYLOAD_1", py "payload"), (py "ROCKET_BODY", py "ROCKET BODY"), (py "ROCKET_BODY_1", py "rocket body"), (py "UPPER_STAGE", py "UPPER STAGE"), (py "UPPER_STAGE_1", py "upper stage"), (py "DEBRIS", py "DEBRIS"), (py "DEBRIS_1", py "debris"), (py "UNKNOWN", py "UNKNOWN"), (py "UNKNOWN_1", py "unknown"), (py "OTHER", py "OTHER"), (py "OTHER_1", py "other")]
  -- ndmxml2/ndmxml_2_0_0_common_2_0.py:214-215
  | .PercentageUnits => some [(py "VALUE", py "%")]
  -- ndmxml2/ndmxml_2_0_0_common_2_0.py:218-219
  | .PositionCovarianceUnits => some [(py "KM_2", py "km**2")]
  -- ndmxml2/ndmxml_2_0_0_common_2_0.py:222-223
  | .PositionUnits => some [(py "KM", py "km")]
  -- ndmxml2/ndmxml_2_0_0_common_2_0.py:226-227
  | .PositionVelocityCovarianceUnits => some [(py "KM_2_S", py "km**2/s")]
  -- ndmxml2/ndmxml_2_0_0_common_2_0.py:230-231
  | .QuaternionDotUnits => some [(py "VALUE_1_S", py "1/s")]
  -- ndmxml2/ndmxml_2_0_0_common_2_0.py:285-289
  | .ReentryUncertaintyMethodType => some [(py "NONE_VALUE", py "NONE"), (py "ANALYTICAL", py "ANALYTICAL"), (py "STOCHASTIC", py "STOCHASTIC"), (py "EMPIRICAL", py "EMPIRICAL")]
  -- ndmxml2/ndmxml_2_0_0_common_2_0.py:292-294
  | .RotDirectionType => some [(py "A2_B", py "A2B"), (py "B2_A", py "B2A")]
  -- ndmxml2/ndmxml_2_0_0_common_2_0.py:297-309
  | .RotseqType => some [(py "VALUE_121", py "121"), (py "VALUE_123", py "123"), (py "VALUE_131", py "131"), (py "VALUE_132", py "132"), (py "VALUE_212", py "212"), (py "VALUE_213", py "213"), (py "VALUE_231", py "231"), (py "VALUE_232", py "232"), (py "VALUE_312", py "312"), (py "VALUE_313", py "313"), (py "VALUE_321", py "321"), (py "VALUE_323", py "323")]
  -- ndmxml2/ndmxml_2_0_0_common_2_0.py:312-332
  | .TimeSystemType => some [(py "GMST", py "GMST"), (py "GMST_1", py "gmst"), (py "GPS", py "GPS"), (py "GPS_1", py "gps"), (py "SCLK", py "SCLK"), (py "SCLK_1", py "sclk"), (py "TAI", py "TAI"), (py "TAI_1", py "tai"), (py "TCB", py "TCB"), (py "TCB_1", py "tcb"), (py "TDB", py "TDB"), (py "TDB_1", py "tdb"), (py "TOD", py "TOD"), (py "TOD_1", py "tod"), (py "TT", py "TT"), (py "TT_1", py "tt"), (py "UT1", py "UT1"), (py "UT1_1", py "ut1"), (py "UTC", py "UTC"), (py "UTC_1", py "utc")]
  -- ndmxml2/ndmxml_2_0_0_common_2_0.py:335-336
  | .TimeUnits => some [(py "S", py "s")]
  -- ndmxml2/ndmxml_2_0_0_common_2_0.py:356-357
  | .VelocityCovarianceUnits => some [(py "KM_2_S_2", py "km**2/s**2")]
  -- ndmxml2/ndmxml_2_0_0_common_2_0.py:360-361
  | .VelocityUnits => some [(py "KM_S", py "km/s")]
  -- ndmxml2/ndmxml_2_0_0_common_2_0.py:364-368
  | .YesNoType => some [(py "YES", py "YES"), (py "YES_1", py "yes"), (py "NO", py "NO"), (py "NO_1", py "no")]
  -- ndmxml2/ndmxml_2_0_0_aem_1_0.py:22-26
  | .AemRateFrameType => some [(py "REF_FRAME_A", py "ref_frame_a"), (py "REF_FRAME_A_1", py "REF_FRAME_A"), (py "REF_FRAME_B", py "ref_frame_b"), (py "REF_FRAME_B_1", py "REF_FRAME_B")]
  -- ndmxml2/ndmxml_2_0_0_aem_1_0.py:29-43
  | .AttitudeTypeType => some [(py "QUATERNION", py "quaternion"), (py "QUATERNION_1", py "QUATERNION"), (py "QUATERNION_DERIVATIVE", py "quaternion/derivative"), (py "QUATERNION_DERIVATIVE_1", py "QUATERNION/DERIVATIVE"), (py "QUATERNION_RATE", py "quaternion/rate"), (py "QUATERNION_RATE_1", py "QUATERNION/RATE"), (py "EULER_ANGLE", py "euler_angle"), (py "EULER_ANGLE_1", py "EULER_ANGLE"), (py "EULER_ANGLE_RATE", py "euler_angle/rate"), (py "EULER_ANGLE_RATE_1", py "EULER_ANGLE/RATE"), (py "SPIN", py "spin"), (py "SPIN_1", py "SPIN"), (py "SPIN_NUTATION", py "spin/nutation"), (py "SPIN_NUTATION_1", py "SPIN/NUTATION")]
  -- ndmxml2/ndmxml_2_0_0_aem_1_0.py:46-50
  | .QuaternionTypeType => some [(py "FIRST", py "first"), (py "FIRST_1", py "FIRST"), (py "LAST", py "last"), (py "LAST_1", py "LAST")]
  -- ndmxml2/ndmxml_2_0_0_apm_1_0.py:24-26
  | .ApmRateFrameType => some [(py "EULER_FRAME_A", py "EULER_FRAME_A"), (py "EULER_FRAME_B", py "EULER_FRAME_B")]
  -- ndmxml2/ndmxml_2_0_0_apm_1_0.py:29-30
  | .TorqueUnits => some [(py "N_M", py "N*m")]
  -- ndmxml2/ndmxml_2_0_0_cdm_1_0.py:72-76
  | .CovarianceMethodType => some [(py "CALCULATED", py "CALCULATED"), (py "CALCULATED_1", py "calculated"), (py "DEFAULT", py "DEFAULT"), (py "DEFAULT_1", py "default")]
  -- ndmxml2/ndmxml_2_0_0_cdm_1_0.py:79-80
  | .DvUnits => some [(py "M_S", py "m/s")]
  -- ndmxml2/ndmxml_2_0_0_cdm_1_0.py:83-84
  | .M2Units => some [(py "M_2", py "m**2")]
  -- ndmxml2/ndmxml_2_0_0_cdm_1_0.py:87-88
  | .M2KgUnits => some [(py "M_2_KG", py "m**2/kg")]
  -- ndmxml2/ndmxml_2_0_0_cdm_1_0.py:91-92
  | .M2S2Units => some [(py "M_2_S_2", py "m**2/s**2")]
  -- ndmxml2/ndmxml_2_0_0_cdm_1_0.py:95-96
  | .M2S3Units => some [(py "M_2_S_3", py "m**2/s**3")]
  -- ndmxml2/ndmxml_2_0_0_cdm_1_0.py:99-100
  | .M2S4Units => some [(py "M_2_S_4", py "m**2/s**4")]
  -- ndmxml2/ndmxml_2_0_0_cdm_1_0.py:103-104
  | .M2SUnits => some [(py "M_2_S", py "m**2/s")]
  -- ndmxml2/ndmxml_2_0_0_cdm_1_0.py:107-108
  | .M3KgUnits => some [(py "M_3_KG", py "m**3/kg")]
  -- ndmxml2/ndmxml_2_0_0_cdm_1_0.py:111-112
  | .M3Kgs2Units => some [(py "M_3_KG_S_2", py "m**3/(kg*s**2)")]
  -- ndmxml2/ndmxml_2_0_0_cdm_1_0.py:115-116
  | .M3KgsUnits => some [(py "M_3_KG_S", py "m**3/(kg*s)")]
  -- ndmxml2/ndmxml_2_0_0_cdm_1_0.py:119-120
  | .M4Kg2Units => some [(py "M_4_KG_2", py "m**4/kg**2")]
  -- ndmxml2/ndmxml_2_0_0_cdm_1_0.py:123-129
  | .ManeuverableType => some [(py "YES", py "YES"), (py "YES_1", py "yes"), (py "NO", py "NO"), (py "NO_1", py "no"), (py "N_A", py "N/A"), (py "N_A_1", py "n/a")]
  -- ndmxml2/ndmxml_2_0_0_cdm_1_0.py:132-136
  | .ObjectType => some [(py "OBJECT1", py "OBJECT1"), (py "OBJECT1_1", py "object1"), (py "OBJECT2", py "OBJECT2"), (py "OBJECT2_1", py "object2")]
  -- ndmxml2/ndmxml_2_0_0_cdm_1_0.py:139-145
  | .ReferenceFrameType => some [(py "EME2000", py "EME2000"), (py "EME2000_1", py "eme2000"), (py "GCRF", py "GCRF"), (py "GCRF_1", py "gcrf"), (py "ITRF", py "ITRF"), (py "ITRF_1", py "itrf")]
  -- ndmxml2/ndmxml_2_0_0_cdm_1_0.py:148-152
  | .ScreenVolumeFrameType => some [(py "RTN", py "RTN"), (py "RTN_1", py "rtn"), (py "TVN", py "TVN"), (py "TVN_1", py "tvn")]
  -- ndmxml2/ndmxml_2_0_0_cdm_1_0.py:155-159
  | .ScreenVolumeShapeType => some [(py "ELLIPSOID", py "ELLIPSOID"), (py "ELLIPSOID_1", py "ellipsoid"), (py "BOX", py "BOX"), (py "BOX_1", py "box")]
  -- ndmxml2/ndmxml_2_0_0_cdm_1_0.py:162-163
  | .WkgUnits => some [(py "W_KG", py "W/kg")]
  -- ndmxml2/ndmxml_2_0_0_omm_2_0.py:20-21
  | .BStarUnits => some [(py "VALUE_1_ER", py "1/ER")]
  -- ndmxml2/ndmxml_2_0_0_omm_2_0.py:24-26
  | .DRevUnits => some [(py "REV_DAY_2", py "rev/day**2"), (py "REV_DAY_2_1", py "REV/DAY**2")]
  -- ndmxml2/ndmxml_2_0_0_omm_2_0.py:29-31
  | .DdRevUnits => some [(py "REV_DAY_3", py "rev/day**3"), (py "REV_DAY_3_1", py "REV/DAY**3")]
  -- ndmxml2/ndmxml_2_0_0_omm_2_0.py:112-114
  | .RevUnits => some [(py "REV_DAY", py "rev/day"), (py "REV_DAY_1", py "REV/DAY")]
  -- ndmxml2/ndmxml_2_0_0_tdm_2_0.py:15-23
  | .AngleTypeType => some [(py "AZEL", py "AZEL"), (py "AZEL_1", py "azel"), (py "RADEC", py "RADEC"), (py "RADEC_1", py "radec"), (py "XEYN", py "XEYN"), (py "XEYN_1", py "xeyn"), (py "XSYE", py "XSYE"), (py "XSYE_1", py "xsye")]
  -- ndmxml2/ndmxml_2_0_0_tdm_2_0.py:26-32
  | .DataQualityType => some [(py "RAW", py "raw"), (py "RAW_1", py "RAW"), (py "VALIDATED", py "validated"), (py "VALIDATED_1", py "VALIDATED"), (py "DEGRADED", py "degraded"), (py "DEGRADED_1", py "DEGRADED")]
  -- ndmxml2/ndmxml_2_0_0_tdm_2_0.py:35-41
  | .IntegrationRefType => some [(py "START", py "START"), (py "START_1", py "start"), (py "MIDDLE", py "MIDDLE"), (py "MIDDLE_1", py "middle"), (py "END", py "END"), (py "END_1", py "end")]
  -- ndmxml2/ndmxml_2_0_0_tdm_2_0.py:44-48
  | .ModeType => some [(py "SEQUENTIAL", py "SEQUENTIAL"), (py "SEQUENTIAL_1", py "sequential"), (py "SINGLE_DIFF", py "SINGLE_DIFF"), (py "SINGLE_DIFF_1", py "single_diff")]
  -- ndmxml2/ndmxml_2_0_0_tdm_2_0.py:51-57
  | .RangeUnitsType => some [(py "KM", py "km"), (py "KM_1", py "KM"), (py "RU", py "ru"), (py "RU_1", py "RU"), (py "S", py "s"), (py "S_1", py "S")]
  -- ndmxml2/ndmxml_2_0_0_tdm_2_0.py:60-66
  | .RangemodeType => some [(py "COHERENT", py "coherent"), (py "COHERENT_1", py "COHERENT"), (py "CONSTANT", py "constant"), (py "CONSTANT_1", py "CONSTANT"), (py "ONE_WAY", py "one_way"), (py "ONE_WAY_1", py "ONE_WAY")]
  -- ndmxml2/ndmxml_2_0_0_tdm_2_0.py:69-81
  | .RefFrameType => some [(py "EME2000", py "EME2000"), (py "EME2000_1", py "eme2000"), (py "ICRF", py "ICRF"), (py "ICRF_1", py "icrf"), (py "ITRF2000", py "ITRF2000"), (py "ITRF2000_1", py "itrf2000"), (py "ITRF_93", py "ITRF-93"), (py "ITRF_93_1", py "itrf-93"), (py "ITRF_97", py "ITRF-97"), (py "ITRF_97_1", py "itrf-97"), (py "TOD", py "TOD"), (py "TOD_1", py "tod")]
  -- ndmxml2/ndmxml_2_0_0_tdm_2_0.py:126-130
  | .TimetagRefType => some [(py "TRANSMIT", py "TRANSMIT"), (py "TRANSMIT_1", py "transmit"), (py "RECEIVE", py "RECEIVE"), (py "RECEIVE_1", py "receive")]
  | _ => none

/-- `clazz.Meta.name` (inherited through the class body when the class itself declares none). -/
def Cls.metaName : Cls → Option Str
  | .NdmHeader => some (py "ndmHeader") -- common_2_0:110
  | .OemCovarianceMatrixAbstractType => some (py "oemCovarianceMatrixAbstractType") -- common_2_0:159
  | .OpmCovarianceMatrixAbstractType => some (py "opmCovarianceMatrixAbstractType") -- common_2_0:192
  | .QuaternionType => some (py "quaternionType") -- common_2_0:235
  | .UserDefinedParameterType => some (py "userDefinedParameterType") -- common_2_0:340
  | .AccType => some (py "accType") -- common_2_0:372
  | .AltType => some (py "altType") -- common_2_0:388
  | .AngleRateType => some (py "angleRateType") -- common_2_0:408
  | .AngleType => some (py "angleType") -- common_2_0:424
  | .AreaType => some (py "areaType") -- common_2_0:444
  | .BallisticCoeffType => some (py "ballisticCoeffType") -- common_2_0:463
  | .DayIntervalType => some (py "dayIntervalType") -- common_2_0:482
  | .DeltamassType => some (py "deltamassType") -- common_2_0:502
  | .DistanceType => some (py "distanceType") -- common_2_0:521
  | .DurationType => some (py "durationType") -- common_2_0:537
  | .FrequencyType => some (py "frequencyType") -- common_2_0:556
  | .GmType => some (py "gmType") -- common_2_0:575
  | .InclinationType => some (py "inclinationType") -- common_2_0:594
  | .Km2Type => some (py "km2Type") -- common_2_0:615
  | .Km2S2Type => some (py "km2s2Type") -- common_2_0:631
  | .Km2SType => some (py "km2sType") -- common_2_0:647
  | .LatType => some (py "latType") -- common_2_0:663
  | .LengthType => some (py "lengthType") -- common_2_0:684
  | .LonType => some (py "lonType") -- common_2_0:701
  | .MassType => some (py "massType") -- common_2_0:722
  | .MomentType => some (py "momentType") -- common_2_0:741
  | .Ms2Type => some (py "ms2Type") -- common_2_0:757
  | .PercentageType => some (py "percentageType") -- common_2_0:774
  | .PositionCovarianceType => some (py "positionCovarianceType") -- common_2_0:795
  | .PositionType => some (py "positionType") -- common_2_0:811
  | .PositionVelocityCovarianceType => some (py "positionVelocityCovarianceType") -- common_2_0:827
  | .QuaternionDotType => some (py "quaternionDotType") -- common_2_0:843
  | .RdmPositionType => some (py "rdmPositionType") -- common_2_0:859
  | .RdmVelocityType => some (py "rdmVelocityType") -- common_2_0:876
  | .RotationAngleComponentType => some (py "rotationAngleComponentType") -- common_2_0:893
  | .RotationAngleComponentTypeold => some (py "rotationAngleComponentTypeold") -- common_2_0:920
  | .RotationRateComponentType => some (py "rotationRateComponentType") -- common_2_0:949
  | .RotationRateComponentTypeOld => some (py "rotationRateComponentTypeOLD") -- common_2_0:972
  | .UserDefinedType => some (py "userDefinedType") -- common_2_0:999
  | .VelocityCovarianceType => some (py "velocityCovarianceType") -- common_2_0:1024
  | .VelocityType => some (py "velocityType") -- common_2_0:1040
  | .AtmosphericReentryParametersType => some (py "atmosphericReentryParametersType") -- common_2_0:1056
  | .GroundImpactParametersType => some (py "groundImpactParametersType") -- common_2_0:1140
  | .OdParametersType => some (py "odParametersType") -- common_2_0:1408
  | .OemCovarianceMatrixType => some (py "oemCovarianceMatrixType") -- common_2_0:1506
  | .OpmCovarianceMatrixType => some (py "opmCovarianceMatrixType") -- common_2_0:1702
  | .QuaternionRateType => some (py "quaternionRateType") -- common_2_0:1898
  | .RdmSpacecraftParametersType => some (py "rdmSpacecraftParametersType") -- common_2_0:1941
  | .RotationAngleType => some (py "rotationAngleType") -- common_2_0:2038
  | .RotationRateType => some (py "rotationRateType") -- common_2_0:2069
  | .SpacecraftParametersType => some (py "spacecraftParametersType") -- common_2_0:2100
  | .StateVectorAccType => some (py "stateVectorAccType") -- common_2_0:2162
  | .StateVectorType => some (py "stateVectorType") -- common_2_0:2257
  | .AemMetadata => some (py "aemMetadata") -- aem_1_0:54
  | .EulerAngleRateType => some (py "eulerAngleRateType") -- aem_1_0:218
  | .EulerAngleType => some (py "eulerAngleType") -- aem_1_0:251
  | .QuaternionDerivativeType => some (py "quaternionDerivativeType") -- aem_1_0:276
  | .QuaternionEphemerisType => some (py "quaternionEphemerisType") -- aem_1_0:310
  | .QuaternionEulerRateType => some (py "quaternionEulerRateType") -- aem_1_0:335
  | .SpinNutationType => some (py "spinNutationType") -- aem_1_0:368
  | .SpinType => some (py "spinType") -- aem_1_0:448
  | .AttitudeStateType => some (py "attitudeStateType") -- aem_1_0:501
  | .AemData => some (py "aemData") -- aem_1_0:563
  | .AemSegment => some (py "aemSegment") -- aem_1_0:587
  | .AemBody => some (py "aemBody") -- aem_1_0:610
  | .AemType => some (py "aemType") -- aem_1_0:625
  | .ApmMetadata => some (py "apmMetadata") -- apm_1_0:34
  | .AttSpacecraftParametersType => some (py "attSpacecraftParametersType") -- apm_1_0:84
  | .EulerElementsSpinType => some (py "eulerElementsSpinType") -- apm_1_0:161
  | .EulerElementsThreeType => some (py "eulerElementsThreeType") -- apm_1_0:258
  | .QuaternionStateType => some (py "quaternionStateType") -- apm_1_0:329
  | .TorqueType => some (py "torqueType") -- apm_1_0:397
  | .AttManeuverParametersType => some (py "attManeuverParametersType") -- apm_1_0:413
  | .ApmData => some (py "apmData") -- apm_1_0:483
  | .ApmSegment => some (py "apmSegment") -- apm_1_0:539
  | .ApmBody => some (py "apmBody") -- apm_1_0:562
  | .ApmType => some (py "apmType") -- apm_1_0:577
  | .CdmHeader => some (py "cdmHeader") -- cdm_1_0:22
  | .CdmMetadata => some (py "cdmMetadata") -- cdm_1_0:167
  | .CdmPositionType => some (py "cdmPositionType") -- cdm_1_0:359
  | .CdmVelocityType => some (py "cdmVelocityType") -- cdm_1_0:376
  | .DvType => some (py "dvType") -- cdm_1_0:393
  | .M2Type => some (py "m2Type") -- cdm_1_0:410
  | .M2KgType => some (py "m2kgType") -- cdm_1_0:427
  | .M2S2Type => some (py "m2s2Type") -- cdm_1_0:447
  | .M2S3Type => some (py "m2s3Type") -- cdm_1_0:464
  | .M2S4Type => some (py "m2s4Type") -- cdm_1_0:481
  | .M2SType => some (py "m2sType") -- cdm_1_0:498
  | .M3KgType => some (py "m3kgType") -- cdm_1_0:515
  | .M3Kgs2Type => some (py "m3kgs2Type") -- cdm_1_0:532
  | .M3KgsType => some (py "m3kgsType") -- cdm_1_0:549
  | .M4Kg2Type => some (py "m4kg2Type") -- cdm_1_0:566
  | .WkgType => some (py "wkgType") -- cdm_1_0:583
  | .AdditionalParametersType => some (py "additionalParametersType") -- cdm_1_0:603
  | .CdmCovarianceMatrixType => some (py "cdmCovarianceMatrixType") -- cdm_1_0:682
  | .CdmStateVectorType => some (py "cdmStateVectorType") -- cdm_1_0:1078
  | .RelativeStateVectorType => some (py "relativeStateVectorType") -- cdm_1_0:1147
  | .CdmData => some (py "cdmData") -- cdm_1_0:1208
  | .RelativeMetadataData => some (py "relativeMetadataData") -- cdm_1_0:1257
  | .CdmSegment => some (py "cdmSegment") -- cdm_1_0:1401
  | .CdmBody => some (py "cdmBody") -- cdm_1_0:1424
  | .CdmType => some (py "cdmType") -- cdm_1_0:1449
  | .OemMetadata => some (py "oemMetadata") -- oem_2_0:14
  | .OemData => some (py "oemData") -- oem_2_0:137
  | .OemSegment => some (py "oemSegment") -- oem_2_0:169
  | .OemBody => some (py "oemBody") -- oem_2_0:192
  | .OemType => some (py "oemType") -- oem_2_0:207
  | .OmmMetadata => some (py "ommMetadata") -- omm_2_0:35
  | .BStarType => some (py "bStarType") -- omm_2_0:118
  | .DRevType => some (py "dRevType") -- omm_2_0:134
  | .DdRevType => some (py "ddRevType") -- omm_2_0:150
  | .RevType => some (py "revType") -- omm_2_0:166
  | .MeanElementsType => some (py "meanElementsType") -- omm_2_0:182
  | .TleParametersType => some (py "tleParametersType") -- omm_2_0:277
  | .OmmData => some (py "ommData") -- omm_2_0:364
  | .OmmSegment => some (py "ommSegment") -- omm_2_0:420
  | .OmmBody => some (py "ommBody") -- omm_2_0:443
  | .OmmType => some (py "ommType") -- omm_2_0:458
  | .OpmMetadata => some (py "opmMetadata") -- opm_2_0:24
  | .KeplerianElementsType => some (py "keplerianElementsType") -- opm_2_0:93
  | .ManeuverParametersType => some (py "maneuverParametersType") -- opm_2_0:179
  | .OpmData => some (py "opmData") -- opm_2_0:258
  | .OpmSegment => some (py "opmSegment") -- opm_2_0:322
  | .OpmBody => some (py "opmBody") -- opm_2_0:345
  | .OpmType => some (py "opmType") -- opm_2_0:360
  | .RdmHeader => some (py "rdmHeader") -- rdm_1_0:25
  | .RdmData => some (py "rdmData") -- rdm_1_0:68
  | .RdmMetadata => some (py "rdmMetadata") -- rdm_1_0:140
  | .RdmSegment => some (py "rdmSegment") -- rdm_1_0:397
  | .RdmBody => some (py "rdmBody") -- rdm_1_0:420
  | .RdmType => some (py "rdmType") -- rdm_1_0:435
  | .TdmHeader => some (py "tdmHeader") -- tdm_2_0:85
  | .TdmMetadata => some (py "tdmMetadata") -- tdm_2_0:134
  | .TrackingDataObservationType => some (py "trackingDataObservationType") -- tdm_2_0:641
  | .TdmData => some (py "tdmData") -- tdm_2_0:1044
  | .TdmSegment => some (py "tdmSegment") -- tdm_2_0:1067
  | .TdmBody => some (py "tdmBody") -- tdm_2_0:1090
  | .TdmType => some (py "tdmType") -- tdm_2_0:1105
  | .NdmType => some (py "ndmType") -- ndm_2_0:17
  | .Aem => some (py "aem") -- master_2_0:15
  | .Apm => some (py "apm") -- master_2_0:21
  | .Cdm => some (py "cdm") -- master_2_0:27
  | .Ndm => some (py "ndm") -- master_2_0:33
  | .Oem => some (py "oem") -- master_2_0:39
  | .Omm => some (py "omm") -- master_2_0:45
  | .Opm => some (py "opm") -- master_2_0:51
  | .Rdm => some (py "rdm") -- master_2_0:57
  | .Tdm => some (py "tdm") -- master_2_0:63
  | _ => none

/-- `(clazz.id, clazz.version)`: the `init=False` class attributes of the message classes; `none` elsewhere
(attribute access then raises `AttributeError`). -/
def Cls.idVersion : Cls → Option (Str × Str)
  | .AemType => some (py "CCSDS_AEM_VERS", py "1.0")
  | .ApmType => some (py "CCSDS_APM_VERS", py "1.0")
  | .CdmType => some (py "CCSDS_CDM_VERS", py "1.0")
  | .OemType => some (py "CCSDS_OEM_VERS", py "2.0")
  | .OmmType => some (py "CCSDS_OMM_VERS", py "2.0")
  | .OpmType => some (py "CCSDS_OPM_VERS", py "2.0")
  | .RdmType => some (py "CCSDS_RDM_VERS", py "1.0")
  | .TdmType => some (py "CCSDS_TDM_VERS", py "2.0")
  | .Aem => some (py "CCSDS_AEM_VERS", py "1.0")
  | .Apm => some (py "CCSDS_APM_VERS", py "1.0")
  | .Cdm => some (py "CCSDS_CDM_VERS", py "1.0")
  | .Oem => some (py "CCSDS_OEM_VERS", py "2.0")
  | .Omm => some (py "CCSDS_OMM_VERS", py "2.0")
  | .Opm => some (py "CCSDS_OPM_VERS", py "2.0")
  | .Rdm => some (py "CCSDS_RDM_VERS", py "1.0")
  | .Tdm => some (py "CCSDS_TDM_VERS", py "2.0")
  | _ => none

/-- `clazz.__subclasses__()[0]` (ndm_xml_io.py:135); `none` when there is no subclass (`IndexError`). -/
def Cls.firstSubclass : Cls → Option Cls
  | .OemCovarianceMatrixAbstractType => some .OemCovarianceMatrixType -- common_2_0:1506
  | .OpmCovarianceMatrixAbstractType => some .OpmCovarianceMatrixType -- common_2_0:1702
  | .AemType => some .Aem -- master_2_0:15
  | .ApmType => some .Apm -- master_2_0:21
  | .CdmType => some .Cdm -- master_2_0:27
  | .NdmType => some .Ndm -- master_2_0:33
  | .OemType => some .Oem -- master_2_0:39
  | .OmmType => some .Omm -- master_2_0:45
  | .OpmType => some .Opm -- master_2_0:51
  | .RdmType => some .Rdm -- master_2_0:57
  | .TdmType => some .Tdm -- master_2_0:63
  | _ => none

/-- Every class, in source order. -/
def Cls.all : List Cls := [.AccUnits, .AngleKeywordType, .AngleRateKeywordType, .AngleRateUnits, .AngleUnits, .AreaUnits, .BallisticCoeffUnitsType, .ControlledType, .DayIntervalUnits, .DisintegrationType, .FrequencyUnits, .GmUnits, .ImpactUncertaintyType, .Km2Units, .Km2S2Units, .Km2SUnits, .LatLonUnits, .LengthUnits, .MassUnits, .MomentUnits, .Ms2Units, .NdmHeader, .ObjectDescriptionType, .OemCovarianceMatrixAbstractType, .OpmCovarianceMatrixAbstractType, .PercentageUnits, .PositionCovarianceUnits, .PositionUnits, .PositionVelocityCovarianceUnits, .QuaternionDotUnits, .QuaternionType, .ReentryUncertaintyMethodType, .RotDirectionType, .RotseqType, .TimeSystemType, .TimeUnits, .UserDefinedParameterType, .VelocityCovarianceUnits, .VelocityUnits, .YesNoType, .AccType, .AltType, .AngleRateType, .AngleType, .AreaType, .BallisticCoeffType, .DayIntervalType, .DeltamassType, .DistanceType, .DurationType, .FrequencyType, .GmType, .InclinationType, .Km2Type, .Km2S2Type, .Km2SType, .LatType, .LengthType, .LonType, .MassType, .MomentType, .Ms2Type, .PercentageType, .PositionCovarianceType, .PositionType, .PositionVelocityCovarianceType, .QuaternionDotType, .RdmPositionType, .RdmVelocityType, .RotationAngleComponentType, .RotationAngleComponentTypeold, .RotationRateComponentType, .RotationRateComponentTypeOld, .UserDefinedType, .VelocityCovarianceType, .VelocityType, .AtmosphericReentryParametersType, .GroundImpactParametersType, .OdParametersType, .OemCovarianceMatrixType, .OpmCovarianceMatrixType, .QuaternionRateType, .RdmSpacecraftParametersType, .RotationAngleType, .RotationRateType, .SpacecraftParametersType, .StateVectorAccType, .StateVectorType, .AemRateFrameType, .AttitudeTypeType, .QuaternionTypeType, .AemMetadata, .EulerAngleRateType, .EulerAngleType, .QuaternionDerivativeType, .QuaternionEphemerisType, .QuaternionEulerRateType, .SpinNutationType, .SpinType, .AttitudeStateType, .AemData, .AemSegment, .AemBody, .AemType, .ApmRateFrameType, .TorqueUnits, .ApmMetadata, .AttSpacecraftParametersType, .EulerElementsSpinType, .EulerElementsThreeType, .QuaternionStateType, .TorqueType, .AttManeuverParametersType, .ApmData, .ApmSegment, .ApmBody, .ApmType, .CdmHeader, .CovarianceMethodType, .DvUnits, .M2Units, .M2KgUnits, .M2S2Units, .M2S3Units, .M2S4Units, .M2SUnits, .M3KgUnits, .M3Kgs2Units, .M3KgsUnits, .M4Kg2Units, .ManeuverableType, .ObjectType, .ReferenceFrameType, .ScreenVolumeFrameType, .ScreenVolumeShapeType, .WkgUnits, .CdmMetadata, .CdmPositionType, .CdmVelocityType, .DvType, .M2Type, .M2KgType, .M2S2Type, .M2S3Type, .M2S4Type, .M2SType, .M3KgType, .M3Kgs2Type, .M3KgsType, .M4Kg2Type, .WkgType, .AdditionalParametersType, .CdmCovarianceMatrixType, .CdmStateVectorType, .RelativeStateVectorType, .CdmData, .RelativeMetadataData, .CdmSegment, .CdmBody, .CdmType, .OemMetadata, .OemData, .OemSegment, .OemBody, .OemType, .BStarUnits, .DRevUnits, .DdRevUnits, .OmmMetadata, .RevUnits, .BStarType, .DRevType, .DdRevType, .RevType, .MeanElementsType, .TleParametersType, .OmmData, .OmmSegment, .OmmBody, .OmmType, .OpmMetadata, .KeplerianElementsType, .ManeuverParametersType, .OpmData, .OpmSegment, .OpmBody, .OpmType, .RdmHeader, .RdmData, .RdmMetadata, .RdmSegment, .RdmBody, .RdmType, .AngleTypeType, .DataQualityType, .IntegrationRefType, .ModeType, .RangeUnitsType, .RangemodeType, .RefFrameType, .TdmHeader, .TimetagRefType, .TdmMetadata, .TrackingDataObservationType, .TdmData, .TdmSegment, .TdmBody, .TdmType, .NdmType, .Aem, .Apm, .Cdm, .Ndm, .Oem, .Omm, .Opm, .Rdm, .Tdm]

theorem Cls.mem_all (c : Cls) : c ∈ Cls.all := by cases c <;> decide

end Ndm
