import Verif.SpecRt

/-! # Parts of an object, and blocks made of keyword lines (specification for C30 and C36) -/

namespace Ndm

/-- `w` is the object `v` itself or a value somewhere inside it. -/
inductive Within (w : Val) : Val → Prop
  | self : Within w w
  | field {c : Cls} {vs : List (Str × Val)} {n : Str} {x : Val} : (n, x) ∈ vs → Within w x → Within w (.obj c vs)
  | item {xs : List Val} {x : Val} : x ∈ xs → Within w x → Within w (.list xs)

/-- The blocks that consist of keyword lines.  Not among them: blocks that contain other blocks, the parts of attitude
states and rotations, ephemeris and tracking lines, and the metadata of attitude ephemerides. -/
def keywordBlocks : List Cls := [
  .NdmHeader, .CdmHeader, .RdmHeader, .TdmHeader,
  .ApmMetadata, .CdmMetadata, .OemMetadata, .OmmMetadata, .OpmMetadata, .RdmMetadata, .TdmMetadata,
  .StateVectorType, .CdmStateVectorType, .RelativeStateVectorType,
  .OemCovarianceMatrixType, .OpmCovarianceMatrixType, .CdmCovarianceMatrixType,
  .KeplerianElementsType, .MeanElementsType, .TleParametersType, .EulerElementsSpinType,
  .SpacecraftParametersType, .AttSpacecraftParametersType, .RdmSpacecraftParametersType,
  .ManeuverParametersType, .AttManeuverParametersType, .AdditionalParametersType, .OdParametersType,
  .AtmosphericReentryParametersType, .GroundImpactParametersType, .UserDefinedType]

/-- A line with the keyword `k` can belong to a block of class `d`. -/
def Mentions (d : Cls) (k : Str) : Prop :=
  k ≠ py "COMMENT" ∧ ((∃ f ∈ d.keyAttrs, k = upper f.name) ∨ d = .UserDefinedType ∧ py "USER_DEFINED" <+: k)

end Ndm
