import Verif.SpecText
import Verif.SpecWithin

/-! # Lines represented in an object (specification for C40) -/

namespace Ndm

/-- What the line states is held by the object `v`, or by a part of it. -/
inductive Kept (v : Val) : Line → Prop
  /-- `keyword = value [unit]`: an attribute of the keyword's name holds the value, in whatever spelling -/
  | keyword {c : Cls} {vs : List (Str × Val)} {f : Field} {w : Val} {l : Line} : Within (.obj c vs) v → f ∈ c.keyAttrs →
      (f.name, w) ∈ vs → KeyText f w l → Kept v l
  | comment {c : Cls} {vs : List (Str × Val)} {xs : List Val} {t : Str} : Within (.obj c vs) v →
      (py "comment", .list xs) ∈ vs → .str t ∈ xs → Kept v [py "COMMENT", t]
  /-- `USER_DEFINED_name = text` -/
  | user {n t : Str} : Within (.obj .UserDefinedParameterType [(py "value", userValue t), (py "parameter", .str n)]) v →
      Kept v [py "USER_DEFINED_" ++ n, t]
  | angle {w : Val} {l : Line} : Within w v →
      RotationText .RotationAngleComponentType .AngleKeywordType .AngleUnits (py "angle") w l → Kept v l
  | rate {w : Val} {l : Line} : Within w v →
      RotationText .RotationRateComponentType .AngleRateKeywordType .AngleRateUnits (py "rate") w l → Kept v l
  /-- a state vector of an ephemeris -/
  | state {w : Val} {l : Line} : Within w v → StateText w [l] → Kept v l
  /-- the epoch or a row of a covariance matrix -/
  | covariance {w : Val} {l : Line} {ls : List Line} : Within w v → CovarianceText w ls → l ∈ ls → Kept v l
  /-- a tracking observation -/
  | observation {w : Val} {l : Line} : Within w v → Observed w [l] → Kept v l
  /-- an attitude state, under the declarations of some metadata in the same message -/
  | attitude {D : AttitudeDecl} {m w : Val} {l : Line} : Within m v → Declares D m → Within w v → AttitudeRead D w [l] → Kept v l

end Ndm
