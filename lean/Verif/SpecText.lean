import Verif.SpecEph
import Verif.SpecFrom

/-! # What a KVN text says (specification for C51)

`Denotes src v`: the text `src` is a message, in the key-value notation, with the content `v`.  The relation leaves
open everything that a writer of such a text may choose: blank lines and blanks around keywords, values and lines, the
spelling of numbers, the spacing of data lines, the order of the keyword lines of an object, and the marker lines. -/

namespace Ndm

/-- The keyword of the first line of each kind of message. -/
def versionKeywords : List (Cls × Str) := [
  (.Aem, py "CCSDS_AEM_VERS"), (.Apm, py "CCSDS_APM_VERS"), (.Cdm, py "CCSDS_CDM_VERS"), (.Oem, py "CCSDS_OEM_VERS"),
  (.Omm, py "CCSDS_OMM_VERS"), (.Opm, py "CCSDS_OPM_VERS"), (.Rdm, py "CCSDS_RDM_VERS"), (.Tdm, py "CCSDS_TDM_VERS")]

/-- Lines that carry no data: they mark the beginning and the end of sections. -/
def markerLines : Cls → List Str
  | .Oem => [py "META_START", py "META_STOP", py "COVARIANCE_START", py "COVARIANCE_STOP"]
  | .Aem => [py "META_START", py "META_STOP", py "DATA_START", py "DATA_STOP"]
  | .Tdm => [py "META_START", py "META_STOP", py "DATA_START", py "DATA_STOP"]
  | _ => []

/-- The lines state the content of a message of the given kind. -/
inductive MessageText : Cls → Val → List Line → Prop
  /-- messages made of keyword lines -/
  | keywords {c v ls} : c ∈ [Cls.Opm, .Omm, .Rdm, .Cdm, .Apm] → GoodOf Spelled OwnText c v ls → MessageText c v ls
  | oem {h lh segs ls} : KeyBlockOf Spelled .NdmHeader h lh → segs ≠ [] → OemSegmentsOf Spelled StateText CovarianceText segs ls →
      MessageText .Oem (oem h segs) (lh ++ ls)
  | tdm {h lh segs ls} : KeyBlockOf Spelled .TdmHeader h lh → segs ≠ [] → TdmSegmentsOf Spelled Observed segs ls →
      MessageText .Tdm (tdm h segs) (lh ++ ls)
  | aem {h lh segs ls} : KeyBlockOf Spelled .NdmHeader h lh → segs ≠ [] → AemSegmentsOf Spelled AttitudeRead segs ls →
      MessageText .Aem (aem h segs) (lh ++ ls)

/-- The text is a message with the content `v`. -/
inductive Denotes (src : Str) (v : Val) : Prop
  | mk {rows cs : List Str} {c : Cls} {id ver : Str} {raw : List Line} : TextLines src rows → SigLines rows cs →
      List.Forall₂ LineItems cs ([id, ver] :: raw) → (c, id) ∈ versionKeywords → XmlText ver →
      MessageText c v (raw.filter fun l => !(l.key ∈ markerLines c)) → Denotes src v

end Ndm
