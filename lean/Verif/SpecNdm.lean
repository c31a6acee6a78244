import Verif.Obj

/-! # Specification vocabulary (combined messages) -/

namespace Ndm

/-- The attributes of one message object. -/
abbrev Body := List (Str × Val)

/-- A combined message: its id and comments, and the messages of each of the eight kinds in order. -/
structure Combined where
  messageId : Val
  comment : Val
  aem : List Body
  apm : List Body
  cdm : List Body
  oem : List Body
  omm : List Body
  opm : List Body
  rdm : List Body
  tdm : List Body

namespace Combined

/-- The `Ndm` object whose messages of each kind have the given classes. -/
def toObj (m : Combined) (aem apm cdm oem omm opm rdm tdm : Cls) : Val :=
  .obj .Ndm [
    (py "message_id", m.messageId), (py "comment", m.comment),
    (py "aem", .list (m.aem.map (.obj aem))), (py "apm", .list (m.apm.map (.obj apm))),
    (py "cdm", .list (m.cdm.map (.obj cdm))), (py "oem", .list (m.oem.map (.obj oem))),
    (py "omm", .list (m.omm.map (.obj omm))), (py "opm", .list (m.opm.map (.obj opm))),
    (py "rdm", .list (m.rdm.map (.obj rdm))), (py "tdm", .list (m.tdm.map (.obj tdm)))]

/-- The object as `xsdata` creates it: every message has the base class of its slot. -/
def parsed (m : Combined) : Val :=
  m.toObj .AemType .ApmType .CdmType .OemType .OmmType .OpmType .RdmType .TdmType

/-- The object with the concrete message classes. -/
def typed (m : Combined) : Val := m.toObj .Aem .Apm .Cdm .Oem .Omm .Opm .Rdm .Tdm

/-- All messages, with their concrete classes, in slot order. -/
def messages (m : Combined) : List Val :=
  m.aem.map (.obj .Aem) ++ m.apm.map (.obj .Apm) ++ m.cdm.map (.obj .Cdm) ++ m.oem.map (.obj .Oem) ++
  m.omm.map (.obj .Omm) ++ m.opm.map (.obj .Opm) ++ m.rdm.map (.obj .Rdm) ++ m.tdm.map (.obj .Tdm)

end Combined

/-- The root tags of the eight message kinds. -/
def messageTags : List Str :=
  [py "aem", py "apm", py "cdm", py "oem", py "omm", py "opm", py "rdm", py "tdm"]

end Ndm
