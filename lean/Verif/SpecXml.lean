import Verif.Files
import Verif.Spec

/-! # Specification for C53: converting between the formats -/

namespace Ndm

/-- Reading a text and writing what was read in another format. -/
def convert (lib : XmlLib) (src : Str) (f : Fmt) (loc noNsLoc : Option Str) : Except PyErr Str :=
  match ndmFromString lib src with
  | .ok o => ndmToString lib o f loc noNsLoc
  | .error e => .error e

/-- Converting a text several times: to each of the formats in turn. -/
def convertAll (lib : XmlLib) (src : Str) : List (Fmt × Option Str × Option Str) → Except PyErr Str
  | [] => .ok src
  | (f, loc, noNsLoc) :: fs =>
    match convert lib src f loc noNsLoc with
    | .ok t => convertAll lib t fs
    | .error e => .error e

/-- The XML library reads the message `.obj c vs` back from every XML text it makes of it: the text is an XML document
whose root element is named after the kind of message, and parsing it gives the message. -/
structure ReadsBack (lib : XmlLib) (c : Cls) (vs : List (Str × Val)) : Prop where
  document : ∀ loc noNsLoc xml, lib.render loc noNsLoc (.obj c vs) = .ok xml →
    ∃ core, Core xml core ∧ py "<" <+: core ∧ py ">" <:+ core
  root : ∀ loc noNsLoc xml, lib.render loc noNsLoc (.obj c vs) = .ok xml → lib.rootTag xml = c.metaName
  parse : ∀ loc noNsLoc xml, lib.render loc noNsLoc (.obj c vs) = .ok xml → lib.parse xml = .ok (.obj c vs)

end Ndm
