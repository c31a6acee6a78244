import Verif.Files
import Verif.SpecEph

/-! # Specification for the properties about files (C44-C49) -/

namespace Ndm

/-- The three ways to end a line. -/
def lineEnds : List Str := [py "\n", py "\r\n", py "\r"]

/-- The same lines, each ended in one of the three ways. -/
inductive SameLines : Str → Str → Prop
  | nil : SameLines [] []
  | char {c s s'} : c ≠ '\r' → c ≠ '\n' → SameLines s s' → SameLines (c :: s) (c :: s')
  /-- a line ended by CR is not followed by an empty line ended by LF: CR LF is one line end -/
  | lineEnd {e e' s s'} : e ∈ lineEnds → e' ∈ lineEnds → (e = py "\r" → s.head? ≠ some '\n') →
      (e' = py "\r" → s'.head? ≠ some '\n') → SameLines s s' → SameLines (e ++ s) (e' ++ s')

/-- A well-formed message of any of the eight kinds. -/
inductive WellFormedMessage : Val → Prop
  | plain {c v} : c ∈ ([.Opm, .Omm, .Rdm, .Cdm, .Apm] : List Cls) → WellFormed c v → WellFormedMessage v
  | oem {v} : WellFormedOem v → WellFormedMessage v
  | tdm {v} : WellFormedTdm v → WellFormedMessage v
  | aem {v} : WellFormedAem v → WellFormedMessage v

/-- The platform can store a text: the file can be opened, and what is encoded can be decoded again. -/
structure CanStore (P : Platform) (p : Str) (t : Str) : Prop where
  writable : P.writable p = true
  encodes : ∃ b, P.encode (P.newlines t) = some b ∧ P.decode b = some (P.newlines t)

/-- The disks that can be found when `to_file` is interrupted at any point: the original one as long as the text to be
written is not known, then those of `write_text`. -/
inductive FileState (lib : XmlLib) (P : Platform) (d : Disk) (o : Val) (f : Fmt) (path : PathArg)
    (loc noNsLoc : Option Str) : Disk → Prop
  | before : FileState lib P d o f path loc noNsLoc d
  | writing {t d'} : ndmFileText lib o f path loc noNsLoc = .ok t → WriteState P d path.name t d' →
      FileState lib P d o f path loc noNsLoc d'

end Ndm
