import Verif.Files
import Verif.Spec

/-! # Specification for C80: what is stored in a file -/

namespace Ndm

/-- The line separator of the platform. -/
def Platform.lineEnd (P : Platform) : Str := if P.crlf then ['\r', '\n'] else ['\n']

/-- What becomes of a call that is to store the text `r` (or raises the exception `r`) in the file `p` of the disk `d`: an exception
leaves the disk alone; if the file cannot be opened, `OSError` does; if the lines of the text cannot be encoded, `ValueError` leaves
an empty file; otherwise the file holds these lines with the line separator of the platform.  Other files are as before. -/
structure Stores (P : Platform) (d : Disk) (p : Str) (r : Except PyErr Str) (res : Except PyErr Unit × Disk) : Prop where
  raises : ∀ e, r = .error e → res = (.error e, d)
  closed : ∀ t, r = .ok t → P.writable p = false → res = (.error .osError, d)
  unencodable : ∀ t ls, r = .ok t → TextLines t ls → P.writable p = true → P.encode (P.lineEnd.intercalate ls) = none →
    res.1 = .error .valueError ∧ res.2 p = some []
  stored : ∀ t ls b, r = .ok t → TextLines t ls → P.writable p = true → P.encode (P.lineEnd.intercalate ls) = some b →
    res.1 = .ok () ∧ res.2 p = some b
  others : ∀ q, q ≠ p → res.2 q = d q

end Ndm
