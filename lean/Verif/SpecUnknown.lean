import Verif.Build

/-! # Lines with unknown keywords (specification for C59) -/

namespace Ndm

/-- The words a keyword line can begin with: the keyword of an attribute or of a member of an enumeration of the data model, a
user-defined parameter, a comment, and the markers of sections. -/
def Known (k : Str) : Prop :=
  (∃ c : Cls, ∃ f ∈ c.fields, f.ccsds = some k) ∨ (∃ (c : Cls) (ms : List (Str × Str)), c.members = some ms ∧ k ∈ ms.map (·.1)) ∨
  py "USER_DEFINED" <+: k ∨ k ∈ [py "id", py "version", py "COMMENT"] ∨
  k ∈ [py "META_START", py "META_STOP", py "DATA_START", py "DATA_STOP", py "COVARIANCE_START", py "COVARIANCE_STOP"]

/-- The text has a first word, which does not begin with a year. -/
def Dateless (s : Str) : Prop := ∃ w ws, words s = w :: ws ∧ isNumeric (w.take 4) = false

/-- What a line with an unknown keyword states: the keyword, which is no date and no number, a value, which is no date, and
possibly a unit. -/
def Foreign (items : List Str) : Prop :=
  ∃ k v r, items = k :: v :: r ∧ ¬ Known k ∧ Dateless k ∧ Dateless v ∧ (∀ w ws, words k = w :: ws → floatOk w = false)

end Ndm
