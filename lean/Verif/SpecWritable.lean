import Verif.SpecWithin

/-! # Objects with units the schema does not know (specification for C55) -/

namespace Ndm

/-- Some part of the object `v` has a unit that is not one of those the schema lists for it: its `units` attribute is a
text (texts that cannot be converted to the declared enumeration are kept, C38). -/
def UnknownUnit (v : Val) : Prop :=
  ∃ c ws s, Within (.obj c ws) v ∧ Val.lookupVar (py "units") ws = some (.str s) ∧ s ≠ []

/-- Every tracking observation in `v` has a value that is a number. -/
def NumericObservations (v : Val) : Prop :=
  ∀ ws, Within (.obj .TrackingDataObservationType ws) v → ∃ p ∈ ws, p.1 ≠ py "epoch" ∧ ∃ d, p.2 = .dec d

end Ndm
