import Verif.SpecWritable
import Verif.SpecEph

/-! # Data lines that the writer can reproduce (specification for C52) -/

namespace Ndm

/-- Every state vector of an orbit ephemeris has a position and a velocity. -/
def CompleteStates (v : Val) : Prop :=
  ∀ ws, Within (.obj .StateVectorAccType ws) v → ∃ x, (py "z_dot", x) ∈ ws ∧ x ≠ .none

/-- No number is an infinity or a NaN. -/
def FiniteNumbers (v : Val) : Prop := ∀ d, Within (.dec d) v → d.Finite

/-- The epochs of tracking observations have fewer than 30 characters. -/
def ShortEpochs (v : Val) : Prop :=
  ∀ ws e, Within (.obj .TrackingDataObservationType ws) v → (py "epoch", .str e) ∈ ws → e.length < 30

/-- An attribute is absent, or a text that is not mistaken for a point in time. -/
def NoDate (v : Val) : Prop := v = .none ∨ ∃ s, v = .str s ∧ Undated [[], s]

/-- The metadata of tracking data begin with something that is not mistaken for a point in time: they state a time system
of the schema, and neither of the two keywords before it has a date. -/
def UndatedMetadata (v : Val) : Prop :=
  ∀ ws, Within (.obj .TdmMetadata ws) v → (∃ s, (py "time_system", .enum .TimeSystemType s) ∈ ws) ∧
    ∀ k ∈ [py "track_id", py "data_types"], ∀ x, (k, x) ∈ ws → NoDate x

/-- The message has data lines that can be written: a condition for orbit ephemerides and one for tracking data. -/
structure CompleteData (v : Val) : Prop where
  states : CompleteStates v
  finite : ∀ ws, Within (.obj .OemCovarianceMatrixType ws) v → FiniteNumbers (.obj .OemCovarianceMatrixType ws)
  numeric : NumericObservations v
  short : ShortEpochs v
  undated : UndatedMetadata v

end Ndm
