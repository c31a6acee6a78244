import Verif.SpecWritable

/-! # What an object must have to be written in the key-value notation (specification for C72) -/

namespace Ndm

/-- Every rotation in `v` names its axis: whatever an object with units has besides its value and its units is a member of an
enumeration. -/
def NamedAxes (v : Val) : Prop :=
  ∀ c ws, Within (.obj c ws) v → (∃ u, (py "units", u) ∈ ws) → ∀ p ∈ ws, p.1 ≠ py "value" → p.1 ≠ py "units" → ∃ d m, p.2 = .enum d m

/-- Every user-defined parameter in `v` has a name. -/
def NamedParameters (v : Val) : Prop :=
  ∀ ws, Within (.obj .UserDefinedParameterType ws) v → ∃ s, Val.lookupVar (py "parameter") ws = some (.str s)

/-- Every state vector of an ephemeris in `v` has an epoch or a component. -/
def NonEmptyStates (v : Val) : Prop :=
  ∀ ws, Within (.obj .StateVectorAccType ws) v → ∃ p ∈ ws, (∃ s, p.2 = .str s ∧ s ≠ []) ∨ ∃ c us, p.2 = .obj c us

/-- The element an attitude state consists of: the first that is there. -/
def StateElement (ws : List (Str × Val)) (x : Val) : Prop :=
  ∃ before n after, ws = before ++ (n, x) :: after ∧ (∀ p ∈ before, p.2 = .none) ∧ x ≠ .none

/-- The attitude state is complete: it has an element, which is not a quaternion with its derivative and has an epoch and all its
parts; with a quaternion and rotation rates, all three rates are there. -/
def CompleteState (ws : List (Str × Val)) : Prop :=
  ∃ c avs, StateElement ws (.obj c avs) ∧ c ≠ .QuaternionDerivativeType ∧ (∃ e, Val.lookupVar (py "epoch") avs = some (.str e)) ∧
    (∀ p ∈ avs, p.1 ≠ py "epoch" → ∃ d bs, p.2 = .obj d bs) ∧
    (c = .QuaternionEulerRateType → ∀ n bs, (n, .obj .RotationRateType bs) ∈ avs → ∀ p ∈ bs, ∃ d us, p.2 = .obj d us)

/-- All attitude states in `v` are complete. -/
def CompleteAttitudes (v : Val) : Prop := ∀ ws, Within (.obj .AttitudeStateType ws) v → CompleteState ws

/-- The segment of an attitude ephemeris has quaternions. -/
def HasQuaternions (us : List (Str × Val)) : Prop :=
  ∃ ws c avs, Within (.obj .AttitudeStateType ws) (.obj .AemSegment us) ∧ StateElement ws (.obj c avs) ∧
    c ∈ [Cls.QuaternionEphemerisType, .QuaternionEulerRateType]

/-- The metadata of the segment say in which order the components of quaternions are written. -/
def StatesOrder (us : List (Str × Val)) : Prop :=
  ∃ ms q, Val.lookupVar (py "metadata") us = some (.obj .AemMetadata ms) ∧ Val.lookupVar (py "quaternion_type") ms = some q ∧ q ≠ .none

/-- Where a segment of an attitude ephemeris in `v` has quaternions, it or a segment before it says in which order their
components are written. -/
def TypedQuaternions (v : Val) : Prop :=
  ∀ ss, Within (.obj .AemBody [(py "segment", .list ss)]) v → ∀ before us after, ss = before ++ .obj .AemSegment us :: after →
    HasQuaternions us → ∃ us', .obj .AemSegment us' ∈ before ++ [.obj .AemSegment us] ∧ StatesOrder us'

/-- No epoch of an attitude state in `v` begins like the line that says the order. -/
def PlainEpochs (v : Val) : Prop :=
  ∀ ws, Within (.obj .AttitudeStateType ws) v → ∀ n c avs e, (n, .obj c avs) ∈ ws → Val.lookupVar (py "epoch") avs = some (.str e) →
    ¬ py "QUATERNION_TYPE" <+: e

end Ndm
