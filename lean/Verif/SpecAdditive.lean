import Verif.SpecWithin
import Verif.SpecEdit
import Verif.SpecConf

/-! # Specification for C77: parts that are written on their own -/

namespace Ndm

/-- Quaternions, and the attitude states that have them. -/
def quaternionClasses : List Cls := [.QuaternionType, .QuaternionRateType, .QuaternionDotType, .QuaternionStateType,
  .QuaternionEphemerisType, .QuaternionDerivativeType, .QuaternionEulerRateType]

/-- No state of an attitude ephemeris in `v` has a quaternion. -/
def NoQuaternions (v : Val) : Prop :=
  ∀ vs, Within (.obj .AttitudeStateType vs) v → ∀ c us, Within (.obj c us) (.obj .AttitudeStateType vs) → c ∉ quaternionClasses

/-- What is needed to write `x` is in `x`: the quaternions in it, as attitude states, are in segments of an AEM that state the order of
their components. -/
inductive SelfContained : Val → Prop
  | free {x : Val} : NoQuaternions x → SelfContained x
  | typed {q : Val} {ms : List (Str × Val)} {data : Val} : HasType (.cls .AemMetadata) (.obj .AemMetadata ms) → (py "quaternion_type", q) ∈ ms → q ≠ .none →
      SelfContained (.obj .AemSegment [(py "metadata", .obj .AemMetadata ms), (py "data", data)])
  | obj {c : Cls} {vs : List (Str × Val)} : c ∉ dataLineClasses → (∀ p ∈ vs, SelfContained p.2) → SelfContained (.obj c vs)
  | list {xs : List Val} : (∀ x ∈ xs, SelfContained x) → SelfContained (.list xs)

/-- What is beside the attribute `key` of the part at this path is self-contained. -/
def Apart (key : Str) : List Step → Val → Prop
  | [], .obj _ vs => ∀ p ∈ vs.eraseP (fun p => p.1 == key), SelfContained p.2
  | .f n :: path, .obj _ vs => (∀ p ∈ vs.eraseP (fun p => p.1 == n), SelfContained p.2) ∧ ∀ w, Val.lookupVar n vs = some w → Apart key path w
  | .i n :: path, .list xs => (∀ x ∈ xs.eraseIdx n, SelfContained x) ∧ ∀ w, xs[n]? = some w → Apart key path w
  | _, _ => True

/-- What the list in the attribute `key` may hold: objects of the class `d`, or comments. -/
inductive Item (key : Str) (d : Cls) : Val → Prop
  | obj {us : List (Str × Val)} : SelfContained (.obj d us) → Item key d (.obj d us)
  | comment {s : Str} : key = py "comment" → Item key d (.str s)

end Ndm
