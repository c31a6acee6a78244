import Verif.XmlThreads

/-! # Specification for threads that use the same `NdmXmlIo` (C62) -/

namespace Ndm

/-- What a call gives on a new instance. -/
def XmlCall.alone (lib : XmlLib) : XmlCall → XmlResult
  | .read _ src => .read (XmlSelf.fromString lib {} src).1
  | .write _ o loc noNs => .wrote (XmlSelf.toString lib {} o loc noNs).1

/-- The schema locations were given in some call on the instance, or the instance had them before. -/
def Given (heap : Nat → XmlSelf) (calls : Nat → List XmlCall) (i : Nat) (cfg : Option Str × Option Str) : Prop :=
  (heap i).serializer = some cfg ∨ ∃ t o, XmlCall.write i o cfg.1 cfg.2 ∈ calls t

/-- What a call may give: the message that was read; or the text that was to be written, with given schema locations. -/
def MayGive (lib : XmlLib) (heap : Nat → XmlSelf) (calls : Nat → List XmlCall) (c : XmlCall) (r : XmlResult) : Prop :=
  match c with
  | .read .. => r = c.alone lib
  | .write i o _ _ => ∃ cfg, Given heap calls i cfg ∧ r = (XmlCall.write i o cfg.1 cfg.2).alone lib

end Ndm
