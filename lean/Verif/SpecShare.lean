import Verif.FileThreads

/-! # Specification for calls on the same disk (C60, C61) -/

namespace Ndm

/-- The file a call reads or writes. -/
def FileCall.file : FileCall → Str
  | .read path => path.name
  | .write _ _ path _ _ => path.name

/-- The call writes. -/
def FileCall.Writes : FileCall → Prop
  | .read _ => False
  | .write .. => True

/-- What a call gives back when nothing else happens. -/
def FileCall.result (lib : XmlLib) (P : Platform) (d : Disk) : FileCall → FileResult
  | .read path => .read (ndmFromPath lib P d path)
  | .write o f path loc noNs => .wrote (ndmToFile lib P d o f path loc noNs).1

/-- What calls made one after the other give back. -/
def callResults (lib : XmlLib) (P : Platform) : Disk → List FileCall → List FileResult
  | _, [] => []
  | d, c :: cs => c.result lib P d :: callResults lib P (c.run lib P d) cs

/-- The number of steps that are certainly enough for a call, when every step reads or writes at least one byte. -/
def FileCall.steps (lib : XmlLib) (P : Platform) (d : Disk) : FileCall → Nat
  | .read path => ((d path.name).getD []).length + 2
  | .write o f path loc noNs => match ndmFileText lib o f path loc noNs with
    | .error _ => 1
    | .ok t => ((P.encode (P.newlines t)).getD []).length + 2

/-- The number of steps that are certainly enough for calls made one after the other. -/
def callSteps (lib : XmlLib) (P : Platform) : Disk → List FileCall → Nat
  | _, [] => 0
  | d, c :: cs => c.steps lib P d + callSteps lib P (c.run lib P d) cs

/-- No thread writes a file that another one reads or writes. -/
def Separate (calls : Nat → List FileCall) : Prop :=
  ∀ t t', t ≠ t' → ∀ c ∈ calls t, ∀ c' ∈ calls t', c.Writes → c.file ≠ c'.file

/-- A beginning of the old contents, continued by what the new contents have at that place, as far as it goes or less. -/
def Mixed (old new b : List UInt8) : Prop := ∃ k n, b = old.take k ++ (new.drop k).take n

end Ndm
