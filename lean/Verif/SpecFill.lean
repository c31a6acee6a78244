import Verif.SpecRt

/-! # An APM with its Euler elements filled in (specification for C28) -/

namespace Ndm

/-- The object in which the value `w` of every attribute `n` is replaced by `m n w`. -/
def Val.mapAttrs (m : Str → Val → Val) : Val → Val
  | .obj c vs => .obj c (vs.map fun nv => (nv.1, m nv.1 nv.2))
  | v => v

/-- The value, or if it is absent an object of class `c` with nothing in it. -/
def orBare (c : Cls) : Val → Val
  | .none => .obj c (c.attrs.map fun f => (f.name, if f.isList then .list [] else .none))
  | v => v

/-- The value `w` of the attribute `n` of Euler elements, absent angles or rates replaced by objects without rotations. -/
def fillRotations (n : Str) (w : Val) : Val :=
  if n = py "rotation_angles" then orBare .RotationAngleType w
  else if n = py "rotation_rates" then orBare .RotationRateType w
  else w

/-- Euler elements, absent ones replaced by an object with nothing in it. -/
def fillEuler (v : Val) : Val := (orBare .EulerElementsThreeType v).mapAttrs fillRotations

/-- The object in which the value of one attribute is changed by `g`. -/
def Val.mapAttr (k : Str) (g : Val → Val) (v : Val) : Val := v.mapAttrs fun n w => if n = k then g w else w

/-- The APM in which absent Euler elements are replaced by ones with nothing in them, and absent angles or rates by ones
without rotations. -/
def fillApm (o : Val) : Val :=
  o.mapAttr (py "body") fun b => b.mapAttr (py "segment") fun s => s.mapAttr (py "data") fun d => d.mapAttr (py "euler_elements_three") fillEuler

end Ndm
