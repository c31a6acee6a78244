import Verif.SpecRt

/-! # Replacing a part of an object (specification for C35 and C43) -/

namespace Ndm

/-- The object in which the part at the given path of attribute names is replaced by `x`. -/
def Val.setAt (x : Val) : List Str → Val → Val
  | [], _ => x
  | k :: p, .obj c vs => .obj c (vs.map fun nv => (nv.1, if nv.1 = k then Val.setAt x p nv.2 else nv.2))
  | _ :: _, v => v

/-- A block of user-defined parameters. -/
def userBlock (ps : List (Str × Str)) : Val :=
  .obj .UserDefinedType [(py "comment", .list []),
    (py "user_defined", .list (ps.map fun p =>
      .obj .UserDefinedParameterType [(py "value", userValue p.2), (py "parameter", .str p.1)]))]

/-- Every keyword of the block `y` (of class `d`) is also given in the block `x`. -/
def Covers (d : Cls) (x y : Val) : Prop :=
  ∀ lx ly, Good OwnNotation d x lx → Good OwnNotation d y ly →
    ∀ m ∈ ly, m.key ≠ py "COMMENT" → ∃ m' ∈ lx, m'.key = m.key

end Ndm
