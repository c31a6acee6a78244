import Verif.Spec
import Verif.Obj

/-! # Where the data in an object comes from (specification for C37)

Stated over the schema table, the number/enumeration readings of a text (`parseInt`, `Dec.parse`) and the lines of the
message; nothing here refers to how the reader finds sections or builds objects. -/

namespace Ndm

/-- What remains of a comment line's text after an optional leading '='. -/
inductive CommentText : Str → Str → Prop
  | plain {r t : Str} : Core r t → t.head? ≠ some '=' → CommentText r t
  | eq {r t u : Str} : Core r ('=' :: t) → Core t u → CommentText r u

/-- The items stated by one (trimmed, non-empty) line: `[COMMENT, text]`, `[keyword, value]`,
`[keyword, value, unit]`, or `[line]` for a line without '='. -/
inductive LineItems : Str → List Str → Prop
  | comment {r t : Str} : CommentText r t → LineItems ((py "COMMENT") ++ r) [(py "COMMENT"), t]
  | bare {l : Str} : ¬ (py "COMMENT") <+: l → '=' ∉ l → LineItems l [l]
  | value {a b k t : Str} : ¬ (py "COMMENT") <+: a ++ '=' :: b → '=' ∉ a → Core a k → Core b t → ¬ UnitLike t →
      LineItems (a ++ '=' :: b) [k, t]
  | united {a b u k t v : Str} : ¬ (py "COMMENT") <+: a ++ '=' :: (b ++ '[' :: u) → '=' ∉ a → '[' ∉ b →
      u.getLast? = some ']' → Core a k → Core b t → Core (u.filter fun c => c ≠ '[' && c ≠ ']') v →
      LineItems (a ++ '=' :: (b ++ '[' :: u)) [k, t, v]

/-- `v` is the text `s` read as a value of type `t`, or kept as a text.  In attitude states (`att`) numbers are
moreover rewritten without exponent, and "Type" is removed from texts, before they are stored. -/
inductive ReadAs : Bool → FTy → Str → Val → Prop
  | text {att : Bool} {t : FTy} (s : Str) : ReadAs att t s (.str s)
  | int {att : Bool} {s : Str} {i : Int} : parseInt s = some i → ReadAs att .int s (.int i)
  | dec {att : Bool} {s : Str} {d : Dec} : Dec.parse s = some d → ReadAs att .dec s (.dec d)
  | enum {att : Bool} {c : Cls} (s : Str) : ReadAs att (.cls c) s (.enum c s)
  | plain {t : FTy} {s : Str} {d : Dec} : ReadAs true t s (.dec d) → ReadAs true t s (.dec d.plain)
  | untyped {t : FTy} {s x : Str} {v : Val} : ReadAs true t s (.str x) → ReadAs true t (removeAll (py "Type") x) v →
      ReadAs true t s v

/-- The unit, if the items after keyword and value include one. -/
def unitOf : List Str → List (Str × Str)
  | [] => []
  | u :: _ => [(py "units", u)]

/-- The keywords of columns: of OEM state vector lines, of covariance matrix rows and of AEM attitude lines. -/
def columnKeywords : List Str :=
  [py "EPOCH", py "X", py "Y", py "Z", py "X_DOT", py "Y_DOT", py "Z_DOT", py "X_DDOT", py "Y_DDOT", py "Z_DDOT",
   py "CX_X", py "CY_X", py "CY_Y", py "CZ_X", py "CZ_Y", py "CZ_Z",
   py "CX_DOT_X", py "CX_DOT_Y", py "CX_DOT_Z", py "CX_DOT_X_DOT",
   py "CY_DOT_X", py "CY_DOT_Y", py "CY_DOT_Z", py "CY_DOT_X_DOT", py "CY_DOT_Y_DOT",
   py "CZ_DOT_X", py "CZ_DOT_Y", py "CZ_DOT_Z", py "CZ_DOT_X_DOT", py "CZ_DOT_Y_DOT", py "CZ_DOT_Z_DOT",
   py "Q1", py "Q2", py "Q3", py "QC", py "Q1_DOT", py "Q2_DOT", py "Q3_DOT", py "QC_DOT",
   py "X_ANGLE", py "Y_ANGLE", py "Z_ANGLE", py "X_RATE", py "Y_RATE", py "Z_RATE"]

/-- The messages whose data lines have columns. -/
def ephemerides : List Cls := [.Oem, .Aem]

/-- `Stated M L k t A`: the lines `L` of a message of the kind `M` state the text `t`, with attributes `A`, under the keyword `k`. -/
inductive Stated (M : Cls) (L : List (List Str)) : Str → Str → List (Str × Str) → Prop
  /-- A line `k = t [unit]`. -/
  | line {k t : Str} {r : List Str} : (k :: t :: r) ∈ L → Stated M L k t (unitOf r)
  /-- A user-defined parameter, named by the keyword of its line. -/
  | user {k t : Str} {r : List Str} : (k :: t :: r) ∈ L →
      Stated M L (py "USER_DEFINED") t [(py "parameter", removeAll (py "USER_DEFINED_") k)]
  /-- A column of a line of an orbit or attitude ephemeris.  (Which column has which keyword is settled by C29 and
  C31.) -/
  | word {k s w : Str} {r : List Str} : M ∈ ephemerides → k ∈ columnKeywords → (s :: r) ∈ L → w ∈ words s → Stated M L k w []
  /-- The time tag of a tracking observation `k = epoch value`. -/
  | time {k t w : Str} {r ws : List Str} : M = .Tdm → (k :: t :: r) ∈ L → words t = w :: ws → Stated M L (py "EPOCH") w []
  /-- The value of a tracking observation. -/
  | observed {k t w x : Str} {r ws : List Str} : M = .Tdm → (k :: t :: r) ∈ L → words t = w :: x :: ws → Stated M L k x []

/-- The names of rotation angles and rates. -/
def rotationNames : List Str :=
  [py "X_ANGLE", py "Y_ANGLE", py "Z_ANGLE", py "X_RATE", py "Y_RATE", py "Z_RATE"]

/-- `AxisOf c k`: the digit `c` of a rotation sequence stands for the axis whose angle or rate is called `k`. -/
inductive AxisOf : Char → Str → Prop
  | x1 : AxisOf '1' (py "X_ANGLE")
  | x2 : AxisOf '1' (py "X_RATE")
  | y1 : AxisOf '2' (py "Y_ANGLE")
  | y2 : AxisOf '2' (py "Y_RATE")
  | z1 : AxisOf '3' (py "Z_ANGLE")
  | z2 : AxisOf '3' (py "Z_RATE")

/-- `StatedRotation M L k t A`: the lines state the angle or rate `t` about the axis named by `k`. -/
inductive StatedRotation (M : Cls) (L : List (List Str)) : Str → Str → List (Str × Str) → Prop
  /-- A line of its own. -/
  | line {k t : Str} {r : List Str} : (k :: t :: r) ∈ L → StatedRotation M L k t (unitOf r)
  /-- A word of an attitude ephemeris line, the axis being one of a stated rotation sequence. -/
  | word {k s w seq : Str} {c : Char} {r r' : List Str} : M = .Aem → (s :: r) ∈ L → w ∈ words s →
      (py "EULER_ROT_SEQ" :: seq :: r') ∈ L → c ∈ seq → AxisOf c k → StatedRotation M L k w []

/-- The classes of rotation angles and rates. -/
def rotationClasses : List Cls := [.RotationAngleComponentType, .RotationRateComponentType]

/-- Objects of the class are made of other values; they have no text of their own. -/
def Cls.IsBlock (c : Cls) : Prop := ∀ f ∈ c.fields, f.kind ≠ .text

/-- Every attribute of an object of a simple class is empty, or the text, or one of the attributes `A`. -/
inductive SimpleFrom (att : Bool) (c : Cls) (t : Str) (A : List (Str × Str)) : List (Str × Val) → Prop
  | nil : SimpleFrom att c t A []
  | none {n : Str} {vs : List (Str × Val)} : SimpleFrom att c t A vs → SimpleFrom att c t A ((n, .none) :: vs)
  | empty {n : Str} {vs : List (Str × Val)} : SimpleFrom att c t A vs → SimpleFrom att c t A ((n, .list []) :: vs)
  | text {f : Field} {v : Val} {vs : List (Str × Val)} : f ∈ c.fields → f.kind = .text → ReadAs att f.ty t v →
      SimpleFrom att c t A vs → SimpleFrom att c t A ((f.name, v) :: vs)
  | attr {f : Field} {s : Str} {v : Val} {vs : List (Str × Val)} : f ∈ c.fields → f.kind = .attr →
      (f.xmlName, s) ∈ A → ReadAs att f.ty s v → SimpleFrom att c t A vs → SimpleFrom att c t A ((f.name, v) :: vs)

mutual
/-- `From M L att o`: everything the object `o` holds was stated by the lines `L`, under the keyword of the field that
holds it. -/
inductive From (M : Cls) (L : List (List Str)) : Bool → Val → Prop
  | block {att : Bool} {c : Cls} {vs : List (Str × Val)} : c.IsBlock → FieldsFrom M L att c vs → From M L att (.obj c vs)
  /-- An angle or rate of a rotation: one line or word. -/
  | rotation {att : Bool} {c : Cls} {k t n : Str} {A : List (Str × Str)} {vs : List (Str × Val)} :
      c ∈ rotationClasses → StatedRotation M L k t A → SimpleFrom att c t ((n, k) :: A) vs → From M L att (.obj c vs)
  | attitude {vs : List (Str × Val)} : From M L true (.obj .AttitudeStateType vs) →
      From M L false (.obj .AttitudeStateType vs)

inductive FieldsFrom (M : Cls) (L : List (List Str)) : Bool → Cls → List (Str × Val) → Prop
  | nil {att : Bool} {c : Cls} : FieldsFrom M L att c []
  | cons {att : Bool} {c : Cls} {f : Field} {v : Val} {vs : List (Str × Val)} : f ∈ c.fields →
      FieldFrom M L att f v → FieldsFrom M L att c vs → FieldsFrom M L att c ((f.name, v) :: vs)

inductive FieldFrom (M : Cls) (L : List (List Str)) : Bool → Field → Val → Prop
  | none {att : Bool} {f : Field} : FieldFrom M L att f .none
  | list {att : Bool} {f : Field} {xs : List Val} : ItemsFrom M L att f xs → FieldFrom M L att f (.list xs)
  | one {att : Bool} {f : Field} {v : Val} : ItemFrom M L att f v → FieldFrom M L att f v

inductive ItemsFrom (M : Cls) (L : List (List Str)) : Bool → Field → List Val → Prop
  | nil {att : Bool} {f : Field} : ItemsFrom M L att f []
  | cons {att : Bool} {f : Field} {v : Val} {vs : List Val} : ItemFrom M L att f v → ItemsFrom M L att f vs →
      ItemsFrom M L att f (v :: vs)

/-- One value of an element field: a text stated under the field's keyword, an object of a simple class made of such a
text and its unit or parameter name, or a block whose content was stated. -/
inductive ItemFrom (M : Cls) (L : List (List Str)) : Bool → Field → Val → Prop
  | text {att : Bool} {f : Field} {t : Str} {A : List (Str × Str)} {v : Val} : f.kind = .elem →
      Stated M L f.xmlName t A → ReadAs att f.ty t v → ItemFrom M L att f v
  | simple {att : Bool} {f : Field} {c : Cls} {t : Str} {A : List (Str × Str)} {vs : List (Str × Val)} :
      f.kind = .elem → f.ty = .cls c → Stated M L f.xmlName t A → SimpleFrom att c t A vs →
      ItemFrom M L att f (.obj c vs)
  | block {att : Bool} {f : Field} {c : Cls} {vs : List (Str × Val)} : f.kind = .elem → f.ty = .cls c →
      From M L att (.obj c vs) → ItemFrom M L att f (.obj c vs)
end

end Ndm
