import Verif.SpecConf
import Verif.Spec
import Verif.Pre
import Verif.Tree

/-! # Well-formed messages (specification for the round-trip properties C21-C28)

`Good A c v ls`: `v` is a well-formed object of class `c`, and `ls` are the lines (keyword, value, optional unit) that
the CCSDS keyword-value notation prescribes for it, in order.  The relation is defined from the schema table alone.
Classes with a notation of their own are given by the parameter `A`. -/

namespace Ndm

/-- The keyword of a line. -/
def Line.key (l : Line) : Str := l.headD []

/-- The attributes written as keyword lines (`comment` included). -/
def Cls.keyAttrs (c : Cls) : List Field := c.attrs.filter fun f => !isClassField f

/-- The attributes holding nested objects. -/
def Cls.blockAttrs (c : Cls) : List Field := c.attrs.filter isClassField

/-- A text that fits on one line, is not mistaken for a value with a unit and is representable in XML. -/
structure Plain (s : Str) : Prop where
  trimmed : Trimmed s
  oneLine : '\n' ∉ s
  xml : ∀ c ∈ s, xmlChar c = true
  noUnit : ¬ UnitLike s

/-- A comment text. -/
structure PlainComment (s : Str) : Prop where
  trimmed : Trimmed s
  oneLine : '\n' ∉ s
  xml : ∀ c ∈ s, xmlChar c = true

/-- The class of a number with an optional unit, and the enumeration of its units. -/
def QuantityCls (c u : Cls) : Prop :=
  ∃ fv fu, c.members = none ∧ c.attrs = [fv, fu] ∧ fv.name = py "value" ∧ fv.ty = .dec ∧ fu.name = py "units" ∧
    fu.ty = .cls u

/-- One keyword line: the attribute `f` holds `v`, written as `line`. -/
inductive KeyVal (f : Field) : Val → Line → Prop
  /-- a text (for a number or an enumeration: one that could not be converted) -/
  | str {s : Str} : (∀ c, f.ty = .cls c → c.members ≠ none) → HasType f.ty (.str s) → Plain s →
      KeyVal f (.str s) [upper f.name, s]
  | int {i : Int} : f.ty = .int → KeyVal f (.int i) [upper f.name, intStr i]
  | dec {d : Dec} : f.ty = .dec → KeyVal f (.dec d) [upper f.name, d.toStr]
  | enum {c : Cls} {ms : List (Str × Str)} {m s : Str} : f.ty = .cls c → c.members = some ms → (m, s) ∈ ms →
      KeyVal f (.enum c s) [upper f.name, s]
  | number {c u : Cls} {d : Dec} : f.ty = .cls c → QuantityCls c u →
      KeyVal f (.obj c [(py "value", .dec d), (py "units", .none)]) [upper f.name, d.toStr]
  | quantity {c u : Cls} {d : Dec} {ms : List (Str × Str)} {m s : Str} : f.ty = .cls c → QuantityCls c u →
      u.members = some ms → (m, s) ∈ ms →
      KeyVal f (.obj c [(py "value", .dec d), (py "units", .enum u s)]) [upper f.name, d.toStr, s]

/-- The keyword attributes of an object and their lines: absent ones leave no line, comments one line each.  `R f v l`
says that `l` is a line for the value `v` of the attribute `f`. -/
inductive KeysOf (R : Field → Val → Line → Prop) : List Field → List (Str × Val) → List Line → Prop
  | nil : KeysOf R [] [] []
  | absent {f fs vs ls} : f.isList = false → KeysOf R fs vs ls → KeysOf R (f :: fs) ((f.name, .none) :: vs) ls
  | value {f fs v vs l ls} : f.isList = false → R f v l → KeysOf R fs vs ls →
      KeysOf R (f :: fs) ((f.name, v) :: vs) (l :: ls)
  | comments {f : Field} {fs : List Field} {texts : List Str} {vs ls} : f.isList = true → f.name = py "comment" →
      (∀ t ∈ texts, PlainComment t) → KeysOf R fs vs ls →
      KeysOf R (f :: fs) ((f.name, .list (texts.map .str)) :: vs) (texts.map (fun t => [py "COMMENT", t]) ++ ls)

/-- The keyword attributes of an object and the lines they are written as. -/
abbrev GoodKeys : List Field → List (Str × Val) → List Line → Prop := KeysOf KeyVal

/-- The keyword attributes of an object of class `c` and the lines they are written as. -/
abbrev Written (c : Cls) (kvs : List (Str × Val)) (own : List Line) : Prop := GoodKeys c.keyAttrs kvs own

/-- How the keyword lines `own` of an object of class `c` and the lines `ls` of its nested objects must be laid out
for a reader that knows where an object begins only by its keywords:

* an object with `comment` as its only keyword has at most one comment, and without one the next line exists and is
  not a comment either;
* any other object has a keyword line after its comments, unless it is an object with nested objects that has neither
  comments nor keywords. -/
def Laid (c : Cls) (own ls : List Line) : Prop :=
  if c.keyAttrs.map (·.name) = [py "comment"] then
    own.length ≤ 1 ∧ (own = [] → ∃ l, ls.head? = some l ∧ l.key ≠ py "COMMENT")
  else own.getLast?.map Line.key ≠ some (py "COMMENT") ∧ (c.blockAttrs = [] → own ≠ [])

/-- The classes that are not written as "keywords, then nested objects". -/
def Cls.ownNotation (c : Cls) : Bool :=
  c = .UserDefinedType || c = .RelativeMetadataData || c = .RotationAngleType || c = .RotationRateType ||
  c = .OemBody || c = .AemBody || c = .TdmBody

mutual
/-- A well-formed object of class `c` and its lines.  `K c kvs own` says that `own` are the lines for the keyword
attributes `kvs`. -/
inductive GoodOf (K : Cls → List (Str × Val) → List Line → Prop)
    (A : Cls → Val → List Line → Prop) : Cls → Val → List Line → Prop
  | special {c v ls} : A c v ls → GoodOf K A c v ls
  | obj {c kvs bvs own ls} : c.ownNotation = false → K c kvs own → GoodBlocksOf K A c.blockAttrs bvs ls →
      Laid c own ls → GoodOf K A c (.obj c (kvs ++ bvs)) (own ++ ls)

/-- The nested objects of an object and their lines.  Only an object without nested objects can be absent, and only a
list of such objects can be empty. -/
inductive GoodBlocksOf (K : Cls → List (Str × Val) → List Line → Prop)
    (A : Cls → Val → List Line → Prop) : List Field → List (Str × Val) → List Line → Prop
  | nil : GoodBlocksOf K A [] [] []
  | absent {f fs d vs ls} : f.isList = false → f.ty = .cls d → d.blockAttrs = [] → GoodBlocksOf K A fs vs ls →
      GoodBlocksOf K A (f :: fs) ((f.name, .none) :: vs) ls
  | one {f fs d v vs l ls} : f.isList = false → f.ty = .cls d → GoodOf K A d v l → GoodBlocksOf K A fs vs ls →
      GoodBlocksOf K A (f :: fs) ((f.name, v) :: vs) (l ++ ls)
  | many {f fs d xs vs l ls} : f.isList = true → f.ty = .cls d → (d.blockAttrs ≠ [] → xs ≠ []) →
      GoodItemsOf K A d xs l → GoodBlocksOf K A fs vs ls →
      GoodBlocksOf K A (f :: fs) ((f.name, .list xs) :: vs) (l ++ ls)

/-- The objects of a list and their lines: each has at least one line, and a keyword given in one of them is given in
all earlier ones. -/
inductive GoodItemsOf (K : Cls → List (Str × Val) → List Line → Prop)
    (A : Cls → Val → List Line → Prop) : Cls → List Val → List Line → Prop
  | nil {d} : GoodItemsOf K A d [] []
  | cons {d x xs l ls} : GoodOf K A d x l → l ≠ [] → (∀ m ∈ ls, m.key ≠ py "COMMENT" → ∃ m' ∈ l, m'.key = m.key) →
      GoodItemsOf K A d xs ls → GoodItemsOf K A d (x :: xs) (l ++ ls)
end

/-- A well-formed object of class `c` and the lines it is written as. -/
abbrev Good (A : Cls → Val → List Line → Prop) : Cls → Val → List Line → Prop := GoodOf Written A

abbrev GoodBlocks (A : Cls → Val → List Line → Prop) : List Field → List (Str × Val) → List Line → Prop :=
  GoodBlocksOf Written A

abbrev GoodItems (A : Cls → Val → List Line → Prop) : Cls → List Val → List Line → Prop := GoodItemsOf Written A

/-- A user-defined parameter that a keyword line can hold. -/
structure UserParam (name value : Str) : Prop where
  trimmed : Trimmed name
  noEq : '=' ∉ name
  oneLine : '\n' ∉ name
  upperCase : upper name = name
  xml : ∀ c ∈ name, xmlChar c = true
  /-- the reader removes every occurrence of the prefix -/
  noPrefix : ¬ py "USER_DEFINED_" <:+: name
  plain : Plain value

/-- The value of a user-defined parameter: an empty text is no value. -/
def userValue (s : Str) : Val := if s = [] then .none else .str s

/-- A block of user-defined parameters and its lines `USER_DEFINED_name = value`: at least one parameter, different
names and no comments. -/
inductive UserBlock : Val → List Line → Prop
  | mk {ps : List (Str × Str)} : ps ≠ [] → (∀ p ∈ ps, UserParam p.1 p.2) → (ps.map (·.1)).Nodup →
      UserBlock (.obj .UserDefinedType [(py "comment", .list []),
          (py "user_defined", .list (ps.map fun p =>
            .obj .UserDefinedParameterType [(py "value", userValue p.2), (py "parameter", .str p.1)]))])
        (ps.map fun p => [py "USER_DEFINED_" ++ p.1, p.2])

/-- The relative data of a conjunction: the relative state vector, if given, is written between the relative speed and
the screening period.  One of the keywords before it is given. -/
inductive RelativeDataOf (R : Field → Val → Line → Prop) : Val → List Line → Prop
  | mk {before after : List (Str × Val)} {rsv : Val} {l₁ lᵣ l₂ : List Line} :
      KeysOf R ((Cls.keyAttrs .RelativeMetadataData).take 4) before l₁ →
      (rsv = .none ∧ lᵣ = [] ∨
        ∃ vs, rsv = .obj .RelativeStateVectorType vs ∧ KeysOf R (Cls.keyAttrs .RelativeStateVectorType) vs lᵣ ∧ lᵣ ≠ []) →
      KeysOf R ((Cls.keyAttrs .RelativeMetadataData).drop 4) after l₂ →
      l₁ ≠ [] → l₁.getLast?.map Line.key ≠ some (py "COMMENT") →
      RelativeDataOf R (.obj .RelativeMetadataData (before ++ (py "relative_state_vector", rsv) :: after)) (l₁ ++ lᵣ ++ l₂)

abbrev RelativeData : Val → List Line → Prop := RelativeDataOf KeyVal

/-- A rotation about one axis: the axis (an enumeration value) is the keyword of its line. -/
inductive Rotation (c axes units : Cls) (attr : Str) : Val → Line → Prop
  | number {ms m key d} : axes.members = some ms → (m, key) ∈ ms →
      Rotation c axes units attr (.obj c [(py "value", .dec d), (attr, .enum axes key), (py "units", .none)])
        [key, d.toStr]
  | quantity {ms m key d us m' u} : axes.members = some ms → (m, key) ∈ ms → units.members = some us → (m', u) ∈ us →
      Rotation c axes units attr (.obj c [(py "value", .dec d), (attr, .enum axes key), (py "units", .enum units u)])
        [key, d.toStr, u]

/-- Three rotations, one after the other, or none at all. -/
inductive RotationsOf (c : Cls) (P : Val → Line → Prop) : Val → List Line → Prop
  | none : RotationsOf c P (.obj c [(py "rotation1", .none), (py "rotation2", .none), (py "rotation3", .none)]) []
  | mk {v₁ v₂ v₃ l₁ l₂ l₃} : P v₁ l₁ → P v₂ l₂ → P v₃ l₃ →
      RotationsOf c P (.obj c [(py "rotation1", v₁), (py "rotation2", v₂), (py "rotation3", v₃)]) [l₁, l₂, l₃]

/-- Three rotations about any axes, or none. -/
abbrev Rotations (c d axes units : Cls) (attr : Str) : Val → List Line → Prop := RotationsOf c (Rotation d axes units attr)

/-- The notations of the classes that have their own. -/
inductive OwnNotation : Cls → Val → List Line → Prop
  | user {v ls} : UserBlock v ls → OwnNotation .UserDefinedType v ls
  | relative {v ls} : RelativeData v ls → OwnNotation .RelativeMetadataData v ls
  | angles {v ls} : Rotations .RotationAngleType .RotationAngleComponentType .AngleKeywordType .AngleUnits (py "angle") v ls →
      OwnNotation .RotationAngleType v ls
  | rates {v ls} : Rotations .RotationRateType .RotationRateComponentType .AngleRateKeywordType .AngleRateUnits (py "rate") v ls →
      OwnNotation .RotationRateType v ls

/-- A well-formed object of class `c`. -/
def WellFormed (c : Cls) (v : Val) : Prop := ∃ ls, Good OwnNotation c v ls

end Ndm
