import Verif.SpecRt

/-! # Texts that state a message (specification for C51)

The writer has one notation for a message (`Good Written`).  The reader is to accept every other way of stating it: the
keyword lines of an object in any order, comments anywhere among them, and any spelling of a number. -/

namespace Ndm

/-- A text that XML can represent. -/
def XmlText (s : Str) : Prop := ∀ c ∈ s, xmlChar c = true

instance (s : Str) : Decidable (XmlText s) := inferInstanceAs (Decidable (∀ c ∈ s, xmlChar c = true))

/-- One keyword line, with any spelling of a number: the line states that the attribute `f` is `v`. -/
inductive KeyText (f : Field) : Val → Line → Prop
  /-- a text (for a number or an enumeration: one that cannot be converted) -/
  | str {s : Str} : (∀ c, f.ty = .cls c → c.members ≠ none) → HasType f.ty (.str s) → XmlText s →
      KeyText f (.str s) [upper f.name, s]
  | int {i : Int} {s : Str} : f.ty = .int → parseInt s = some i → XmlText s → KeyText f (.int i) [upper f.name, s]
  | dec {d : Dec} {s : Str} : f.ty = .dec → Dec.parse s = some d → XmlText s → KeyText f (.dec d) [upper f.name, s]
  | enum {c : Cls} {ms : List (Str × Str)} {m s : Str} : f.ty = .cls c → c.members = some ms → (m, s) ∈ ms →
      KeyText f (.enum c s) [upper f.name, s]
  | number {c u : Cls} {d : Dec} {s : Str} : f.ty = .cls c → QuantityCls c u → Dec.parse s = some d → XmlText s →
      KeyText f (.obj c [(py "value", .dec d), (py "units", .none)]) [upper f.name, s]
  | quantity {c u : Cls} {d : Dec} {t : Str} {ms : List (Str × Str)} {m s : Str} : f.ty = .cls c → QuantityCls c u →
      Dec.parse t = some d → XmlText t → u.members = some ms → (m, s) ∈ ms →
      KeyText f (.obj c [(py "value", .dec d), (py "units", .enum u s)]) [upper f.name, t, s]

/-- The same lines, where the order of lines with the same keyword (such as comments) is kept. -/
def Reordered (a b : List Line) : Prop := ∀ t : Str, a.filter (·.key == t) = b.filter (·.key == t)

/-- The lines `own` state the keyword attributes `kvs` of an object of class `c`, in any order and spelling. -/
def Spelled (c : Cls) (kvs : List (Str × Val)) (own : List Line) : Prop :=
  ∃ own₀, KeysOf KeyText c.keyAttrs kvs own₀ ∧ Reordered own₀ own

/-- A rotation about one axis, with any spelling of the number. -/
inductive RotationText (c axes units : Cls) (attr : Str) : Val → Line → Prop
  | number {ms m key d t} : axes.members = some ms → (m, key) ∈ ms → Dec.parse t = some d → XmlText t →
      RotationText c axes units attr (.obj c [(py "value", .dec d), (attr, .enum axes key), (py "units", .none)])
        [key, t]
  | quantity {ms m key d t us m' u} : axes.members = some ms → (m, key) ∈ ms → Dec.parse t = some d → XmlText t →
      units.members = some us → (m', u) ∈ us →
      RotationText c axes units attr (.obj c [(py "value", .dec d), (attr, .enum axes key), (py "units", .enum units u)])
        [key, t, u]

/-- The classes with a notation of their own, with any spelling of numbers. -/
inductive OwnText : Cls → Val → List Line → Prop
  | user {v ls} : UserBlock v ls → OwnText .UserDefinedType v ls
  | relative {v ls} : RelativeDataOf KeyText v ls → OwnText .RelativeMetadataData v ls
  | angles {v ls} : RotationsOf .RotationAngleType (RotationText .RotationAngleComponentType .AngleKeywordType .AngleUnits
      (py "angle")) v ls → OwnText .RotationAngleType v ls
  | rates {v ls} : RotationsOf .RotationRateType (RotationText .RotationRateComponentType .AngleRateKeywordType .AngleRateUnits
      (py "rate")) v ls → OwnText .RotationRateType v ls

end Ndm
