import Verif.SpecRt
import Verif.Lemmas.Conf
import Verif.Props.Schema

/-! Facts about keyword attributes, checked over the whole schema table. -/

namespace Ndm

/-- The characters of keywords. -/
def keyChar (c : Char) : Bool := isAsciiUpper c || isAsciiDigit c || c == '_'

/-- What is checked of a keyword attribute. -/
def keyFieldOk (f : Field) : Bool :=
  decide (f.kind = .elem) && decide (f.ccsds = some (upper f.name)) && (upper f.name).all keyChar &&
  xmlTag (upper f.name) && isUpper (upper f.name) &&
  (if f.isList then f.name == py "comment" && decide (f.ty = .str)
   else f.name != py "comment" && f.name != py "user_defined" && !(py "COMMENT").isPrefixOf (upper f.name) &&
    (match f.ty with
     | .cls d => d.members.isSome || headerName d == none
     | _ => true))

/-- What is checked of an enumeration value. -/
def enumValueOk (s : Str) : Bool :=
  !s.isEmpty && strip s == s && s.all (fun c => xmlChar c && c != '\n' && c != '[' && c != ']')

theorem schema_enum_texts : (Cls.all.all fun c => match c.members with
    | some ms => ms.all fun p => enumValueOk p.2
    | none => true) = true := by decide +kernel

/-- What is checked of a class holding keyword attributes. -/
def Cls.keysOk (c : Cls) : Bool :=
  c.keyAttrs.all keyFieldOk && decide ((ccsdsKwList c).filter isUpper = c.keyAttrs.map (fun f => upper f.name)) &&
  decide ((c.keyAttrs.map fun f => upper f.name).Nodup)

theorem schema_keysOk : (Cls.all.all fun c => c.members.isSome || c.isValueClass ||
    decide (c = .UserDefinedType) || c.keysOk) = true := by decide +kernel

/-- A keyword attribute as the proofs use it. -/
structure KeyField (f : Field) : Prop where
  kind : f.kind = .elem
  ccsds : f.ccsds = some (upper f.name)
  chars : ∀ c ∈ upper f.name, keyChar c = true
  tag : xmlTag (upper f.name) = true
  list : f.isList = true → f.name = py "comment" ∧ f.ty = .str
  single : f.isList = false → f.name ≠ py "comment" ∧ f.name ≠ py "user_defined" ∧ ¬ py "COMMENT" <+: upper f.name ∧
    ∀ d, f.ty = .cls d → d.members = none → headerName d = none

theorem keyField_of_ok {f : Field} (h : keyFieldOk f = true) : KeyField f := by
  unfold keyFieldOk at h
  simp only [Bool.and_eq_true, decide_eq_true_eq, List.all_eq_true] at h
  obtain ⟨⟨⟨⟨⟨h1, h2⟩, h3⟩, h4⟩, h5⟩, h6⟩ := h
  refine ⟨h1, h2, h3, h4, ?_, ?_⟩
  · intro hl
    rw [if_pos hl] at h6
    simpa using h6
  · intro hl
    rw [if_neg (by simp [hl])] at h6
    simp only [Bool.and_eq_true, bne_iff_ne, ne_eq, Bool.not_eq_true'] at h6
    obtain ⟨⟨⟨h6, h7⟩, h8⟩, h9⟩ := h6
    refine ⟨h6, h7, ?_, ?_⟩
    · intro hp
      rw [List.isPrefixOf_iff_prefix.mpr hp] at h8
      cases h8
    · intro d hd hm
      rw [hd] at h9
      simpa [hm] using h9

/-- What is known of the keyword attributes of a class. -/
structure Keyed (c : Cls) : Prop where
  field : ∀ f ∈ c.keyAttrs, KeyField f
  kw : (ccsdsKwList c).filter isUpper = c.keyAttrs.map (fun f => upper f.name)
  nodup : (c.keyAttrs.map fun f => upper f.name).Nodup

theorem keyed {c : Cls} (hm : c.members = none) (hv : c.isValueClass = false) (hu : c ≠ .UserDefinedType) : Keyed c := by
  have h := all_classes schema_keysOk c
  rw [hm, hv] at h
  simp only [Option.isSome_none, Bool.or_self, Bool.false_or, Bool.or_eq_true, decide_eq_true_eq, hu, false_or,
    Cls.keysOk, Bool.and_eq_true, List.all_eq_true] at h
  exact ⟨fun f hf => keyField_of_ok (h.1.1 f hf), h.1.2, h.2⟩

theorem KeyField.xmlName {f : Field} (h : KeyField f) : f.xmlName = upper f.name := by
  simp [Field.xmlName, h.ccsds]

theorem KeyField.keyword {f : Field} (h : KeyField f) (hl : f.isList = false) : Keyword (upper f.name) := by
  have hc : ∀ c ∈ upper f.name, isSpace c = false ∧ c ≠ '=' := by
    intro c hc
    have := h.chars c hc
    simp only [keyChar, isAsciiUpper, isAsciiDigit, Bool.or_eq_true, Bool.and_eq_true, decide_eq_true_eq,
      beq_iff_eq] at this
    refine ⟨?_, ?_⟩
    · rcases this with (⟨h1, h2⟩ | ⟨h1, h2⟩) | h1
      · unfold isSpace; grind
      · unfold isSpace; grind
      · subst h1; decide
    · rintro rfl; revert this; decide
  have hne : upper f.name ≠ [] := by
    intro h0
    have := h.tag
    rw [h0] at this
    revert this; decide
  refine ⟨hne, ⟨?_, ?_⟩, fun hm => (hc _ hm).2 rfl, (h.single hl).2.2.1⟩
  · intro c hh; exact (hc c (List.mem_of_mem_head? hh)).1
  · intro c hh; exact (hc c (List.mem_of_getLast? hh)).1

theorem KeyField.noNewline {f : Field} (h : KeyField f) : '\n' ∉ upper f.name := by
  intro hm
  have := h.chars _ hm
  revert this; decide

structure EnumText (s : Str) : Prop where
  ne : s ≠ []
  trimmed : Trimmed s
  xml : ∀ c ∈ s, xmlChar c = true
  oneLine : '\n' ∉ s
  noOpen : '[' ∉ s
  noClose : ']' ∉ s

theorem enumText {c : Cls} {ms : List (Str × Str)} {m s : Str} (h : c.members = some ms) (hm : (m, s) ∈ ms) :
    EnumText s := by
  have h0 := all_classes schema_enum_texts c
  rw [h] at h0
  have h1 := List.all_eq_true.mp h0 _ hm
  simp only [enumValueOk, Bool.and_eq_true, Bool.not_eq_true', beq_iff_eq, List.all_eq_true, bne_iff_ne, ne_eq] at h1
  obtain ⟨⟨h1, h2⟩, h3⟩ := h1
  refine ⟨?_, trimmed_iff_strip.mpr h2, fun c hc => (h3 c hc).1.1.1, fun hc => (h3 _ hc).1.1.2 rfl,
    fun hc => (h3 _ hc).1.2 rfl, fun hc => (h3 _ hc).2 rfl⟩
  rintro rfl; cases h1

theorem EnumText.plain {s : Str} (h : EnumText s) : Plain s :=
  ⟨h.trimmed, h.oneLine, h.xml, fun hu => h.noOpen hu.1⟩

end Ndm
