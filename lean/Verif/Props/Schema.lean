import Verif.Props.Lines

/-! # C20: keywords are written under their CCSDS names -/

namespace Ndm

/-- The keyword fields of a class: those whose CCSDS name is in upper case. -/
def keywordFields (c : Cls) : List (Field × Str) :=
  c.fields.filterMap fun f => match f.ccsds with
    | some n => if isUpper n then some (f, n) else none
    | none => none

theorem mem_keywordFields {c : Cls} {f : Field} {n : Str} :
    (f, n) ∈ keywordFields c ↔ f ∈ c.fields ∧ f.ccsds = some n ∧ isUpper n = true := by
  simp only [keywordFields, List.mem_filterMap]
  constructor
  · rintro ⟨g, hg, h⟩
    cases hc : g.ccsds with
    | none => rw [hc] at h; cases h
    | some m =>
      rw [hc] at h
      simp only at h
      split at h
      · simp only [Option.some.injEq, Prod.mk.injEq] at h
        obtain ⟨rfl, rfl⟩ := h
        exact ⟨hg, hc, by assumption⟩
      · cases h
  · rintro ⟨hf, hc, hu⟩
    exact ⟨f, hf, by simp [hc, hu]⟩

/-- What is checked of every keyword field of the table. -/
def keywordOk (p : Field × Str) : Bool :=
  upper p.1.name == p.2 && p.1.xmlName == p.2 && p.1.init && !p.2.contains '=' && strip p.2 == p.2 && !p.2.isEmpty &&
  (p.2 == py "COMMENT" || !(py "COMMENT").isPrefixOf p.2)

/-- The complete schema, checked field by field in the kernel. -/
theorem schema_keywords_ok : (Cls.all.all fun c => (keywordFields c).all keywordOk) = true := by decide +kernel

theorem keywordOk_of_mem {c : Cls} {f : Field} {n : Str} (hf : f ∈ c.fields) (hn : f.ccsds = some n)
    (hu : isUpper n = true) : keywordOk (f, n) = true := by
  have h := schema_keywords_ok
  rw [List.all_eq_true] at h
  have h := h c (Cls.mem_all c)
  rw [List.all_eq_true] at h
  exact h (f, n) (mem_keywordFields.mpr ⟨hf, hn, hu⟩)

theorem keyword_of_schema {c : Cls} {f : Field} {n : Str} (hf : f ∈ c.fields) (hn : f.ccsds = some n)
    (hu : isUpper n = true) (hc : n ≠ py "COMMENT") : Keyword n ∧ upper f.name = n := by
  have h := keywordOk_of_mem hf hn hu
  simp only [keywordOk, Bool.and_eq_true, Bool.or_eq_true, Bool.not_eq_true', beq_iff_eq] at h
  obtain ⟨⟨⟨⟨⟨⟨h1, h2⟩, h3⟩, h4⟩, h5⟩, h6⟩, h7⟩ := h
  refine ⟨⟨?_, trimmed_iff_strip.mpr h5, ?_, ?_⟩, h1⟩
  · intro h0; rw [h0] at h6; cases h6
  · intro h0; rw [List.contains_iff_mem.mpr h0] at h4; cases h4
  · rcases h7 with h7 | h7
    · exact absurd h7 hc
    · intro h0
      rw [List.isPrefixOf_iff_prefix.mpr h0] at h7; cases h7

/-- The keyword that the reader sees in a written line is the upper-cased key, whatever the value and unit. -/
theorem parseLine_fillKvn_key (key value : Str) (unit : Option Str) (hk : Keyword (upper key)) :
    (parseLine (fillKvn key value unit)).map (·.headD []) = some (upper key) := by
  have hb : Blank (List.replicate (20 - (upper key).length) ' ' ++ [' ']) := by
    have := blank_replicate (20 - (upper key).length + 1)
    rwa [List.replicate_succ'] at this
  have e : ∃ t, fillKvn key value unit =
      [] ++ upper key ++ (List.replicate (20 - (upper key).length) ' ' ++ [' ']) ++ '=' :: t := by
    unfold fillKvn ljust
    split
    · split
      · exact ⟨' ' :: value, by simp [lit]⟩
      · exact ⟨_, by simp [lit]; rfl⟩
    · exact ⟨' ' :: value, by simp [lit]⟩
  obtain ⟨t, e⟩ := e
  rw [e, parseLine_data _ blank_nil hk hb]
  split <;> rfl

/-- A value a keyword field can hold: text, number, enumeration member, or an object with `value` and `units`. -/
inductive LeafVal : Val → Prop
  | str (s) : LeafVal (.str s)
  | int (i) : LeafVal (.int i)
  | dec (d) : LeafVal (.dec d)
  | enum (c v) : LeafVal (.enum c v)
  | plain (c v) : LeafVal (.obj c [(py "value", v), (py "units", .none)])
  | units (c v uc u) : LeafVal (.obj c [(py "value", v), (py "units", .enum uc u)])

/-- **C20.** For every class of the data model, every keyword field `f` with CCSDS name `n`, and every value the field
can hold, the writer emits one line, whose keyword, as the reader sees it, is `n`; and `n` is also the XML name of the
field. -/
theorem C20_keywords (c : Cls) (f : Field) (n : Str) (hf : f ∈ c.fields) (hn : f.ccsds = some n)
    (hu : isUpper n = true) (hc : n ≠ py "COMMENT") (v : Val) (hv : LeafVal v) (hh : headerOf v = none)
    (out : List Str) :
    f.xmlName = n ∧ ∃ line, collateSub f.name out v = .ok (out ++ [line]) ∧
      (parseLine line).map (·.headD []) = some n := by
  obtain ⟨hk, hup⟩ := keyword_of_schema hf hn hu hc
  refine ⟨by simp [Field.xmlName, hn], ?_⟩
  have hkey : Keyword (upper f.name) := by rw [hup]; exact hk
  have hcm : f.name ≠ py "comment" := by
    intro h
    apply hc
    rw [← hup, h]; decide
  have line : ∀ value unit, (parseLine (fillKvn f.name value unit)).map (·.headD []) = some n := by
    intro value unit
    rw [parseLine_fillKvn_key _ _ _ hkey, hup]
  cases hv with
  | str s => exact ⟨_, rfl, line _ _⟩
  | int i => exact ⟨_, rfl, line _ _⟩
  | dec d => exact ⟨fillKvn f.name d.toStr none, by simp only [collateSub, if_neg hcm], line _ _⟩
  | enum c v => exact ⟨fillKvn f.name (pyStr (valueOr (.enum c v))) none, by simp only [collateSub, if_neg hcm], line _ _⟩
  | plain c v =>
    have hh' : headerName c = none := hh
    refine ⟨fillKvn f.name (pyStr v) none, ?_, line _ _⟩
    simp only [collateSub, hh', if_neg hcm]
    rfl
  | units c v uc u =>
    have hh' : headerName c = none := hh
    refine ⟨fillKvn f.name (pyStr v) (if (Val.str u).truthy then some u else none), ?_, line _ _⟩
    simp only [collateSub, hh', if_neg hcm]
    rfl

/-- **C20** (comments): the comment field is written under `COMMENT`, one line per comment. -/
theorem C20_comment (texts : List Str) (ht : ∀ t ∈ texts, Trimmed t) (out : List Str) :
    collateSub (py "comment") out (.list (texts.map .str)) =
      .ok (out ++ texts.map fun t => fillKvn (py "comment") t none) ∧
    (texts.map fun t => fillKvn (py "comment") t none).filterMap parseLine = texts.map fun t => [py "COMMENT", t] := by
  constructor
  · simp only [collateSub]
    rw [if_pos trivial, List.map_map]
    rfl
  · rw [List.filterMap_map]
    induction texts with
    | nil => rfl
    | cons t ts ih =>
      have h1 : (parseLine ∘ fun t => fillKvn (py "comment") t none) t = some [py "COMMENT", t] :=
        C08_comment t (ht t (by simp))
      rw [List.filterMap_cons, h1, ih (fun x hx => ht x (by simp [hx]))]
      rfl

/-- The number of keyword fields the statement covers. -/
example : (Cls.all.map fun c => (keywordFields c).length).sum > 400 := by decide +kernel
example : ∃ f ∈ Cls.OpmMetadata.fields, f.ccsds = some (py "REF_FRAME_EPOCH") ∧ isUpper (py "REF_FRAME_EPOCH") = true := by
  decide
example : LeafVal (.obj .PositionType [(py "value", .dec (.fin false 1 0)), (py "units", .enum .PositionUnits (py "km"))]) :=
  .units _ _ _ _

end Ndm
