import Verif.XmlIo
import Verif.Lemmas.Str

/-! # C01, C02: format detection and refusal -/

namespace Ndm

/-- The whitespace-stripped content of a text exists and is unique: `Core` is a function. -/
theorem core_exists_unique (s : Str) : ∃ core, Core s core ∧ ∀ core', Core s core' → core' = core :=
  ⟨strip s, core_strip s, fun _ h => (strip_of_core h).symm⟩

/-- **C01** (classification).  For every text `src` with stripped content `core`, the detected format is decided by
the first and last characters of `core` alone. -/
theorem C01_detection (src core : Str) (h : Core src core) :
    (identifyFormat src = .ok .kvn ↔ py "CCSDS_" <+: core) ∧
    (identifyFormat src = .ok .xml ↔ py "<" <+: core ∧ py ">" <:+ core) ∧
    (identifyFormat src = .ok .json ↔ py "[" <+: core ∧ py "]" <:+ core) ∧
    (identifyFormat src = .error .valueError ↔
      ¬ py "CCSDS_" <+: core ∧ ¬ (py "<" <+: core ∧ py ">" <:+ core) ∧ ¬ (py "[" <+: core ∧ py "]" <:+ core)) := by
  have hk : py "CCSDS_" <+: core → ¬ py "<" <+: core ∧ ¬ py "[" <+: core := by
    rintro ⟨t, rfl⟩
    constructor <;> (rintro ⟨u, hu⟩; simp [lit] at hu)
  have hx : py "<" <+: core → ¬ py "[" <+: core := by
    rintro ⟨t, rfl⟩ ⟨u, hu⟩
    simp [lit] at hu
  unfold identifyFormat
  rw [strip_of_core h]
  simp only [← startsWith_iff, ← endsWith_iff] at *
  cases h1 : startsWith core (py "CCSDS_") <;> cases h2 : startsWith core (py "<") <;>
    cases h3 : endsWith core (py ">") <;> cases h4 : startsWith core (py "[") <;>
    cases h5 : endsWith core (py "]") <;> simp_all

/-- **C01** (exclusive and total): every text has exactly one of the four outcomes. -/
theorem C01_total (src : Str) :
    identifyFormat src = .ok .kvn ∨ identifyFormat src = .ok .xml ∨ identifyFormat src = .ok .json ∨
    identifyFormat src = .error .valueError := by
  simp only [identifyFormat]
  split
  · simp
  · split
    · simp
    · split <;> simp

/-- **C01** (surrounding whitespace).  Adding whitespace around a text never changes its classification. -/
theorem C01_whitespace (w src w' : Str) (hw : Blank w) (hw' : Blank w') :
    identifyFormat (w ++ src ++ w') = identifyFormat src := by
  unfold identifyFormat
  rw [strip_pad src hw hw']

/-- **C02** (JSON).  Every text whose stripped content is bracketed is refused with `NotImplementedError`, whatever
the XML library would do. -/
theorem C02_json_refused (lib : XmlLib) (src core : Str) (h : Core src core)
    (hj : py "[" <+: core ∧ py "]" <:+ core) : ndmFromString lib src = .error .notImplementedError := by
  have := (C01_detection src core h).2.2.1.mpr hj
  unfold ndmFromString
  rw [this]; rfl

/-- **C02** (unknown).  Every text that is none of the three raises `ValueError`. -/
theorem C02_unknown_refused (lib : XmlLib) (src core : Str) (h : Core src core)
    (hk : ¬ py "CCSDS_" <+: core) (hx : ¬ (py "<" <+: core ∧ py ">" <:+ core))
    (hj : ¬ (py "[" <+: core ∧ py "]" <:+ core)) : ndmFromString lib src = .error .valueError := by
  have := (C01_detection src core h).2.2.2.mpr ⟨hk, hx, hj⟩
  unfold ndmFromString
  rw [this]; rfl

/-- **C02** (no parsing is attempted): the outcome does not depend on the XML library at all unless the text is
detected as XML. -/
theorem C02_no_xml_parsing (lib lib' : XmlLib) (src core : Str) (h : Core src core)
    (hx : ¬ (py "<" <+: core ∧ py ">" <:+ core)) : ndmFromString lib src = ndmFromString lib' src := by
  have hne : identifyFormat src ≠ .ok .xml := fun e => hx ((C01_detection src core h).2.1.mp e)
  unfold ndmFromString
  rcases C01_total src with e | e | e | e
  · rw [e]; rfl
  · exact absurd e hne
  · rw [e]; rfl
  · rw [e]; rfl

/-- **C02** (dispatch): a text detected as KVN is read by a fresh `NdmKvnIo`, one detected as XML by a fresh
`NdmXmlIo`. -/
theorem C02_dispatch (lib : XmlLib) (src core : Str) (h : Core src core) :
    (py "CCSDS_" <+: core → ndmFromString lib src = (KvnSelf.fromString {} src).1) ∧
    (py "<" <+: core ∧ py ">" <:+ core → ndmFromString lib src = (XmlSelf.fromString lib {} src).1) := by
  have hd := C01_detection src core h
  constructor
  · intro hk
    unfold ndmFromString
    rw [hd.1.mpr hk]; rfl
  · intro hx
    unfold ndmFromString
    rw [hd.2.1.mpr hx]; rfl

/-- **C02** (output).  Writing JSON is refused for every object. -/
theorem C02_json_output (lib : XmlLib) (o : Val) (loc noNsLoc : Option Str) :
    ndmToString lib o .json loc noNsLoc = .error .notImplementedError := rfl

/-- **C02** (bytes).  Undecodable bytes are a `ValueError`; decodable ones are read as their text. -/
theorem C02_bytes (lib : XmlLib) (b : List UInt8) :
    (lib.decode b = none → ndmFromBytes lib b = .error .valueError) ∧
    (∀ s, lib.decode b = some s → ndmFromBytes lib b = ndmFromString lib s) := by
  constructor
  · intro h; simp [ndmFromBytes, h]
  · intro s h; simp [ndmFromBytes, h]

/-- **C02** (bytes, XML reader).  The same for `NdmXmlIo.from_bytes`, whatever the instance was used for before; and for
bytes holding XML it agrees with `NdmIo.from_bytes`. -/
theorem C02_xml_bytes (lib : XmlLib) (s : XmlSelf) (b : List UInt8) :
    (lib.decode b = none → (s.fromBytes lib b).1 = .error .valueError) ∧
    (∀ t, lib.decode b = some t → (s.fromBytes lib b).1 = (s.fromString lib t).1 ∧
      ∀ core, Core t core → py "<" <+: core ∧ py ">" <:+ core → ndmFromBytes lib b = (s.fromBytes lib b).1) := by
  constructor
  · intro h; simp [XmlSelf.fromBytes, h]
  · intro t h
    have h1 : (s.fromBytes lib b).1 = (s.fromString lib t).1 := by simp [XmlSelf.fromBytes, h]
    refine ⟨h1, fun core hc hx => ?_⟩
    rw [(C02_bytes lib b).2 t h, h1, (C02_dispatch lib t core hc).2 hx]
    rfl

-- Non-vacuity: each class of texts is inhabited, with surrounding whitespace.
example : Core (py " \n CCSDS_OPM_VERS = 2.0\n ") (py "CCSDS_OPM_VERS = 2.0") := strip_eq_iff.mp (by decide)
example : identifyFormat (py " \n CCSDS_OPM_VERS = 2.0\n ") = .ok .kvn := by decide
example : identifyFormat (py "\t<ndm></ndm>\r\n") = .ok .xml := by decide
example : identifyFormat (py " [1, 2] ") = .ok .json := by decide
example : identifyFormat (py "<ndm") = .error .valueError := by decide
example : Core (py " [1] ") (py "[1]") ∧ py "[" <+: py "[1]" ∧ py "]" <:+ py "[1]" :=
  ⟨strip_eq_iff.mp (by decide), ⟨py "1]", rfl⟩, ⟨py "[1", rfl⟩⟩
example : Core (py " abc ") (py "abc") ∧ ¬ py "CCSDS_" <+: py "abc" ∧ ¬ py "<" <+: py "abc" ∧ ¬ py "[" <+: py "abc" :=
  ⟨strip_eq_iff.mp (by decide), by decide, by decide, by decide⟩

end Ndm
