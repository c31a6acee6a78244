import Verif.Lemmas.MissingKvn
import Verif.Props.Provenance
import Verif.Props.Refuted
import Verif.Props.Unknown
import Verif.Props.Missing

/-! # C71 for KVN: required keywords that no line states -/

namespace Ndm

/-- **C71** for KVN.  If a text is read, the object has a block, and no line of the text states a keyword the schema requires of such
a block, then the object lacks it: the reader makes nothing up.  (In ephemerides and tracking data, not for the keywords of columns,
which lines state without naming them; nowhere for `USER_DEFINED`.) -/
theorem C71_kvn_partial (s : KvnSelf) (src : Str) (ls cs : List Str) (L : List (List Str)) (M : Cls) (vs : List (Str × Val))
    (ht : TextLines src ls) (hs : SigLines ls cs) (hL : List.Forall₂ LineItems cs L) (h : (s.fromString src).1 = .ok (.obj M vs))
    (c : Cls) (ws : List (Str × Val)) (hw : Within (.obj c ws) (.obj M vs)) (k : Str) (hr : RequiredKeyword k c) (hup : isUpper k = true)
    (hk : M ∈ [.Oem, .Aem, .Tdm] → k ∉ columnKeywords) (hu : k ≠ py "USER_DEFINED") (hno : ∀ r, (k :: r) ∉ L) :
    Incomplete (.obj M vs) := by
  obtain ⟨M', vs', e, hfrom⟩ := C37_provenance s src ls cs L _ ht hs hL h
  cases e
  rw [kvn_history_independent] at h
  obtain ⟨-, c0, -, -, -, hty⟩ := kvnFromString_type h
  exact (part_missing hup hk hu hno hr hw).1 _ hty (.inl (.inl ⟨false, hfrom⟩))

/-- **C71 is false** of KVN also in the other direction: a text may state all that is required and the object still lack something,
because two lines with an unknown keyword make the reader ignore the originator (C59). -/
theorem C71_refuted_stated : ∃ a b v v',
    (KvnSelf.fromString {} (ofLines (a ++ b))).1 = .ok v ∧ ¬ Incomplete v ∧
    (KvnSelf.fromString {} (ofLines (a ++ fooLine :: fooLine :: b))).1 = .ok v' ∧ Incomplete v' := by
  obtain ⟨v, hv, h⟩ := ok_of_check (x := (KvnSelf.fromString {} (ofLines (opmLines.take 2 ++ (py "ORIGINATOR = X" :: opmLines.drop 3)))).1)
    (fun v => v.lacks = false) (by decide +kernel)
  obtain ⟨v', hv', h'⟩ := ok_of_check
    (x := (KvnSelf.fromString {} (ofLines (opmLines.take 2 ++ fooLine :: fooLine :: (py "ORIGINATOR = X" :: opmLines.drop 3)))).1)
    (fun v => (match v with | .obj .. => v.lacks | _ => false) = true) (by decide +kernel)
  cases v' with
  | obj c vs =>
    obtain ⟨x, hx, hi⟩ := incomplete_of_lacks _ (show (Val.obj c vs).lacks = true from h')
    cases List.mem_singleton.mp (show x ∈ [Val.obj c vs] from hx)
    exact ⟨_, _, v, _, hv, (fun hi => by rw [lacks_of_incomplete hi] at h; exact absurd h (by decide)), hv', hi⟩
  | _ => cases h'

/-! ## Examples -/

/-- Every OPM must name its object. -/
theorem opm_object_name : RequiredKeyword (py "OBJECT_NAME") .Opm := by
  have part : ∀ {c d : Cls} {k : Str}, (∃ f ∈ c.attrs, f.kind = .elem ∧ f.ty = .cls d ∧ (f.name, 1) ∈ c.least) → RequiredKeyword k d →
      RequiredKeyword k c := fun ⟨f, h1, h2, h3, h4⟩ h => .part h1 h2 h3 h4 (by decide) h
  have field : ∃ f ∈ Cls.OpmMetadata.attrs, f.kind = .elem ∧ f.xmlName = py "OBJECT_NAME" ∧ (f.name, 1) ∈ Cls.OpmMetadata.least := by
    decide +kernel
  obtain ⟨f, h1, h2, h3, h4⟩ := field
  exact part (d := .OpmBody) (by decide +kernel) (part (d := .OpmSegment) (by decide +kernel)
    (part (d := .OpmMetadata) (by decide +kernel) (.field h1 h2 h3 h4 (by decide))))

/-- Every OPM must state its position. -/
theorem opm_position : RequiredKeyword (py "Y") .Opm := by
  have part : ∀ {c d : Cls} {k : Str}, (∃ f ∈ c.attrs, f.kind = .elem ∧ f.ty = .cls d ∧ (f.name, 1) ∈ c.least) → RequiredKeyword k d →
      RequiredKeyword k c := fun ⟨f, h1, h2, h3, h4⟩ h => .part h1 h2 h3 h4 (by decide) h
  have field : ∃ f ∈ Cls.StateVectorType.attrs, f.kind = .elem ∧ f.xmlName = py "Y" ∧ (f.name, 1) ∈ Cls.StateVectorType.least := by
    decide +kernel
  obtain ⟨f, h1, h2, h3, h4⟩ := field
  exact part (d := .OpmBody) (by decide +kernel) (part (d := .OpmSegment) (by decide +kernel)
    (part (d := .OpmData) (by decide +kernel) (part (d := .StateVectorType) (by decide +kernel) (.field h1 h2 h3 h4 (by decide)))))

/-- An OPM without the name of the object and without a full position. -/
def namelessOpm : Str := py "CCSDS_OPM_VERS = 2.0
CREATION_DATE = 2000-01-01
OBJECT_ID = B
EPOCH = 2000-01-01
X = 1 [km]
"

def namelessItems : List (List Str) := (splitChar '\n' namelessOpm).filterMap parseLine

-- the object lacks both: the keyword of a block, and one that is a column in other messages
example : ∀ k ∈ [py "OBJECT_NAME", py "Y"], ∃ v ls cs L, (({} : KvnSelf).fromString namelessOpm).1 = .ok v ∧ TextLines namelessOpm ls ∧
    SigLines ls cs ∧ List.Forall₂ LineItems cs L ∧ (∀ r, (k :: r) ∉ L) ∧ RequiredKeyword k .Opm ∧ Incomplete v := by
  intro k hk
  have hreq : RequiredKeyword k .Opm := by
    simp only [List.mem_cons, List.not_mem_nil, or_false] at hk
    rcases hk with rfl | rfl
    · exact opm_object_name
    · exact opm_position
  obtain ⟨ls, cs, L, ht, hs, hL⟩ := C37_lines namelessOpm
  have hLe : namelessItems = L := by
    rw [namelessItems, splitChar_textLines ht, filterMap_sigLines hs, lineItems_filterMap (sigLines_cores hs) hL]
  have hno : ∀ r, (k :: r) ∉ L := by
    subst hLe
    have : ∀ k ∈ [py "OBJECT_NAME", py "Y"], ∀ l ∈ namelessItems, l.head? ≠ some k := by decide +kernel
    intro r hr
    exact this k hk _ hr rfl
  obtain ⟨v, hv, hc⟩ := ok_of_check (x := (({} : KvnSelf).fromString namelessOpm).1)
    (fun v => (match v with | .obj .Opm _ => true | _ => false) = true) (by decide +kernel)
  refine ⟨v, ls, cs, L, hv, ht, hs, hL, hno, hreq, ?_⟩
  match v, hc with
  | .obj .Opm vs, _ =>
    have hup : ∀ k ∈ [py "OBJECT_NAME", py "Y"], isUpper k = true ∧ k ≠ py "USER_DEFINED" := by decide
    exact C71_kvn_partial {} _ ls cs L .Opm vs ht hs hL hv .Opm vs .self _ hreq (hup k hk).1 (fun h => absurd h (by decide))
      (hup k hk).2 hno

end Ndm
