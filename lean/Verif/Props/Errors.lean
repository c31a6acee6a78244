import Verif.Lemmas.Errors
import Verif.Samples

/-! # C54: which exceptions a broken KVN text is reported by -/

namespace Ndm

/-- **C54.** Let `key` be the keyword of the first non-blank line of a text.  Whatever else the text says, and whatever the
instance was used for before, a failing reader fails in one of these ways: `AttributeError` exactly if `key` is not the
version keyword of a message; otherwise `ValueError`, `IndexError` or xsdata's `ParserError`; or `KeyError`, which only
attitude ephemerides lead to.  (Without a non-blank line it is `IndexError`, C03.) -/
theorem C54_exceptions (s : KvnSelf) (src first key : Str) (ls rest : List Str) (ht : TextLines src ls)
    (hs : SigLines ls (first :: rest)) (hk : LineKey first key) (e : PyErr) (he : (s.fromString src).1 = .error e) :
    (e = .attributeError ∧ ∀ kind ∈ messageKinds, kind.2.1 ≠ key) ∨
    (∃ kind ∈ messageKinds, kind.2.1 = key) ∧
      (e = .valueError ∨ e = .indexError ∨ e = .parserError ∨ e = .keyError ∧ key = py "CCSDS_AEM_VERS") := by
  rw [kvn_history_independent] at he
  by_cases hno : ∀ kind ∈ messageKinds, kind.2.1 ≠ key
  · have := ((C03_dispatch src ls _ ht hs).2 first rest key rfl hk).1 hno
    rw [he] at this
    cases this
    exact .inl ⟨rfl, hno⟩
  · right
    have hex : ∃ kind ∈ messageKinds, kind.2.1 = key := by simpa using hno
    refine ⟨hex, ?_⟩
    obtain ⟨vs, more, hp⟩ := preprocess_first ht hs hk
    have hid : identifyDataType ([py "id", key] :: (py "version" :: vs) :: more) = findKvnType key := rfl
    cases hf : findKvnType key with
    | error e' =>
      obtain ⟨kind, hm, rfl⟩ := hex
      exfalso
      have : messageKinds.all (fun k => match findKvnType k.2.1 with | .ok _ => true | .error _ => false) = true := by decide
      have := List.all_eq_true.mp this kind hm
      rw [hf] at this
      cases this
    | ok c =>
      rw [hf] at hid
      obtain ⟨p, hpm, rfl, rfl⟩ := (messageKinds_find key).1 c hf
      rcases kvnFromString_errors hp hid e he with h | h | h | ⟨h, hc⟩
      · exact .inr (.inl h)
      · exact .inl h
      · exact .inr (.inr (.inl h))
      · refine .inr (.inr (.inr ⟨h, ?_⟩))
        have : messageKinds.all (fun k => decide (k.1 = .Aem → k.2.1 = py "CCSDS_AEM_VERS")) = true := by decide
        exact of_decide_eq_true (List.all_eq_true.mp this p hpm) hc

/-- **C54** (all texts).  So for every text whatsoever only five classes of exceptions have to be caught. -/
theorem C54_five (s : KvnSelf) (src : Str) (e : PyErr) (he : (s.fromString src).1 = .error e) :
    e = .attributeError ∨ e = .valueError ∨ e = .indexError ∨ e = .parserError ∨ e = .keyError := by
  obtain ⟨ls, cs, ht, hs, rfl | ⟨first, rest, key, rfl, hk⟩⟩ := C03_total src
  · rw [kvn_history_independent, (C03_dispatch src ls [] ht hs).1 rfl] at he
    cases he
    simp
  · rcases C54_exceptions s src first key ls rest ht hs hk e he with h | ⟨-, h | h | h | h⟩
    · exact .inl h.1
    · exact .inr (.inl h)
    · exact .inr (.inr (.inl h))
    · exact .inr (.inr (.inr (.inl h)))
    · exact .inr (.inr (.inr (.inr h.1)))

/-- An OPM with some lines in its header. -/
def opmWith (x : Str) : Str := (py "CCSDS_OPM_VERS = 2.0\nCREATION_DATE = 2000-01-01\n" ++ x ++ py "ORIGINATOR = X
OBJECT_NAME = A
OBJECT_ID = B
CENTER_NAME = EARTH
REF_FRAME = GCRF
TIME_SYSTEM = UTC
EPOCH = 2000-01-01
X = 1 [km]
Y = 2 [km]
Z = 3 [km]
X_DOT = 4 [km/s]
Y_DOT = 5 [km/s]
Z_DOT = 6 [km/s]
")

/-- An AEM with Euler angles. -/
def aemWith (x : Str) : Str := (py "CCSDS_AEM_VERS = 1.0
CREATION_DATE = 2000-01-01
ORIGINATOR = X
OBJECT_NAME = A
ATTITUDE_TYPE = EULER_ANGLE
EULER_ROT_SEQ = " ++ x ++ py "
2000-01-01T00:00:00 1 2 3
")

/-- **C54** (none is superfluous): each of the five does happen. -/
theorem C54_each : (kvnFromString (py "CCSDS_XYZ_VERS = 1.0")) = .error .attributeError ∧
    kvnFromString (opmWith (py "COMMENT \x01\n")) = .error .valueError ∧
    kvnFromString (py "CCSDS_OPM_VERS = 2.0\n") = .error .indexError ∧
    kvnFromString (opmWith (py "CREATION_DATE = 2000-01-02\n")) = .error .parserError ∧
    kvnFromString (aemWith (py "31X")) = .error .keyError := by
  have h : ∀ (x : Except PyErr Val) (e : PyErr), (match x with | .ok _ => false | .error e' => e' == e) = true → x = .error e := by
    intro x e hx
    cases x with
    | ok _ => cases hx
    | error e' => simp at hx; rw [hx]
  exact ⟨h _ _ (by decide +kernel), h _ _ (by decide +kernel), h _ _ (by decide +kernel), h _ _ (by decide +kernel),
    h _ _ (by decide +kernel)⟩

-- Non-vacuity: the same texts without the mistake are read.
example : (kvnFromString (opmWith (py ""))).toOption.isSome = true := by decide +kernel
example : (kvnFromString (aemWith (py "313"))).toOption.isSome = true := by decide +kernel

-- Non-vacuity: the hypotheses of the theorem for a text with a mistake.
example : (KvnSelf.fromString {} (py "CCSDS_OPM_VERS = 2.0")).1 = .error .indexError ∧
    TextLines (py "CCSDS_OPM_VERS = 2.0") [py "CCSDS_OPM_VERS = 2.0"] ∧
    SigLines [py "CCSDS_OPM_VERS = 2.0"] [py "CCSDS_OPM_VERS = 2.0"] ∧
    LineKey (py "CCSDS_OPM_VERS = 2.0") (py "CCSDS_OPM_VERS") :=
  ⟨by rw [kvn_history_independent]; decide +kernel, ⟨by decide, by decide, by decide⟩,
    .line (strip_eq_iff.mp (by decide)) (by decide) .nil,
    .data (a := py "CCSDS_OPM_VERS ") (b := py " 2.0") (by decide) (by decide) rfl (strip_eq_iff.mp (by decide))⟩

end Ndm
