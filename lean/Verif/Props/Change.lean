import Verif.Lemmas.ChangeRead
import Verif.Props.History
import Verif.Samples

/-! # C57: other values in a text change only the fields of their keywords -/

namespace Ndm

/-- C57: if a text is read, every text with the same lines except for the values and units of keywords of `D` is also read,
and as an object with the same structure and contents, except for the contents of fields that belong to these keywords.

Of an AEM the values of the three keywords that say what the columns of its data lines are must be unchanged (see
`C57_attitude_type`); tracking data messages are the subject of `C57_tdm`. -/
theorem C57_changed_values (s s' : KvnSelf) {D : Str → Prop} {t t' : Str} (h : LineByLine (Changed D) t t') {c : Cls}
    {vs : List (Str × Val)} (hv : (s.fromString t).1 = .ok (.obj c vs)) (ht : c ≠ .Tdm)
    (ha : c = .Aem → ∀ k ∈ [py "ATTITUDE_TYPE", py "QUATERNION_TYPE", py "EULER_ROT_SEQ"], ¬ D k) :
    ∃ v', (s'.fromString t').1 = .ok v' ∧ Alike D (.obj c vs) v' := by
  rw [kvn_history_independent] at hv ⊢
  exact kvnFromString_alike (h.mono fun l l' h => ⟨h, fun hc => absurd (by simpa using hc) ht⟩) hv ha

/-- C57 for tracking data: the values that change must not begin with a date, neither before nor after, because that is how
observations are recognised (see `C57_dates`). -/
theorem C57_tdm (s s' : KvnSelf) {D : Str → Prop} {t t' : Str}
    (h : LineByLine (fun l l' => Changed D l l' ∧ (l = l' ∨ Undated l ∧ Undated l')) t t')
    {vs : List (Str × Val)} (hv : (s.fromString t).1 = .ok (.obj .Tdm vs)) :
    ∃ v', (s'.fromString t').1 = .ok v' ∧ Alike D (.obj .Tdm vs) v' := by
  rw [kvn_history_independent] at hv ⊢
  exact kvnFromString_alike (h.mono fun l l' h => ⟨h.1, fun _ => h.2⟩) hv (by intro h; cases h)

/-! ## Cases -/

/-- An orbit message with the given name of the object. -/
def opmNamed (name : Str) : Str := (py "CCSDS_OPM_VERS = 2.0
" ++ headText ++ py "OBJECT_NAME = " ++ name ++ py "
OBJECT_ID = B
CENTER_NAME = EARTH
REF_FRAME = GCRF
TIME_SYSTEM = UTC
EPOCH = 2000-01-01
X = 1 [km]
Y = 2 [km]
Z = 3 [km]
X_DOT = 4 [km/s]
Y_DOT = 5 [km/s]
Z_DOT = 6 [km/s]
USER_DEFINED_A = b
")

theorem opmNamed_lines : LineByLine (Changed (· = py "OBJECT_NAME")) (opmNamed (py "A")) (opmNamed (py "B [c] = COMMENT")) :=
  changed_of_parsed (by decide +kernel)

theorem opmNamed_read : readCls (KvnSelf.fromString {} (opmNamed (py "A"))).1 = some .Opm := by decide +kernel

-- The hypotheses of `C57_changed_values` are met: another name of the object.
example : ∃ vs v', (KvnSelf.fromString {} (opmNamed (py "A"))).1 = .ok (.obj .Opm vs) ∧
    (KvnSelf.fromString {} (opmNamed (py "B [c] = COMMENT"))).1 = .ok v' ∧ Alike (· = py "OBJECT_NAME") (.obj .Opm vs) v' := by
  obtain ⟨vs, hv⟩ := readCls_obj opmNamed_read
  obtain ⟨v', h1, h2⟩ := C57_changed_values {} {} opmNamed_lines hv (by decide) (by intro h; cases h)
  exact ⟨vs, v', hv, h1, h2⟩

/-- Tracking data with two distances. -/
def tdmRanges (second : Str) : Str := (py "CCSDS_TDM_VERS = 1.0
" ++ headText ++ py "META_START
TIME_SYSTEM = UTC
PARTICIPANT_1 = A
META_STOP
DATA_START
RANGE = 2000-01-01T00:00:00 1
RANGE = " ++ second ++ py "
DATA_STOP
")

theorem aemText_read : readCls (KvnSelf.fromString {} (aemText (py "FIRST"))).1 = some .Aem := by decide +kernel

-- The condition on attitude ephemerides is met by a change of the name.
example : ∃ vs, (KvnSelf.fromString {} (aemText (py "FIRST"))).1 = .ok (.obj .Aem vs) ∧
    ∀ k ∈ [py "ATTITUDE_TYPE", py "QUATERNION_TYPE", py "EULER_ROT_SEQ"], ¬ k = py "OBJECT_NAME" := by
  obtain ⟨vs, hv⟩ := readCls_obj aemText_read
  exact ⟨vs, hv, by decide⟩

/-- An attitude ephemeris of the given type. -/
def aemOfType (type : Str) : Str := (py "CCSDS_AEM_VERS = 1.0
" ++ headText ++ py "META_START
OBJECT_NAME = A
OBJECT_ID = B
REF_FRAME_A = X
REF_FRAME_B = Y
ATTITUDE_DIR = A2B
TIME_SYSTEM = UTC
START_TIME = 2000-01-01
STOP_TIME = 2000-01-02
ATTITUDE_TYPE = " ++ type ++ py "
QUATERNION_TYPE = FIRST
META_STOP
DATA_START
2000-01-01T00:00:00 1 2 3 4
DATA_STOP
")

theorem aemOfType_lines : LineByLine (Changed (· = py "ATTITUDE_TYPE")) (aemOfType (py "QUATERNION")) (aemOfType (py "EULER_ANGLE")) :=
  changed_of_parsed (by decide +kernel)

theorem aemOfType_read : readCls (KvnSelf.fromString {} (aemOfType (py "QUATERNION"))).1 = some .Aem := by decide +kernel

theorem aemOfType_fails : ((KvnSelf.fromString {} (aemOfType (py "EULER_ANGLE"))).1).toOption.isNone = true := by decide +kernel

/-- The condition on attitude ephemerides is needed: with another attitude type this text is no longer read. -/
theorem C57_attitude_type : ∃ t t', LineByLine (Changed (· = py "ATTITUDE_TYPE")) t t' ∧ (∃ v, (KvnSelf.fromString {} t).1 = .ok v) ∧
    ¬ ∃ v, (KvnSelf.fromString {} t').1 = .ok v := by
  obtain ⟨vs, hv⟩ := readCls_obj aemOfType_read
  exact ⟨_, _, aemOfType_lines, ⟨_, hv⟩, not_read aemOfType_fails⟩

theorem tdmRanges_lines : LineByLine (Changed (· = py "RANGE")) (tdmRanges (py "2000-01-01T00:00:01 2")) (tdmRanges (py "2000 2")) :=
  changed_of_parsed (by decide +kernel)

theorem tdmRanges_read : readCls (KvnSelf.fromString {} (tdmRanges (py "2000-01-01T00:00:01 2"))).1 = some .Tdm := by decide +kernel

theorem tdmRanges_fails : ((KvnSelf.fromString {} (tdmRanges (py "2000 2"))).1).toOption.isNone = true := by decide +kernel

/-- The condition on tracking data is needed: with a year in place of a date this text is no longer read. -/
theorem C57_dates : ∃ t t', LineByLine (Changed (· = py "RANGE")) t t' ∧ (∃ v, (KvnSelf.fromString {} t).1 = .ok v) ∧
    ¬ ∃ v, (KvnSelf.fromString {} t').1 = .ok v := by
  obtain ⟨vs, hv⟩ := readCls_obj tdmRanges_read
  exact ⟨_, _, tdmRanges_lines, ⟨_, hv⟩, not_read tdmRanges_fails⟩

/-- Tracking data of a participant. -/
def tdmOf (name : Str) : Str := (py "CCSDS_TDM_VERS = 1.0
" ++ headText ++ py "META_START
TIME_SYSTEM = UTC
PARTICIPANT_1 = " ++ name ++ py "
META_STOP
DATA_START
RANGE = 2000-01-01T00:00:00 1
DATA_STOP
")

theorem tdmOf_read : readCls (KvnSelf.fromString {} (tdmOf (py "A"))).1 = some .Tdm := by decide +kernel

theorem tdmOf_lines : LineByLine (fun l l' => Changed (· = py "PARTICIPANT_1") l l' ∧ (l = l' ∨ Undated l ∧ Undated l'))
    (tdmOf (py "A")) (tdmOf (py "B c")) := by
  refine lineByLine_of_lines (first := [py "CCSDS_TDM_VERS", py "1.0"])
    (rest := (parsed (tdmOf (py "A"))).tail) (rest' := (parsed (tdmOf (py "B c"))).tail) (by decide +kernel) (by decide +kernel) ?_
  have e1 : (parsed (tdmOf (py "A"))).tail = [[py "CREATION_DATE", py "2000-01-01"], [py "ORIGINATOR", py "X"], [py "META_START"],
      [py "TIME_SYSTEM", py "UTC"], [py "PARTICIPANT_1", py "A"], [py "META_STOP"], [py "DATA_START"],
      [py "RANGE", py "2000-01-01T00:00:00 1"], [py "DATA_STOP"]] := by decide +kernel
  have e2 : (parsed (tdmOf (py "B c"))).tail = [[py "CREATION_DATE", py "2000-01-01"], [py "ORIGINATOR", py "X"], [py "META_START"],
      [py "TIME_SYSTEM", py "UTC"], [py "PARTICIPANT_1", py "B c"], [py "META_STOP"], [py "DATA_START"],
      [py "RANGE", py "2000-01-01T00:00:00 1"], [py "DATA_STOP"]] := by decide +kernel
  rw [e1, e2]
  have same : ∀ l : Line, Changed (· = py "PARTICIPANT_1") l l ∧ (l = l ∨ Undated l ∧ Undated l) := fun l => ⟨.same l, .inl rfl⟩
  refine .cons (same _) (.cons (same _) (.cons (same _) (.cons (same _) (.cons ⟨.value rfl (by decide) (by decide), .inr ?_⟩
    (.cons (same _) (.cons (same _) (.cons (same _) (.cons (same _) .nil))))))))
  exact ⟨⟨_, _, _, py "A", [], rfl, by decide, .inl (by decide)⟩, ⟨_, _, _, py "B", [py "c"], rfl, by decide, .inl (by decide)⟩⟩

-- The hypotheses of `C57_tdm` are met: another name of a participant.
example : ∃ vs v', (KvnSelf.fromString {} (tdmOf (py "A"))).1 = .ok (.obj .Tdm vs) ∧
    (KvnSelf.fromString {} (tdmOf (py "B c"))).1 = .ok v' ∧ Alike (· = py "PARTICIPANT_1") (.obj .Tdm vs) v' := by
  obtain ⟨vs, hv⟩ := readCls_obj tdmOf_read
  obtain ⟨v', h1, h2⟩ := C57_tdm {} {} tdmOf_lines hv
  exact ⟨vs, v', hv, h1, h2⟩

end Ndm
