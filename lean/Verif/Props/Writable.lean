import Verif.Lemmas.WritableRead
import Verif.Samples

/-! # C55: what the reader returns can be written again -/

namespace Ndm

/-- The classes below messages made of keyword lines. -/
def keywordClasses : List Cls := Cls.all.filter fun c => !isSpecialOut c && ![Cls.OemData, .OemSegment, .OemBody, .OemType, .Oem,
  .TdmData, .TdmSegment, .TdmBody, .TdmType, .Tdm, .AemData, .AemSegment, .AemBody, .AemType, .Aem, .NdmType, .Ndm].contains c

theorem keywordClasses_closed : (keywordClasses.all fun c => c.attrs.all fun f => match f.ty with
    | .cls e => e.members.isSome || keywordClasses.contains e
    | _ => true) = true := by decide +kernel

theorem message_writes : (kvnTypes.all fun c => !hasUnits c && match c.metaName, c.idVersion with
    | some n, some _ => n != py "ndm"
    | _, _ => false) = true := by decide +kernel

theorem kvnToString_out {N : Prop} {c : Cls} {v : Val} (hc : c ∈ kvnTypes) (ht : HasType (.cls c) v)
    (hw : ∀ d ws, Within (.obj d ws) v → WOk N d ws) : Out N (UnknownUnit v) (kvnToString v) := by
  have hm : c.members = none := by simpa using List.all_eq_true.mp message_dataclasses c hc
  have hs := List.all_eq_true.mp message_writes c hc
  simp only [Bool.and_eq_true, Bool.not_eq_true'] at hs
  obtain ⟨hu, hs⟩ := hs
  split at hs
  · rename_i n iv hn hiv
    obtain ⟨vs, rfl⟩ : ∃ vs, v = .obj c vs := by
      cases ht with
      | enum _ h => rw [hm] at h; cases h
      | enumText _ h => rw [hm] at h; cases h
      | obj => exact ⟨_, rfl⟩
    unfold kvnToString
    refine Out.bind_ok ?_ fun a _ => ⟨_, rfl⟩
    unfold kvnLines
    simp only [hn]
    rw [if_neg (by simpa using hs), hiv]
    exact collateObj_out _ _ _ c ht hm hu hw
  · cases hs

/-- **C55 holds** for orbit, tracking, conjunction and reentry messages and attitude parameters, except for units the schema does not
know: for every text that is read as a message other than an attitude ephemeris, if the units it states are known (and
the values of tracking observations are numbers), the message can be written.  For messages made of keyword lines there
is no other exception: the message can be written if and only if its units are known, and otherwise the writer raises
`AttributeError`.
Missing: attitude ephemerides (see C26). -/
theorem C55_partial (s : KvnSelf) (src : Str) (kind : Cls) (vs : List (Str × Val)) (h : (s.fromString src).1 = .ok (.obj kind vs))
    (hk : kind ≠ .Aem) :
    (¬ UnknownUnit (.obj kind vs) → NumericObservations (.obj kind vs) → ∃ text, kvnToString (.obj kind vs) = .ok text) ∧
    (kind ∈ [Cls.Opm, .Omm, .Rdm, .Cdm, .Apm] →
      (¬ UnknownUnit (.obj kind vs) → ∃ text, kvnToString (.obj kind vs) = .ok text) ∧
      (UnknownUnit (.obj kind vs) → kvnToString (.obj kind vs) = .error .attributeError)) := by
  rw [kvn_history_independent] at h
  have hr := read_writable h (fun vs' he => hk (Val.obj.inj he).1)
  obtain ⟨-, c, -, -, hmem, ht⟩ := kvnFromString_type h
  have hc : c = kind := by
    have hm : c.members = none := by simpa using List.all_eq_true.mp message_dataclasses c hmem
    cases ht; rfl
  subst hc
  have mk : ∀ N : Prop, (∀ ws, Within (.obj .TrackingDataObservationType ws) (.obj c vs) → ∃ p ∈ ws, p.1 ≠ py "epoch" ∧ ∃ d, p.2 = .dec d) →
      (∀ d ws, Within (.obj d ws) (.obj c vs) → isSpecialOut d = true → ¬ N) →
      ∀ d ws, Within (.obj d ws) (.obj c vs) → WOk N d ws := by
    intro N ho hs d ws hw
    have ok := hr d ws hw
    refine ⟨fun hu => ok.third (by simpa [hasUnits] using hu), ok.user, fun hd => ?_, fun hd => ?_, ok.att, hs d ws hw⟩
    · obtain ⟨e, he, hl⟩ := ok.state hd
      unfold Val.lookupVar at hl
      obtain ⟨⟨n, x⟩, hp, hx⟩ := Option.map_eq_some_iff.mp hl
      simp only at hx
      subst hx
      exact ⟨_, List.mem_of_find?_eq_some hp, by simp [Val.truthy, he]⟩
    · subst hd; exact ho ws hw
  constructor
  · intro hu hn
    exact (kvnToString_out (N := False) hmem ht (mk _ hn fun _ _ _ _ => id)).1 hu
  · intro hkind
    have hcls : ∀ d ws, Within (.obj d ws) (.obj c vs) → d ∈ keywordClasses := by
      intro d ws hw
      refine (within_class (S := keywordClasses) ?_ hw).1 (.cls c) ?_ ht
      · intro c' hc' f hf e he hm
        have := List.all_eq_true.mp (List.all_eq_true.mp keywordClasses_closed c' hc') f hf
        rw [he] at this
        simpa [hm] using this
      · intro c' hc' _
        cases hc'
        have : ([Cls.Opm, .Omm, .Rdm, .Cdm, .Apm].all fun c => keywordClasses.contains c) = true := by decide +kernel
        exact List.contains_iff_mem.mp (List.all_eq_true.mp this c hkind)
    have hns : ∀ d ws, Within (.obj d ws) (.obj c vs) → isSpecialOut d = true → ¬ True := by
      intro d ws hw hs _
      have := (List.mem_filter.mp (hcls d ws hw)).2
      rw [hs] at this
      cases this
    have hno : ∀ ws, Within (.obj .TrackingDataObservationType ws) (.obj c vs) → ∃ p ∈ ws, p.1 ≠ py "epoch" ∧ ∃ d, p.2 = .dec d :=
      fun ws hw => (hns _ ws hw rfl trivial).elim
    have := kvnToString_out (N := True) hmem ht (mk _ hno hns)
    exact ⟨this.1, this.2 trivial⟩

/-- An OPM with a unit for X. -/
def opmUnit (u : Str) : Str := (py "CCSDS_OPM_VERS = 2.0\n" ++ (headText ++ py "OBJECT_NAME = A
OBJECT_ID = B
CENTER_NAME = EARTH
REF_FRAME = GCRF
TIME_SYSTEM = UTC
EPOCH = 2000-01-01
X = 1 [" ++ u ++ py "]
Y = 2 [km]
Z = 3 [km]
X_DOT = 4 [km/s]
Y_DOT = 5 [km/s]
Z_DOT = 6 [km/s]
"))

/-- A TDM with one observation. -/
def tdmRange (x : Str) : Str := (py "CCSDS_TDM_VERS = 1.0
CREATION_DATE = 2000-01-01
ORIGINATOR = X
META_START
TIME_SYSTEM = UTC
PARTICIPANT_1 = A
META_STOP
DATA_START
RANGE = 2000-01-01 " ++ x ++ py "
DATA_STOP
")

/-- An AEM with one state. -/
def aemState (type more numbers : Str) : Str := (py "CCSDS_AEM_VERS = 1.0
CREATION_DATE = 2000-01-01
ORIGINATOR = X
OBJECT_NAME = A
ATTITUDE_TYPE = " ++ type ++ py "
" ++ more ++ py "
2000-01-01T00:00:00 " ++ numbers ++ py "
")

/-- What becomes of a text that is read and written: the exception of the writer, if there is one. -/
def rewriteErr (src : Str) : Option PyErr :=
  match kvnFromString src with
  | .ok v => match kvnToString v with
    | .ok _ => none
    | .error e => some e
  | .error _ => none

theorem rewriteErr_some {src : Str} {e : PyErr} (h : rewriteErr src = some e) :
    ∃ v, kvnFromString src = .ok v ∧ kvnToString v = .error e := by
  unfold rewriteErr at h
  split at h
  · rename_i v hv
    split at h
    · cases h
    · rename_i e' he
      cases h
      exact ⟨v, hv, he⟩
  · cases h

/-- Two segments with quaternions, of which only the second states the order of their components. -/
def laterOrder : Str := aemState (py "QUATERNION") (py "") (py "1 2 3 4") ++ py "OBJECT_NAME = B
ATTITUDE_TYPE = QUATERNION
QUATERNION_TYPE = LAST
2000-01-02T00:00:00 5 6 7 8
"

/-- **C55 is false.** Each of these texts is read, but the result cannot be written: a kilometre spelled `KM`, a tracking
observation whose value is not a number, a quaternion with derivatives, a spin, quaternions whose order only a later segment
states. -/
theorem C55_refuted :
    (∃ v, kvnFromString (opmUnit (py "KM")) = .ok v ∧ kvnToString v = .error .attributeError) ∧
    (∃ v, kvnFromString (tdmRange (py "ONE")) = .ok v ∧ kvnToString v = .error .indexError) ∧
    (∃ v, kvnFromString (aemState (py "QUATERNION/DERIVATIVE") (py "QUATERNION_TYPE = FIRST") (py "1 2 3 4 5 6 7 8")) = .ok v ∧
      kvnToString v = .error .keyError) ∧
    (∃ v, kvnFromString (aemState (py "SPIN") (py "") (py "1 2 3 4")) = .ok v ∧ kvnToString v = .error .typeError) ∧
    (∃ v, kvnFromString laterOrder = .ok v ∧ kvnToString v = .error .stopIteration) :=
  ⟨rewriteErr_some (by decide +kernel), rewriteErr_some (by decide +kernel), rewriteErr_some (by decide +kernel),
    rewriteErr_some (by decide +kernel), rewriteErr_some (by decide +kernel)⟩

/-- Parts with unknown units, as a test. -/
def unknownB : Val → Bool
  | .obj _ vs => (match Val.lookupVar (py "units") vs with | some (.str s) => !s.isEmpty | _ => false) || goVars vs
  | .list xs => goList xs
  | _ => false
where
  goVars : List (Str × Val) → Bool
    | [] => false
    | (_, v) :: r => unknownB v || goVars r
  goList : List Val → Bool
    | [] => false
    | v :: r => unknownB v || goList r

mutual
theorem unknownB_iff : (v : Val) → (UnknownUnit v ↔ unknownB v = true)
  | .obj c vs => by
    simp only [unknownB, Bool.or_eq_true]
    rw [← unknownB_vars vs]
    constructor
    · rintro ⟨c', ws, s, hw, hl, hs⟩
      cases hw with
      | self => left; rw [hl]; simpa using hs
      | field hm hw => exact Or.inr ⟨_, hm, c', ws, s, hw, hl, hs⟩
    · rintro (h | ⟨p, hm, c', ws, s, hw, hl, hs⟩)
      · split at h
        · rename_i s hl
          exact ⟨c, vs, s, .self, hl, by simpa using h⟩
        · cases h
      · exact ⟨c', ws, s, .field hm hw, hl, hs⟩
  | .list xs => by
    simp only [unknownB]
    rw [← unknownB_list xs]
    constructor
    · rintro ⟨c', ws, s, hw, hl, hs⟩
      cases hw with
      | item hm hw => exact ⟨_, hm, c', ws, s, hw, hl, hs⟩
    · rintro ⟨x, hm, c', ws, s, hw, hl, hs⟩
      exact ⟨c', ws, s, .item hm hw, hl, hs⟩
  | .none => by simp only [unknownB]; exact ⟨fun ⟨_, _, _, hw, _⟩ => (by cases hw), fun h => by cases h⟩
  | .str _ => by simp only [unknownB]; exact ⟨fun ⟨_, _, _, hw, _⟩ => (by cases hw), fun h => by cases h⟩
  | .dec _ => by simp only [unknownB]; exact ⟨fun ⟨_, _, _, hw, _⟩ => (by cases hw), fun h => by cases h⟩
  | .int _ => by simp only [unknownB]; exact ⟨fun ⟨_, _, _, hw, _⟩ => (by cases hw), fun h => by cases h⟩
  | .enum .. => by simp only [unknownB]; exact ⟨fun ⟨_, _, _, hw, _⟩ => (by cases hw), fun h => by cases h⟩
theorem unknownB_vars : (vs : List (Str × Val)) → ((∃ p ∈ vs, UnknownUnit p.2) ↔ unknownB.goVars vs = true)
  | [] => by simp [unknownB.goVars]
  | (n, v) :: r => by simp [unknownB.goVars, unknownB_iff v, ← unknownB_vars r]
theorem unknownB_list : (xs : List Val) → ((∃ x ∈ xs, UnknownUnit x) ↔ unknownB.goList xs = true)
  | [] => by simp [unknownB.goList]
  | v :: r => by simp [unknownB.goList, unknownB_iff v, ← unknownB_list r]
end

/-- What a text is read as: the kind of the message, and whether it has an unknown unit. -/
def readUnknown (src : Str) : Option (Cls × Bool) :=
  match kvnFromString src with
  | .ok (.obj c vs) => some (c, unknownB (.obj c vs))
  | _ => none

theorem readUnknown_some {src : Str} {c : Cls} {b : Bool} (h : readUnknown src = some (c, b)) :
    ∃ vs, kvnFromString src = .ok (.obj c vs) ∧ (UnknownUnit (.obj c vs) ↔ b = true) := by
  unfold readUnknown at h
  split at h
  · rename_i c' vs hv
    cases h
    exact ⟨vs, hv, unknownB_iff _⟩
  · cases h

-- Non-vacuity: texts read as OPMs with and without an unknown unit, and a TDM without one.
example (s : KvnSelf) : ∃ vs, (s.fromString (opmUnit (py "KM"))).1 = .ok (.obj .Opm vs) ∧ UnknownUnit (.obj .Opm vs) ∧
    kvnToString (.obj .Opm vs) = .error .attributeError := by
  obtain ⟨vs, h, hu⟩ := readUnknown_some (src := opmUnit (py "KM")) (c := .Opm) (b := true) (by decide +kernel)
  have hs : (s.fromString (opmUnit (py "KM"))).1 = .ok (.obj .Opm vs) := by rw [kvn_history_independent]; exact h
  exact ⟨vs, hs, hu.mpr rfl, ((C55_partial s _ _ _ hs (by decide)).2 (by decide)).2 (hu.mpr rfl)⟩
example (s : KvnSelf) : ∃ vs, (s.fromString (opmUnit (py "km"))).1 = .ok (.obj .Opm vs) ∧ ¬ UnknownUnit (.obj .Opm vs) ∧
    ∃ text, kvnToString (.obj .Opm vs) = .ok text := by
  obtain ⟨vs, h, hu⟩ := readUnknown_some (src := opmUnit (py "km")) (c := .Opm) (b := false) (by decide +kernel)
  have hs : (s.fromString (opmUnit (py "km"))).1 = .ok (.obj .Opm vs) := by rw [kvn_history_independent]; exact h
  have hn : ¬ UnknownUnit (.obj .Opm vs) := fun h => by cases hu.mp h
  exact ⟨vs, hs, hn, ((C55_partial s _ _ _ hs (by decide)).2 (by decide)).1 hn⟩
example : readUnknown (tdmRange (py "1")) = some (.Tdm, false) ∧ rewriteErr (tdmRange (py "1")) = none := by decide +kernel

end Ndm
