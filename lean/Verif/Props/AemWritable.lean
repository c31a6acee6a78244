import Verif.Lemmas.AemOrder
import Verif.Props.ToKvn

/-! # C55 and C72 for attitude ephemerides: those that were read can be written in the key-value notation -/

namespace Ndm

/-- **C55** for attitude ephemerides: an ephemeris that was read can be written exactly if its attitude states are complete and
the metadata of each segment with quaternions, or of a segment before it, say in which order their components come.  Units do not
matter.  Only an epoch that looks like the statement of the order could replace that statement.
Missing: which texts give complete states (quaternions with their derivatives and spins without nutation never do,
`C55_refuted`). -/
theorem C55_aem_partial (s : KvnSelf) (src : Str) (vs : List (Str × Val)) (h : (s.fromString src).1 = .ok (.obj .Aem vs)) :
    ((∃ text, kvnToString (.obj .Aem vs) = .ok text) → CompleteAttitudes (.obj .Aem vs)) ∧
    (TypedQuaternions (.obj .Aem vs) → CompleteAttitudes (.obj .Aem vs) → ∃ text, kvnToString (.obj .Aem vs) = .ok text) ∧
    (PlainEpochs (.obj .Aem vs) → (∃ text, kvnToString (.obj .Aem vs) = .ok text) → TypedQuaternions (.obj .Aem vs)) := by
  rw [kvn_history_independent] at h
  obtain ⟨-, c, -, -, hmem, hty⟩ := kvnFromString_type h
  have hm : c.members = none := by simpa using List.all_eq_true.mp message_dataclasses c hmem
  have hc' : c = .Aem := by cases hty; rfl
  subst hc'
  exact ⟨fun ⟨_, ht⟩ => aem_written hty ht, fun hq hc => aem_writable hty hc hq, fun hp ⟨_, ht⟩ => aem_typed hty hp ht⟩

/-- **C72** for attitude ephemerides read from XML, likewise. -/
theorem C72_aem_partial (X : XmlChars) (s : XmlSelf) (src : Str) (t : XTree) (vs : List (Str × Val)) (hr : X.read src = some t)
    (ht : t.tag ∈ messageTags) (h : (s.fromString X.lib src).1 = .ok (.obj .Aem vs)) :
    ((∃ text, kvnToString (.obj .Aem vs) = .ok text) → CompleteAttitudes (.obj .Aem vs)) ∧
    (TypedQuaternions (.obj .Aem vs) → CompleteAttitudes (.obj .Aem vs) → ∃ text, kvnToString (.obj .Aem vs) = .ok text) ∧
    (PlainEpochs (.obj .Aem vs) → (∃ text, kvnToString (.obj .Aem vs) = .ok text) → TypedQuaternions (.obj .Aem vs)) := by
  obtain ⟨c, hc', -, hb, us, e⟩ := message_read hr ht h
  cases e
  exact ⟨fun ⟨_, ht⟩ => aem_written (bindElem_type t hb) ht, fun hq hc => aem_writable (bindElem_type t hb) hc hq,
    fun hp ⟨_, ht⟩ => aem_typed (bindElem_type t hb) hp ht⟩

def isObj : Val → Bool
  | .obj _ _ => true
  | _ => false

theorem isObj_iff {v : Val} (h : isObj v = true) : ∃ d bs, v = .obj d bs := by
  cases v <;> first | exact ⟨_, _, rfl⟩ | cases h

/-- `CompleteState`, as a test. -/
def completeStateB : List (Str × Val) → Bool
  | [] => false
  | (_, .none) :: r => completeStateB r
  | (_, .obj c avs) :: _ => c != .QuaternionDerivativeType && (match Val.lookupVar (py "epoch") avs with | some (.str _) => true | _ => false) &&
    avs.all (fun p => p.1 == py "epoch" || isObj p.2) &&
    avs.all fun p => match p.2 with | .obj .RotationRateType bs => bs.all (fun q => isObj q.2) | _ => true
  | _ :: _ => false

theorem completeStateB_sound : ∀ {ws : List (Str × Val)}, completeStateB ws = true → CompleteState ws
  | (n, .none) :: r, h => by
    obtain ⟨c, avs, ⟨b, m, a, rfl, h1, h2⟩, h3⟩ := completeStateB_sound (ws := r) h
    refine ⟨c, avs, ⟨(n, .none) :: b, m, a, rfl, ?_, h2⟩, h3⟩
    intro p hp
    rcases List.mem_cons.mp hp with rfl | hp
    · rfl
    · exact h1 p hp
  | (n, .obj c avs) :: r, h => by
    simp only [completeStateB, Bool.and_eq_true, bne_iff_ne, List.all_eq_true, Bool.or_eq_true, beq_iff_eq] at h
    obtain ⟨⟨⟨h1, h2⟩, h3⟩, h4⟩ := h
    refine ⟨c, avs, ⟨[], n, r, rfl, by simp, by simp⟩, h1, ?_, ?_, ?_⟩
    · split at h2
      · next e he => exact ⟨e, he⟩
      · cases h2
    · intro p hp hne
      rcases h3 p hp with e | e
      · exact absurd e hne
      · exact isObj_iff e
    · intro _ m bs hm q hq
      have := h4 _ hm
      simp only [List.all_eq_true] at this
      exact isObj_iff (this q hq)

def typedB (us : List (Str × Val)) : Bool :=
  match Val.lookupVar (py "metadata") us with
  | some (.obj .AemMetadata ms) => (match Val.lookupVar (py "quaternion_type") ms with | none | some .none => false | some _ => true)
  | _ => false

theorem typedB_sound {us : List (Str × Val)} (h : typedB us = true) : StatesOrder us := by
  unfold typedB at h
  split at h
  · next ms hm =>
    split at h
    · cases h
    · cases h
    · next q hq hne => exact ⟨ms, q, hm, hne, by rintro rfl; exact hq rfl⟩
  · cases h

def segmentTypedB : Val → Bool
  | .obj .AemSegment us => typedB us
  | _ => false

/-- Both conditions, as a test; the first segment of each ephemeris has to state the order. -/
def aemReadyB (v : Val) : Bool :=
  v.every (fun c ws => c != .AttitudeStateType || completeStateB ws) &&
  v.every (fun c bs => c != .AemBody || match bs with | [(_, .list (x :: _))] => segmentTypedB x | _ => false)

theorem aemReadyB_sound {v : Val} (h : aemReadyB v = true) : CompleteAttitudes v ∧ TypedQuaternions v := by
  rw [aemReadyB, Bool.and_eq_true] at h
  constructor
  · intro ws hw
    have := every_within hw h.1
    exact completeStateB_sound (by simpa using this)
  · intro ss hw before us after e _
    subst e
    have := every_within hw h.2
    cases before with
    | nil => exact ⟨us, by simp, typedB_sound (by simpa [segmentTypedB] using this)⟩
    | cons x before =>
      have hx : segmentTypedB x = true := by simpa using this
      unfold segmentTypedB at hx
      split at hx
      · next us' => exact ⟨us', by simp, typedB_sound hx⟩
      · cases hx

/-- What the reader makes of a text is an attitude ephemeris that meets both conditions. -/
def readReadyB (src : Str) : Bool :=
  match kvnFromString src with
  | .ok (.obj .Aem vs) => aemReadyB (.obj .Aem vs)
  | _ => false

theorem readReady (s : KvnSelf) {src : Str} (h : readReadyB src = true) :
    ∃ vs, (s.fromString src).1 = .ok (.obj .Aem vs) ∧ CompleteAttitudes (.obj .Aem vs) ∧ TypedQuaternions (.obj .Aem vs) := by
  unfold readReadyB at h
  split at h
  · next vs hv => exact ⟨vs, by rw [kvn_history_independent]; exact hv, aemReadyB_sound h⟩
  · cases h

-- quaternions and Euler angles: C55 applies to them
example (s : KvnSelf) : ∃ vs, (s.fromString (aemState (py "QUATERNION") (py "QUATERNION_TYPE = FIRST") (py "1 2 3 4"))).1 = .ok (.obj .Aem vs) ∧
    ∃ text, kvnToString (.obj .Aem vs) = .ok text := by
  obtain ⟨vs, h, hc, ht⟩ := readReady s (src := aemState (py "QUATERNION") (py "QUATERNION_TYPE = FIRST") (py "1 2 3 4")) (by decide +kernel)
  exact ⟨vs, h, (C55_aem_partial s _ _ h).2.1 ht hc⟩

/-- A document with one attitude state, and the order of the components of its quaternion. -/
def aemDoc : XTree := .node (py "aem") [] [] (nest [py "body", py "segment"]
  (nest [py "metadata"] [.node (py "QUATERNION_TYPE") [] (py "FIRST") []] ++
    nest [py "data", py "attitudeState", py "quaternionState"] ([.node (py "EPOCH") [] (py "2000-01-01") []] ++
      nest [py "quaternion"] [.node (py "Q1") [] (py "1") []])))

def docReadyB (t : XTree) : Bool :=
  match (XmlSelf.fromString (oneDoc t).lib {} []).1 with
  | .ok (.obj .Aem vs) => aemReadyB (.obj .Aem vs)
  | _ => false

-- C72 applies to it and to the next
/-- Two segments, of which only the first states the order. -/
def aemDoc2 : XTree := .node (py "aem") [] [] (nest [py "body"]
  (nest [py "segment"]
    (nest [py "metadata"] [.node (py "QUATERNION_TYPE") [] (py "FIRST") []] ++
      nest [py "data", py "attitudeState", py "quaternionState"] ([.node (py "EPOCH") [] (py "2000-01-01") []] ++
        nest [py "quaternion"] [.node (py "Q1") [] (py "1") []])) ++
  nest [py "segment"]
    (nest [py "data", py "attitudeState", py "quaternionState"] ([.node (py "EPOCH") [] (py "2000-01-02") []] ++
        nest [py "quaternion"] [.node (py "Q1") [] (py "2") []]))))

example : ∃ vs, (XmlSelf.fromString (oneDoc aemDoc2).lib {} []).1 = .ok (.obj .Aem vs) ∧ CompleteAttitudes (.obj .Aem vs) ∧
    TypedQuaternions (.obj .Aem vs) := by
  have h : docReadyB aemDoc2 = true := by decide +kernel
  unfold docReadyB at h
  split at h
  · next vs hv => exact ⟨vs, hv, aemReadyB_sound h⟩
  · cases h

example : ∃ vs, (XmlSelf.fromString (oneDoc aemDoc).lib {} []).1 = .ok (.obj .Aem vs) ∧ CompleteAttitudes (.obj .Aem vs) ∧
    TypedQuaternions (.obj .Aem vs) := by
  have h : docReadyB aemDoc = true := by decide +kernel
  unfold docReadyB at h
  split at h
  · next vs hv => exact ⟨vs, hv, aemReadyB_sound h⟩
  · cases h

/-- `PlainEpochs`, as a test. -/
def plainEpochsB (v : Val) : Bool :=
  v.every fun c ws => c != .AttitudeStateType || ws.all fun p => match p.2 with
    | .obj _ avs => (match Val.lookupVar (py "epoch") avs with | some (.str e) => !startsWith e (py "QUATERNION_TYPE") | _ => true)
    | _ => true

theorem plainEpochsB_sound {v : Val} (h : plainEpochsB v = true) : PlainEpochs v := by
  intro ws hw n c avs e hm he hp
  have := every_within hw h
  simp only [bne_self_eq_false, Bool.false_or, List.all_eq_true] at this
  have := this _ hm
  simp only [he, startsWith_iff.mpr hp] at this
  cases this

/-- An ephemeris was read, its epochs are plain, and it could be written or not. -/
def docPlainB (t : XTree) (written : Bool) : Bool :=
  match (XmlSelf.fromString (oneDoc t).lib {} []).1 with
  | .ok (.obj .Aem vs) => plainEpochsB (.obj .Aem vs) && (match kvnToString (.obj .Aem vs) with | .ok _ => written | .error _ => !written)
  | _ => false

-- quaternions whose order is stated in an earlier segment: they were written, so all of C72 applies
example : ∃ vs, (XmlSelf.fromString (oneDoc aemDoc2).lib {} []).1 = .ok (.obj .Aem vs) ∧ PlainEpochs (.obj .Aem vs) ∧
    ∃ text, kvnToString (.obj .Aem vs) = .ok text := by
  have h : docPlainB aemDoc2 true = true := by decide +kernel
  unfold docPlainB at h
  split at h
  · next vs hv =>
    rw [Bool.and_eq_true] at h
    refine ⟨vs, hv, plainEpochsB_sound h.1, ?_⟩
    have h := h.2
    split at h
    · next t ht => exact ⟨t, ht⟩
    · cases h
  · cases h

/-- The same states with the order stated too late. -/
def aemDoc3 : XTree := .node (py "aem") [] [] (nest [py "body"]
  (nest [py "segment"]
    (nest [py "data", py "attitudeState", py "quaternionState"] ([.node (py "EPOCH") [] (py "2000-01-02") []] ++
        nest [py "quaternion"] [.node (py "Q1") [] (py "2") []])) ++
  nest [py "segment"]
    (nest [py "metadata"] [.node (py "QUATERNION_TYPE") [] (py "FIRST") []] ++
      nest [py "data", py "attitudeState", py "quaternionState"] ([.node (py "EPOCH") [] (py "2000-01-01") []] ++
        nest [py "quaternion"] [.node (py "Q1") [] (py "1") []]))))

-- it cannot be written
example : docPlainB aemDoc3 false = true := by decide +kernel

end Ndm
