import Verif.Lemmas.AbsentRead
import Verif.Props.Missing
import Verif.Props.Writable
import Verif.SpecToKvn

/-! # C72: what was read from XML can be written in the key-value notation -/

namespace Ndm

/-- What the writer takes for granted, for every object that conforms to the data model. -/
theorem conforming_wok {N : Prop} {c : Cls} {vs : List (Str × Val)} (ht : HasType (.cls c) (.obj c vs))
    (ha : NamedAxes (.obj c vs)) (hp : NamedParameters (.obj c vs)) (hs : NonEmptyStates (.obj c vs))
    (hn : NumericObservations (.obj c vs)) (hatt : ∀ ws, ¬ Within (.obj .AttitudeStateType ws) (.obj c vs))
    (hsp : ∀ d ws, Within (.obj d ws) (.obj c vs) → isSpecialOut d = true → ¬ N) :
    ∀ d ws, Within (.obj d ws) (.obj c vs) → WOk N d ws := by
  intro d ws hw
  refine ⟨fun ⟨f, hf, hfn⟩ => ha d ws hw ?_, fun h => hp ws (h ▸ hw), fun h => ?_, fun h => hn ws (h ▸ hw), fun h => hatt ws (h ▸ hw), hsp d ws hw⟩
  · have hf' := (within_typed hw).1 _ ht
    obtain ⟨-, -, -, v, hv, -⟩ := hasFields_get hf' hf
    rw [hfn] at hv
    unfold Val.lookupVar at hv
    obtain ⟨⟨n, x⟩, hx, -⟩ := Option.map_eq_some_iff.mp hv
    have hn := List.find?_some hx
    simp only [beq_iff_eq] at hn
    exact ⟨x, hn ▸ List.mem_of_find?_eq_some hx⟩
  · obtain ⟨p, hp, h | h⟩ := hs ws (h ▸ hw)
    · obtain ⟨s, h1, h2⟩ := h
      exact ⟨p, hp, by rw [h1]; simp [Val.truthy, h2]⟩
    · obtain ⟨c, us, h1⟩ := h
      exact ⟨p, hp, by rw [h1]; rfl⟩

/-- The classes that are not about attitude ephemerides. -/
def noAttitudeClasses : List Cls :=
  Cls.all.filter fun c => ![Cls.AttitudeStateType, .AemData, .AemSegment, .AemBody, .AemType, .Aem, .NdmType, .Ndm].contains c

theorem noAttitude_closed : (noAttitudeClasses.all fun c => c.attrs.all fun f => match f.ty with
    | .cls e => e.members.isSome || noAttitudeClasses.contains e
    | _ => true) = true := by decide +kernel

theorem no_attitude {c : Cls} {vs : List (Str × Val)} (ht : HasType (.cls c) (.obj c vs)) (hc : c ∈ xmlTypes) (hk : c ≠ .Aem) :
    ∀ ws, ¬ Within (.obj .AttitudeStateType ws) (.obj c vs) := by
  intro ws hw
  have := (within_class (S := noAttitudeClasses) (by
    intro c' hc' f hf e he hm
    have := List.all_eq_true.mp (List.all_eq_true.mp noAttitude_closed c' hc') f hf
    rw [he] at this
    simpa [hm] using this) hw).1 (.cls c) (by
      intro c' hc' _
      cases hc'
      have : ∀ c ∈ xmlTypes, c ≠ .Aem → noAttitudeClasses.contains c = true := by decide +kernel
      exact List.contains_iff_mem.mp (this c hc hk)) ht
  have hd : ¬ Cls.AttitudeStateType ∈ noAttitudeClasses := by decide +kernel
  exact hd this

theorem no_special {c : Cls} {vs : List (Str × Val)} (ht : HasType (.cls c) (.obj c vs)) (hkind : c ∈ [Cls.Opm, .Omm, .Rdm, .Cdm, .Apm]) :
    ∀ d ws, Within (.obj d ws) (.obj c vs) → isSpecialOut d = false := by
  intro d ws hw
  have : d ∈ keywordClasses := by
    refine (within_class (S := keywordClasses) ?_ hw).1 (.cls c) ?_ ht
    · intro c' hc' f hf e he hm
      have := List.all_eq_true.mp (List.all_eq_true.mp keywordClasses_closed c' hc') f hf
      rw [he] at this
      simpa [hm] using this
    · intro c' hc' _
      cases hc'
      have : ([Cls.Opm, .Omm, .Rdm, .Cdm, .Apm].all fun c => keywordClasses.contains c) = true := by decide +kernel
      exact List.contains_iff_mem.mp (List.all_eq_true.mp this c hkind)
  have := (List.mem_filter.mp this).2
  simp only [Bool.and_eq_true, Bool.not_eq_true'] at this
  exact this.1

theorem xml_kvn_types : ∀ c ∈ xmlTypes, c ∈ kvnTypes := by decide

/-- **C72** for messages read from XML, of all kinds but attitude ephemerides: if the units are those the schema lists, rotations
name their axes, user-defined parameters have names, state vectors of an ephemeris are not empty and tracking observations are
numbers, the message can be written in the key-value notation.  For messages made of keyword lines, state vectors and
observations do not matter, and unknown units are reported by `AttributeError`.
Missing: attitude ephemerides. -/
theorem C72_partial (X : XmlChars) (s : XmlSelf) (src : Str) (t : XTree) (kind : Cls) (vs : List (Str × Val)) (hr : X.read src = some t)
    (ht : t.tag ∈ messageTags) (h : (s.fromString X.lib src).1 = .ok (.obj kind vs)) (hk : kind ≠ .Aem)
    (ha : NamedAxes (.obj kind vs)) (hp : NamedParameters (.obj kind vs)) :
    (¬ UnknownUnit (.obj kind vs) → NonEmptyStates (.obj kind vs) → NumericObservations (.obj kind vs) →
      ∃ text, kvnToString (.obj kind vs) = .ok text) ∧
    (kind ∈ [Cls.Opm, .Omm, .Rdm, .Cdm, .Apm] →
      (¬ UnknownUnit (.obj kind vs) → ∃ text, kvnToString (.obj kind vs) = .ok text) ∧
      (UnknownUnit (.obj kind vs) → kvnToString (.obj kind vs) = .error .attributeError)) := by
  obtain ⟨c, hc, -, hb, us, e⟩ := message_read hr ht h
  cases e
  have hty := bindElem_type t hb
  have hatt := no_attitude hty hc hk
  constructor
  · intro hu hs hn
    exact (kvnToString_out (N := False) (xml_kvn_types _ hc) hty (conforming_wok hty ha hp hs hn hatt fun _ _ _ _ h => h)).1 hu
  · intro hkind
    have hsp := no_special hty hkind
    have key := kvnToString_out (N := True) (xml_kvn_types _ hc) hty (conforming_wok hty ha hp
      (fun ws hw => absurd (hsp _ _ hw) (by decide)) (fun ws hw => absurd (hsp _ _ hw) (by decide)) hatt
      fun d ws hw h _ => by rw [hsp d ws hw] at h; cases h)
    exact ⟨key.1, key.2 trivial⟩

mutual
def Val.every (q : Cls → List (Str × Val) → Bool) : Val → Bool
  | .obj c vs => q c vs && everyVars q vs
  | .list xs => everyList q xs
  | _ => true

def everyVars (q : Cls → List (Str × Val) → Bool) : List (Str × Val) → Bool
  | [] => true
  | (_, v) :: vs => v.every q && everyVars q vs

def everyList (q : Cls → List (Str × Val) → Bool) : List Val → Bool
  | [] => true
  | v :: vs => v.every q && everyList q vs
end

theorem everyVars_mem {q : Cls → List (Str × Val) → Bool} {n : Str} {v : Val} : ∀ {vs : List (Str × Val)}, everyVars q vs = true → (n, v) ∈ vs → v.every q = true
  | (m, w) :: vs, h, hm => by
    rw [everyVars, Bool.and_eq_true] at h
    rcases List.mem_cons.mp hm with e | hm
    · cases e
      exact h.1
    · exact everyVars_mem h.2 hm

theorem everyList_mem {q : Cls → List (Str × Val) → Bool} {v : Val} : ∀ {vs : List Val}, everyList q vs = true → v ∈ vs → v.every q = true
  | w :: vs, h, hm => by
    rw [everyList, Bool.and_eq_true] at h
    rcases List.mem_cons.mp hm with e | hm
    · cases e
      exact h.1
    · exact everyList_mem h.2 hm

theorem every_within {q : Cls → List (Str × Val) → Bool} {c : Cls} {ws : List (Str × Val)} {v : Val} (h : Within (.obj c ws) v)
    (hv : v.every q = true) : q c ws = true := by
  induction h with
  | self =>
    rw [Val.every, Bool.and_eq_true] at hv
    exact hv.1
  | field hm _ ih =>
    rw [Val.every, Bool.and_eq_true] at hv
    exact ih (everyVars_mem hv.2 hm)
  | item hm _ ih =>
    rw [Val.every] at hv
    exact ih (everyList_mem hv hm)

def axesB (ws : List (Str × Val)) : Bool :=
  ws.all (fun p => p.1 != py "units") || ws.all fun p => p.1 == py "value" || p.1 == py "units" || match p.2 with | .enum _ _ => true | _ => false

theorem namedAxes_of_b {v : Val} (h : v.every (fun _ ws => axesB ws) = true) : NamedAxes v := by
  intro c ws hw ⟨u, hu⟩ p hp h1 h2
  have := every_within hw h
  simp only [axesB, Bool.or_eq_true, List.all_eq_true] at this
  rcases this with this | this
  · have := this _ hu
    simp at this
  · have := this _ hp
    simp only [beq_iff_eq, h1, h2, or_self, false_or] at this
    split at this
    · next d m e => exact ⟨d, m, e⟩
    · cases this

def namedB (ws : List (Str × Val)) : Bool := match Val.lookupVar (py "parameter") ws with | some (.str _) => true | _ => false

theorem namedParameters_of_b {v : Val} (h : v.every (fun c ws => c != .UserDefinedParameterType || namedB ws) = true) : NamedParameters v := by
  intro ws hw
  have := every_within hw h
  simp only [bne_self_eq_false, Bool.false_or, namedB] at this
  split at this
  · next s e => exact ⟨s, e⟩
  · cases this

-- a message with user-defined parameters, manoeuvres and units: C72 applies to it
example : (XmlSelf.fromString (oneDoc richDoc).lib {} []).1 = .ok richOpm ∧ NamedAxes richOpm ∧ NamedParameters richOpm ∧ ¬ UnknownUnit richOpm :=
  ⟨by decide +kernel, namedAxes_of_b (by decide +kernel), namedParameters_of_b (by decide +kernel), by
    rw [unknownB_iff]; decide +kernel⟩

/-- Elements one inside the other. -/
def nest : List Str → List XTree → List XTree
  | [], ts => ts
  | t :: r, ts => [.node t [] [] (nest r ts)]

/-- What the attempt to convert a document from XML to the key-value notation fails with, if the reading succeeds. -/
def convertErr (t : XTree) : Option PyErr :=
  match (XmlSelf.fromString (oneDoc t).lib {} []).1 with
  | .ok v => match kvnToString v with
    | .ok _ => none
    | .error e => some e
  | .error _ => none

theorem convertErr_some {t : XTree} {e : PyErr} (h : convertErr t = some e) :
    ∃ v, (XmlSelf.fromString (oneDoc t).lib {} []).1 = .ok v ∧ kvnToString v = .error e := by
  unfold convertErr at h
  split at h
  · next v hv =>
    split at h
    · cases h
    · next e' he =>
      cases h
      exact ⟨v, hv, he⟩
  · cases h

/-- **C72 is false.** Each of these documents is read, but the result cannot be written in the key-value notation: a unit in capital
letters, a user-defined parameter without a name, a rotation without an axis, an empty state vector, an observation without a
value, an empty attitude state. -/
theorem C72_refuted :
    let fails (root : Str) (path : List Str) (inner : List XTree) (e : PyErr) : Prop :=
      ∃ v, (XmlSelf.fromString (oneDoc (.node root [] [] (nest path inner))).lib {} []).1 = .ok v ∧ kvnToString v = .error e
    fails (py "opm") [py "body", py "segment", py "data", py "stateVector"] [.node (py "X") [(py "units", py "KM")] (py "1") []] .attributeError ∧
    fails (py "opm") [py "body", py "segment", py "data", py "userDefinedParameters"] [.node (py "USER_DEFINED") [] (py "1") []] .typeError ∧
    fails (py "apm") [py "body", py "segment", py "data", py "eulerElementsThree", py "rotationAngles", py "rotation1"] [] .attributeError ∧
    fails (py "oem") [py "body", py "segment", py "data", py "stateVector"] [] .indexError ∧
    fails (py "tdm") [py "body", py "segment", py "data", py "observation"] [.node (py "EPOCH") [] (py "2000-01-01") []] .indexError ∧
    fails (py "aem") [py "body", py "segment", py "data", py "attitudeState"] [] .typeError :=
  ⟨convertErr_some (by decide +kernel), convertErr_some (by decide +kernel), convertErr_some (by decide +kernel),
    convertErr_some (by decide +kernel), convertErr_some (by decide +kernel), convertErr_some (by decide +kernel)⟩

end Ndm
