import Verif.Lemmas.WriteErrors
import Verif.Props.AemWritable

/-! # C74: which exceptions writing in the key-value notation raises -/

namespace Ndm

/-- The classes whose instances are written in a layout of their own, by kind of message. -/
def ownLayout : Cls → List Cls
  | .Oem => [.StateVectorAccType, .OemCovarianceMatrixType]
  | .Tdm => [.TrackingDataObservationType]
  | .Aem => [.AttitudeStateType]
  | _ => []

/-- The classes that can be inside a message of the kind: those that are not written in a layout of another kind. -/
def insideClasses (kind : Cls) : List Cls :=
  let e : List Cls := [.OemData, .OemSegment, .OemBody, .OemType, .Oem]
  let t : List Cls := [.TdmData, .TdmSegment, .TdmBody, .TdmType, .Tdm]
  let a : List Cls := [.AemData, .AemSegment, .AemBody, .AemType, .Aem]
  let mine : List Cls := match kind with | .Oem => e | .Tdm => t | .Aem => a | _ => []
  Cls.all.filter fun c => (!isSpecialOut c || (ownLayout kind).contains c) && (!(e ++ t ++ a).contains c || mine.contains c) &&
    ![Cls.NdmType, .Ndm].contains c

theorem inside_closed : (messageKinds.all fun k => (insideClasses k.1).all fun c => c.attrs.all fun f => match f.ty with
    | .cls e => e.members.isSome || (insideClasses k.1).contains e
    | _ => true) = true := by decide +kernel

theorem inside_special : (messageKinds.all fun k => (insideClasses k.1).all fun c => !isSpecialOut c || (ownLayout k.1).contains c) = true := by
  decide +kernel

theorem inside_self : (messageKinds.all fun k => (insideClasses k.1).contains k.1) = true := by decide +kernel

theorem kind_named : (messageKinds.all fun k => k.1.metaName.isSome && k.1.metaName != some (py "ndm") && k.1.idVersion.isSome) = true := by
  decide +kernel

/-- The parts of a message with an own layout are those of its kind. -/
theorem special_own {kind : Cls} {id ver : Str} (hk : (kind, id, ver) ∈ messageKinds) {vs : List (Str × Val)}
    (ht : HasType (.cls kind) (.obj kind vs)) {c : Cls} {ws : List (Str × Val)} (hw : Within (.obj c ws) (.obj kind vs))
    (hs : isSpecialOut c = true) : c ∈ ownLayout kind ∧ HasFields c.attrs ws := by
  refine ⟨?_, (within_typed hw).1 _ ht⟩
  have hc : c ∈ insideClasses kind := by
    refine (within_class (S := insideClasses kind) ?_ hw).1 (.cls kind) ?_ ht
    · intro c' hc' f hf e he hm
      have := List.all_eq_true.mp (List.all_eq_true.mp (List.all_eq_true.mp inside_closed _ hk) c' hc') f hf
      rw [he] at this
      simpa [hm] using this
    · intro c' hc' _
      cases hc'
      exact List.contains_iff_mem.mp (List.all_eq_true.mp inside_self _ hk)
  have := List.all_eq_true.mp (List.all_eq_true.mp inside_special _ hk) c hc
  rw [hs] at this
  simpa using this

/-- **C74.** For every message object of the data model, whatever it holds, `to_string` either gives a text or raises one of these:
`AttributeError` or `TypeError`; for ephemerides and tracking data also `IndexError`; for attitude ephemerides also `KeyError` or
`StopIteration`.  No other exception, in particular no `ValueError`. -/
theorem C74_write_exceptions (kind : Cls) (id ver : Str) (hk : (kind, id, ver) ∈ messageKinds) (vs : List (Str × Val))
    (ht : HasType (.cls kind) (.obj kind vs)) (e : PyErr) (he : kvnToString (.obj kind vs) = .error e) :
    e = .attributeError ∨ e = .typeError ∨ (e = .indexError ∧ (kind = .Oem ∨ kind = .Tdm)) ∨
      ((e = .keyError ∨ e = .stopIteration) ∧ kind = .Aem) := by
  let S : PyErr → Prop := fun e => e = .attributeError ∨ e = .typeError ∨ (e = .indexError ∧ (kind = .Oem ∨ kind = .Tdm)) ∨
      ((e = .keyError ∨ e = .stopIteration) ∧ kind = .Aem)
  have h1 : S .attributeError := .inl rfl
  have h2 : S .typeError := .inr (.inl rfl)
  have hown : ∀ c, c ∈ ownLayout kind →
      (kind = .Oem ∧ (c = .StateVectorAccType ∨ c = .OemCovarianceMatrixType)) ∨ (kind = .Tdm ∧ c = .TrackingDataObservationType) ∨
        (kind = .Aem ∧ c = .AttitudeStateType) := by
    intro c hc
    unfold ownLayout at hc
    split at hc <;> simp_all
  have hsp : SpecialRaises S (.obj kind vs) := by
    intro c ws hw hs key out
    obtain ⟨hc, hf⟩ := special_own hk ht hw hs
    rcases hown c hc with ⟨hk', rfl | rfl⟩ | ⟨hk', rfl⟩ | ⟨hk', rfl⟩
    · exact writeStateVector_raises (.inr (.inr (.inl ⟨rfl, .inl hk'⟩))) _
    · exact writeCovariance_raises (.inr (.inr (.inl ⟨rfl, .inl hk'⟩))) h1 h2 _ _
    · exact writeObservation_raises (.inr (.inr (.inl ⟨rfl, .inr hk'⟩))) hf
    · exact writeAttitude_raises h1 h2 (.inr (.inr (.inr ⟨.inl rfl, hk'⟩))) (.inr (.inr (.inr ⟨.inr rfl, hk'⟩))) hf
  have hr : Raises S (kvnToString (.obj kind vs)) := by
    refine .bind ?_ fun _ _ => .pure _
    have hn := List.all_eq_true.mp kind_named _ hk
    simp only [Bool.and_eq_true, bne_iff_ne, ne_eq, Option.isSome_iff_exists] at hn
    obtain ⟨⟨⟨n, hname⟩, hne⟩, ⟨i, ver'⟩, hid⟩ := hn
    have hne' : n ≠ py "ndm" := by rintro rfl; exact hne hname
    have : kvnLines (.obj kind vs) = collateObj [] [fillKvn i ver' none] (.obj kind vs) := by
      simp only [kvnLines, hname, hid, hne', if_false]
    rw [this]
    exact collateObj_raises h1 h2 _ _ _ hsp
  exact hr e he

/-- **C74** for messages that were read, from either notation: nothing else has to be caught around converting and rewriting. -/
theorem C74_rewrite_exceptions (X : XmlChars) (kind : Cls) (vs : List (Str × Val)) (e : PyErr)
    (hr : (∃ (s : KvnSelf) (src : Str), (s.fromString src).1 = .ok (.obj kind vs)) ∨
      ∃ (s : XmlSelf) (src : Str) (t : XTree), X.read src = some t ∧ t.tag ∈ messageTags ∧ (s.fromString X.lib src).1 = .ok (.obj kind vs))
    (he : kvnToString (.obj kind vs) = .error e) :
    e = .attributeError ∨ e = .typeError ∨ (e = .indexError ∧ (kind = .Oem ∨ kind = .Tdm)) ∨
      ((e = .keyError ∨ e = .stopIteration) ∧ kind = .Aem) := by
  have hkinds : ∀ c, c ∈ xmlTypes ∨ c ∈ kvnTypes → ∃ id ver, (c, id, ver) ∈ messageKinds := by
    have : (xmlTypes ++ kvnTypes).all (fun c => messageKinds.any fun p => decide (p.1 = c)) = true := by decide
    intro c hc
    exact mem_messageKinds (List.all_eq_true.mp this c (List.mem_append.mpr hc))
  rcases hr with ⟨s, src, h⟩ | ⟨s, src, t, hr, htag, h⟩
  · rw [kvn_history_independent] at h
    obtain ⟨-, c, -, -, hmem, hty⟩ := kvnFromString_type h
    have hc' : c = kind := by cases hty; rfl
    subst hc'
    obtain ⟨id, ver, hk⟩ := hkinds c (.inr hmem)
    exact C74_write_exceptions c id ver hk vs hty e he
  · obtain ⟨c, hc, -, hb, us, e'⟩ := message_read hr htag h
    cases e'
    obtain ⟨id, ver, hk⟩ := hkinds kind (.inl hc)
    exact C74_write_exceptions kind id ver hk vs (bindElem_type t hb) e he

/-- **C74** (none is superfluous): each of the five does happen, with messages that were read. -/
theorem C74_each :
    (∃ v, kvnFromString (opmUnit (py "KM")) = .ok v ∧ kvnToString v = .error .attributeError) ∧
    (∃ v, kvnFromString (aemState (py "SPIN") (py "") (py "1 2 3 4")) = .ok v ∧ kvnToString v = .error .typeError) ∧
    (∃ v, kvnFromString (tdmRange (py "ONE")) = .ok v ∧ kvnToString v = .error .indexError) ∧
    (∃ v, kvnFromString (aemState (py "QUATERNION/DERIVATIVE") (py "QUATERNION_TYPE = FIRST") (py "1 2 3 4 5 6 7 8")) = .ok v ∧
      kvnToString v = .error .keyError) ∧
    (∃ v, kvnFromString laterOrder = .ok v ∧ kvnToString v = .error .stopIteration) :=
  ⟨C55_refuted.1, C55_refuted.2.2.2.1, C55_refuted.2.1, C55_refuted.2.2.1, C55_refuted.2.2.2.2⟩

end Ndm
