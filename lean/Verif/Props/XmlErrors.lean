import Verif.Props.XmlRead
import Verif.Props.Errors

/-! # C54 for XML: the exceptions a broken text is reported by -/

namespace Ndm

theorem bind_error_cases {α β : Type} {x : Except PyErr α} {f : α → Except PyErr β} {e : PyErr} (h : (x >>= f) = .error e) :
    x = .error e ∨ ∃ a, x = .ok a ∧ f a = .error e := by
  cases x with
  | error e' =>
    cases h
    exact .inl rfl
  | ok a => exact .inr ⟨a, rfl, h⟩

theorem mapM_error {α β : Type} {e₀ : PyErr} {g : α → Except PyErr β} (hg : ∀ a e, g a = .error e → e = e₀) :
    ∀ {xs : List α} {e : PyErr}, xs.mapM g = .error e → e = e₀
  | [], e, h => nomatch h
  | x :: xs, e, h => by
    rw [List.mapM_cons] at h
    rcases bind_error_cases h with h | ⟨y, -, h⟩
    · exact hg x e h
    · rcases bind_error_cases h with h | ⟨ys, -, h⟩
      · exact mapM_error hg h
      · cases h

theorem strip_error {v : Val} {e : PyErr} (h : stripMultiNdm v = .error e) : e = .typeError := by
  unfold stripMultiNdm at h
  split at h
  · rcases bind_error_cases h with h | ⟨ls, -, h⟩
    · unfold nonZeroSlots at h
      rcases bind_error_cases h with h | ⟨ys, -, h⟩
      · refine mapM_error (fun a e h => ?_) h
        split at h <;> cases h
        rfl
      · cases h
    · split at h <;> cases h
  · cases h
    rfl

/-- **C54** for XML.  When `NdmXmlIo.from_string` fails, on any text whatsoever, it raises `ParserError` (of `xsdata` or `lxml`); or
`TypeError`, which happens only when the root of the document is neither a message nor a combined message. -/
theorem C54_xml (X : XmlChars) (s : XmlSelf) (src : Str) (e : PyErr) (h : (s.fromString X.lib src).1 = .error e) :
    e = .parserError ∨ e = .typeError ∧ ∃ t, X.read src = some t ∧ t.tag ∉ messageTags ∧ t.tag ≠ py "ndm" := by
  cases hr : X.read src with
  | none =>
    left
    have h : xmlFromString X.lib src = .error e := h
    have hp : X.lib.parse src = .error .parserError := by
      show (match X.read src with | none => _ | some t => bindRoot t) = _
      rw [hr]
    unfold xmlFromString at h
    rw [hp] at h
    cases h
    rfl
  | some t =>
    by_cases ht : t.tag ∈ messageTags
    · left
      obtain ⟨c, hc, hm, -, -⟩ := message_class _ ht
      obtain ⟨h1, h2⟩ := C68_strict X s src t c hr hc hm
      by_cases hF : ForeignXml (.cls c) t
      · rw [h1 hF] at h
        cases h
        rfl
      · obtain ⟨vs, hv⟩ := h2 hF
        rw [hv] at h
        cases h
    · by_cases hn : t.tag = py "ndm"
      · left
        obtain ⟨h1, h2⟩ := C68_ndm X s src t hr hn
        by_cases hF : ForeignXml (.cls .Ndm) t
        · rw [h1 hF] at h
          cases h
          rfl
        · obtain ⟨vs, hv⟩ := h2 hF
          rw [hv] at h
          cases h
      · have h : xmlFromString X.lib src = .error e := h
        unfold xmlFromString at h
        rw [xml_parse hr] at h
        rcases bind_error_cases h with h | ⟨v, hv, h⟩
        · unfold bindRoot at h
          split at h
          · cases h
            exact .inl rfl
          · exact .inl (bindElem_error t h)
        · have hd : downcastNdm v = .ok v := by
            unfold bindRoot at hv
            split at hv
            · cases hv
            · next c hc =>
              have hc' := List.find?_some hc
              simp only [Bool.and_eq_true, beq_iff_eq] at hc'
              have hne : c ≠ .Ndm := by
                rintro rfl
                exact hn (Option.some.inj hc'.2).symm
              have hty := bindElem_type t hv
              unfold downcastNdm
              split
              · cases hty
                exact absurd rfl hne
              · rfl
          rw [hd] at h
          right
          refine ⟨?_, t, rfl, ht, hn⟩
          rcases bind_error_cases h with h | ⟨w, hw, h⟩
          · cases h
          · have key : ∀ b : Bool, (if b then stripMultiNdm w else pure w) = .error e → e = .typeError := by
              intro b h
              cases b with
              | true => exact strip_error h
              | false => cases h
            exact key _ h

/-- **C54** for `NdmIo.from_string`, on any text whatsoever. -/
theorem C54_any (X : XmlChars) (src : Str) (e : PyErr) (h : ndmFromString X.lib src = .error e) :
    e = .attributeError ∨ e = .valueError ∨ e = .indexError ∨ e = .parserError ∨ e = .keyError ∨ e = .typeError ∨ e = .notImplementedError := by
  unfold ndmFromString at h
  rcases bind_error_cases h with h | ⟨f, -, h⟩
  · unfold identifyFormat at h
    dsimp only at h
    repeat' split at h
    all_goals cases h
    simp
  · cases f with
    | xml => rcases C54_xml X {} src e h with h | h <;> simp [h]
    | kvn => rcases C54_five {} src e h with h | h | h | h | h <;> simp [h]
    | json =>
      cases h
      simp

-- both happen
example : (XmlSelf.fromString (oneDoc (.node (py "opm") [] [] [.node (py "x") [] [] []])).lib {} []).1 = .error .parserError :=
  ((C68_strict _ {} [] _ .Opm rfl (by decide) rfl).1
    (.unknown (c := .Opm) rfl List.mem_cons_self (by decide +kernel)))

-- a document whose root is neither a message nor an `ndm`
example : (XmlSelf.fromString (oneDoc (.node (py "stateVectorType") [] [] [])).lib {} []).1 = .error .typeError := by decide +kernel

end Ndm
