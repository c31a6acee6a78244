import Verif.Lemmas.CharsXml
import Verif.Props.XmlFrom
import Verif.Props.Chars

/-! # C81: the characters of what is converted from XML to KVN -/

namespace Ndm

/-- **C81** from XML.  In any such class of characters, if the texts and attribute values of an XML message are in it, so are the texts
in the object that is read and the characters of the KVN text written for it. -/
theorem C81_converted (P : Char → Prop) (hP : CharClass P) (X : XmlChars) (s : XmlSelf) (src : Str) (t : XTree) (o : Val)
    (hr : X.read src = some t) (ht : t.tag ∈ messageTags) (hd : DocIn P t) (h : (s.fromString X.lib src).1 = .ok o) :
    TextsIn P o ∧ ∀ k, kvnToString o = .ok k → ∀ x ∈ k, P x := by
  obtain ⟨c, -, -, hb, -⟩ := message_read hr ht h
  have hv := xmlSays_in hd (bindElem_says t hb)
  exact ⟨hv, fun k hk => kvnToString_in hP (bindElem_type t hb) hv hk⟩

theorem textsIn_retyped {P : Char → Prop} (m : Combined) (h : TextsIn P m.parsed) : TextsIn P m.typed ∧ ∀ x ∈ m.messages, TextsIn P x := by
  have swap : ∀ {c d : Cls} {b : Body}, TextsIn P (.obj c b) → TextsIn P (.obj d b) := fun hb s hs => by
    cases hs with
    | field hm hw => exact hb s (.field hm hw)
  have field : ∀ {n : Str} {v : Val}, (n, v) ∈ m.parsed.vars → TextsIn P v := fun hm s hs => h s (.field hm hs)
  have item : ∀ {n : Str} {bs : List Body} {c : Cls} (d : Cls), (n, Val.list (bs.map (.obj c))) ∈ m.parsed.vars → ∀ b ∈ bs, TextsIn P (.obj d b) :=
    fun d hm b hb => swap fun s hs => field hm s (.item (List.mem_map.mpr ⟨b, hb, rfl⟩) hs)
  have aem := item (n := py "aem") (bs := m.aem) (c := .AemType) .Aem (by simp [Combined.parsed, Combined.toObj, Val.vars])
  have apm := item (n := py "apm") (bs := m.apm) (c := .ApmType) .Apm (by simp [Combined.parsed, Combined.toObj, Val.vars])
  have cdm := item (n := py "cdm") (bs := m.cdm) (c := .CdmType) .Cdm (by simp [Combined.parsed, Combined.toObj, Val.vars])
  have oem := item (n := py "oem") (bs := m.oem) (c := .OemType) .Oem (by simp [Combined.parsed, Combined.toObj, Val.vars])
  have omm := item (n := py "omm") (bs := m.omm) (c := .OmmType) .Omm (by simp [Combined.parsed, Combined.toObj, Val.vars])
  have opm := item (n := py "opm") (bs := m.opm) (c := .OpmType) .Opm (by simp [Combined.parsed, Combined.toObj, Val.vars])
  have rdm := item (n := py "rdm") (bs := m.rdm) (c := .RdmType) .Rdm (by simp [Combined.parsed, Combined.toObj, Val.vars])
  have tdm := item (n := py "tdm") (bs := m.tdm) (c := .TdmType) .Tdm (by simp [Combined.parsed, Combined.toObj, Val.vars])
  have all : ∀ {bs : List Body} {d : Cls}, (∀ b ∈ bs, TextsIn P (.obj d b)) → TextsIn P (.list (bs.map (.obj d))) := fun hb s hs => by
    cases hs with
    | item hm hw =>
      obtain ⟨b, hbm, rfl⟩ := List.mem_map.mp hm
      exact hb b hbm s hw
  constructor
  · refine textsIn_obj fun n x hx => ?_
    simp only [List.mem_cons, Prod.mk.injEq, List.not_mem_nil, or_false] at hx
    rcases hx with ⟨-, rfl⟩ | ⟨-, rfl⟩ | ⟨-, rfl⟩ | ⟨-, rfl⟩ | ⟨-, rfl⟩ | ⟨-, rfl⟩ | ⟨-, rfl⟩ | ⟨-, rfl⟩ | ⟨-, rfl⟩ | ⟨-, rfl⟩
    · exact field (n := py "message_id") (by simp [Combined.parsed, Combined.toObj, Val.vars])
    · exact field (n := py "comment") (by simp [Combined.parsed, Combined.toObj, Val.vars])
    · exact all aem
    · exact all apm
    · exact all cdm
    · exact all oem
    · exact all omm
    · exact all opm
    · exact all rdm
    · exact all tdm
  · intro x hx
    simp only [Combined.messages, List.mem_append, List.mem_map] at hx
    rcases hx with ((((((⟨y, hy, rfl⟩ | ⟨y, hy, rfl⟩) | ⟨y, hy, rfl⟩) | ⟨y, hy, rfl⟩) | ⟨y, hy, rfl⟩) | ⟨y, hy, rfl⟩) | ⟨y, hy, rfl⟩) | ⟨y, hy, rfl⟩
    · exact aem y hy
    · exact apm y hy
    · exact cdm y hy
    · exact oem y hy
    · exact omm y hy
    · exact opm y hy
    · exact rdm y hy
    · exact tdm y hy

/-- **C81** from combined messages in XML.  The same for what is read from them, if it is one message; and for each of the messages,
taken out of the combined message, if there are several. -/
theorem C81_combined (P : Char → Prop) (hP : CharClass P) (X : XmlChars) (s : XmlSelf) (src : Str) (t : XTree) (o : Val)
    (hr : X.read src = some t) (ht : t.tag = py "ndm") (hd : DocIn P t) (h : (s.fromString X.lib src).1 = .ok o) :
    TextsIn P o ∧ ∃ m : Combined, (m.messages = [o] ∨ (m.messages.length ≠ 1 ∧ o = m.typed)) ∧
      ∀ v ∈ m.messages, ∀ k, kvnToString v = .ok k → ∀ x ∈ k, P x := by
  obtain ⟨m, hb, hm, hx⟩ := ndm_read hr ht h
  obtain ⟨h1, h2⟩ := textsIn_retyped m (xmlSays_in hd (bindElem_says t hb))
  refine ⟨?_, m, hm, fun v hv k hk => ?_⟩
  · rcases hm with hm | ⟨-, rfl⟩
    · exact h2 o (by rw [hm]; exact List.mem_singleton.mpr rfl)
    · exact h1
  · obtain ⟨c, -, hc⟩ := hx v hv
    exact kvnToString_in hP hc (h2 v hv) hk

/-! ## Cases -/

mutual
/-- A check of all texts and attribute values. -/
def docAll (p : Char → Bool) : XTree → Bool
  | .node _ attrs text kids => text.all p && attrs.all (·.2.all p) && docsAll p kids
def docsAll (p : Char → Bool) : List XTree → Bool
  | [] => true
  | t :: ts => docAll p t && docsAll p ts
end

theorem docsAll_mem {p : Char → Bool} {t : XTree} : ∀ {ts : List XTree}, docsAll p ts = true → t ∈ ts → docAll p t = true
  | [], _, h => by cases h
  | u :: us, h, hm => by
    simp only [docsAll, Bool.and_eq_true] at h
    rcases List.mem_cons.mp hm with rfl | hm
    · exact h.1
    · exact docsAll_mem h.2 hm

theorem docIn_of {p : Char → Bool} {t : XTree} (h : docAll p t = true) : DocIn (fun c => p c = true) t := by
  intro u hu
  induction hu with
  | here =>
    cases u with
    | node tag attrs text kids =>
      simp only [docAll, Bool.and_eq_true] at h
      refine ⟨fun c hc => List.all_eq_true.mp h.1.1 c hc, fun n s hn c hc => ?_⟩
      simp only [XTree.attr, Option.map_eq_some_iff] at hn
      obtain ⟨a, ha, rfl⟩ := hn
      exact List.all_eq_true.mp (List.all_eq_true.mp h.1.2 a (List.mem_of_find?_eq_some ha)) c hc
  | @inside k t hk _ ih =>
    cases t with
    | node tag attrs text kids =>
      simp only [docAll, Bool.and_eq_true] at h
      exact ih (docsAll_mem h.2 hk)

-- a message and a combined message with printable texts
example : DocIn (fun c => decide (c.toNat < 128 ∧ c ≠ '\r') = true) richDoc ∧ DocIn (fun c => decide (c.toNat < 128 ∧ c ≠ '\r') = true) richNdm :=
  ⟨docIn_of (by decide +kernel), docIn_of (by decide +kernel)⟩

-- so the KVN text of the message is ASCII
example (k : Str) (hk : kvnToString richOpm = .ok k) : ∀ x ∈ k, x.toNat < 128 ∧ x ≠ '\r' :=
  (C81_converted _ ascii_class (oneDoc richDoc) {} [] richDoc richOpm rfl (by decide +kernel)
    (fun u hu => ⟨fun c hc => of_decide_eq_true ((docIn_of (p := fun c => decide (c.toNat < 128 ∧ c ≠ '\r')) (t := richDoc) (by decide +kernel) u hu).1 c hc),
      fun n s hn c hc => of_decide_eq_true ((docIn_of (p := fun c => decide (c.toNat < 128 ∧ c ≠ '\r')) (t := richDoc) (by decide +kernel) u hu).2 n s hn c hc)⟩)
    (by decide +kernel)).2 k hk

end Ndm
