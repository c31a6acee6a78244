import Verif.Lemmas.Valid
import Verif.Props.Malformed
import Verif.Props.Missing
import Verif.Props.XmlRoundTrip
import Verif.Props.XmlRead
import Verif.Props.Refuted

/-! # C79: what is written as XML is as valid as the object -/

namespace Ndm

/-- What is written for an object of the data model, read as a document. -/
theorem written_valid {X : XmlChars} (hX : X.Faithful) {c : Cls} (hc : c ∈ .Ndm :: xmlTypes) {vs : List (Str × Val)} (h : HasType (.cls c) (.obj c vs))
    (hg : (Val.obj c vs).goodTexts = true) (loc noNsLoc : Option Str) :
    ∃ text t, X.lib.render loc noNsLoc (.obj c vs) = .ok text ∧ X.read text = some t ∧ c.metaName = some t.tag ∧
      ¬ ForeignXml (.cls c) t ∧ (IncompleteXml (.cls c) t ↔ Incomplete (.obj c vs)) ∧ (MalformedXml (.cls c) t ↔ Malformed (.obj c vs)) := by
  obtain ⟨text, core, hw, -, -, hr, hp⟩ := lib_round_trip hX hc h hg loc noNsLoc
  have hmeta : ∀ c ∈ .Ndm :: xmlTypes, c.metaName.isSome = true := by decide
  obtain ⟨tag, hmt⟩ := Option.isSome_iff_exists.mp (hmeta c hc)
  obtain ⟨t, hread, ht⟩ := Option.map_eq_some_iff.mp (hr.trans hmt)
  have hmt' : c.metaName = some t.tag := by rw [hmt, ht]
  have hbind : bindElem (.cls c) t = .ok (Val.obj c vs).plain := by
    have := xml_parse hread
    rw [hp, bindRoot_eq hc hmt'] at this
    exact this.symm
  refine ⟨text, t, hw, hread, hmt', fun hF => foreign_refused hF _ hbind, ?_, ?_⟩
  · rw [Val.plain] at hbind
    rw [← incomplete_read t hbind]
    exact ⟨fun h => plain_incomplete h _ (by rw [Val.plain]), fun h => by have := incomplete_plain h; rwa [Val.plain] at this⟩
  · rw [Val.plain] at hbind
    rw [← malformed_read t hbind]
    refine ⟨fun h => ?_, fun h => .inr (by have := malformed_plain h; rwa [Val.plain] at this)⟩
    rcases h with ⟨_, s, e⟩ | h
    · cases e
    · exact plain_malformed h _ (by rw [Val.plain])

/-- **C79.**  The document in the text that is written for a message of the data model has the tag of its kind, has no element the data
model does not have there, and lacks something the schema requires, or has a value the schema does not allow, exactly if the message does.
So a complete message with values of the right types is written as a document that the data model admits. -/
theorem C79_valid (X : XmlChars) (hX : X.Faithful) (c : Cls) (hc : c ∈ xmlTypes) (vs : List (Str × Val)) (h : HasType (.cls c) (.obj c vs))
    (hg : (Val.obj c vs).goodTexts = true) (loc noNsLoc : Option Str) (writer : XmlSelf) :
    ∃ text t, (writer.toString X.lib (.obj c vs) loc noNsLoc).1 = .ok text ∧ X.read text = some t ∧ c.metaName = some t.tag ∧
      ¬ ForeignXml (.cls c) t ∧ (IncompleteXml (.cls c) t ↔ Incomplete (.obj c vs)) ∧ (MalformedXml (.cls c) t ↔ Malformed (.obj c vs)) := by
  obtain ⟨l, n, hln⟩ : ∃ l n, (writer.toString X.lib (.obj c vs) loc noNsLoc).1 = X.lib.render l n (.obj c vs) := ⟨_, _, rfl⟩
  rw [hln]
  exact written_valid hX (List.mem_cons_of_mem _ hc) h hg l n

/-- **C79** for combined messages. -/
theorem C79_ndm (X : XmlChars) (hX : X.Faithful) (m : Combined) (h : HasType (.cls .Ndm) m.parsed) (hg : m.parsed.goodTexts = true)
    (loc noNsLoc : Option Str) (writer : XmlSelf) :
    ∃ text t, (writer.toString X.lib m.typed loc noNsLoc).1 = .ok text ∧ X.read text = some t ∧ t.tag = py "ndm" ∧
      ¬ ForeignXml (.cls .Ndm) t ∧ (IncompleteXml (.cls .Ndm) t ↔ Incomplete m.typed) ∧ (MalformedXml (.cls .Ndm) t ↔ Malformed m.typed) := by
  obtain ⟨l, n, hln⟩ : ∃ l n, (writer.toString X.lib m.typed loc noNsLoc).1 = X.lib.render l n m.typed := ⟨_, _, rfl⟩
  rw [hln]
  have hren : X.lib.render l n m.typed = X.lib.render l n m.parsed := by
    show (toDoc m.typed >>= fun t => X.write l n t) = (toDoc m.parsed >>= fun t => X.write l n t)
    rw [toDoc_typed]
  obtain ⟨text, t, hw, hread, hmt, hF, hi, hm⟩ := written_valid hX (c := .Ndm) List.mem_cons_self h hg l n
  have hfl : Flat m.messageId ∧ Flat m.comment := by
    cases h with
    | obj _ hf =>
      obtain ⟨v1, vs, e1, hv1, hf⟩ := hasFields_cons hf
      cases e1
      obtain ⟨v2, vs, e2, hv2, hf⟩ := hasFields_cons hf
      cases e2
      exact ⟨fieldOk_flat rfl hv1, fieldOk_flat rfl hv2⟩
  have i1 : Incomplete m.parsed ↔ ∃ x ∈ m.messages, Incomplete x := incomplete_toObj m hfl.1 hfl.2 rfl rfl rfl rfl rfl rfl rfl rfl
  have i2 : Incomplete m.typed ↔ ∃ x ∈ m.messages, Incomplete x := incomplete_toObj m hfl.1 hfl.2 rfl rfl rfl rfl rfl rfl rfl rfl
  have m1 : Malformed m.parsed ↔ ∃ x ∈ m.messages, Malformed x := malformed_toObj m hfl.1 hfl.2 rfl rfl rfl rfl rfl rfl rfl rfl
  have m2 : Malformed m.typed ↔ ∃ x ∈ m.messages, Malformed x := malformed_toObj m hfl.1 hfl.2 rfl rfl rfl rfl rfl rfl rfl rfl
  exact ⟨text, t, hren.trans hw, hread, (Option.some.inj hmt).symm, hF, hi.trans (i1.trans i2.symm), hm.trans (m1.trans m2.symm)⟩

/-- **C79** for conversion: the document a KVN text (whose lines XML can hold) is converted to is as valid as what was read. -/
theorem C79_from_kvn (X : XmlChars) (hX : X.Faithful) (s : KvnSelf) (src : Str) (ls cs : List Str) (ht : TextLines src ls)
    (hs : SigLines ls cs) (hcs : ∀ c ∈ cs, goodText c = true) (o : Val) (h : (s.fromString src).1 = .ok o)
    (loc noNsLoc : Option Str) (writer : XmlSelf) :
    ∃ c ∈ xmlTypes, ∃ text t, (writer.toString X.lib o loc noNsLoc).1 = .ok text ∧ X.read text = some t ∧ c.metaName = some t.tag ∧
      ¬ ForeignXml (.cls c) t ∧ (IncompleteXml (.cls c) t ↔ Incomplete o) ∧ (MalformedXml (.cls c) t ↔ Malformed o) := by
  obtain ⟨L, hL⟩ := lineItems_exists (sigLines_cores hs)
  obtain ⟨M, -, -, hfrom⟩ := C37_provenance s src ls cs L o ht hs hL h
  have hg := from_good (items_allGood hcs hL) hfrom
  rw [kvn_history_independent] at h
  obtain ⟨kind, hk, hty⟩ := C38_conforms src o h
  have hm : ∀ p ∈ messageKinds, p.1.members = none := by decide
  cases hty with
  | obj _ hf => exact ⟨_, messageKinds_xml _ hk, C79_valid X hX _ (messageKinds_xml _ hk) _ (.obj (hm _ hk) hf) hg loc noNsLoc writer⟩
  | enum _ h' => rw [hm _ hk] at h'; cases h'
  | enumText _ h' => rw [hm _ hk] at h'; cases h'

/-! ## Cases -/

theorem items_within {x v : Val} (h : x ∈ v.items) : Within x v := by
  cases v with
  | none => cases h
  | list xs => exact .item h .self
  | _ =>
    cases List.mem_singleton.mp h
    exact .self

theorem complete_of {v : Val} (h : (v.parts.all fun w => match w with
    | .obj c vs => vs.all fun p => c.least.all fun q => q.1 != p.1 || decide (q.2 ≤ p.2.items.length)
    | _ => true) = true) : ¬ Incomplete v := by
  have key : ∀ {v : Val}, Incomplete v → ∃ c vs n w k, Within (.obj c vs) v ∧ (n, w) ∈ vs ∧ (n, k) ∈ c.least ∧ w.items.length < k := by
    intro v h
    induction h with
    | here h1 h2 h3 => exact ⟨_, _, _, _, _, .self, h1, h2, h3⟩
    | inside h1 h2 _ ih =>
      obtain ⟨c, vs, n, w, k, hw, h⟩ := ih
      exact ⟨c, vs, n, w, k, .field h1 (within_trans hw (items_within h2)), h⟩
  intro hi
  obtain ⟨c, vs, n, w, k, hw, h1, h2, h3⟩ := key hi
  have := List.all_eq_true.mp (List.all_eq_true.mp (List.all_eq_true.mp h _ (within_parts hw)) _ h1) _ h2
  simp only [bne_self_eq_false, Bool.false_or, decide_eq_true_eq] at this
  omega

theorem formed_of {v : Val} (h : (v.parts.all fun w => match w with
    | .obj c vs => vs.all fun p => c.attrs.all fun f => f.name != p.1 || decide (f.ty = .str) || p.2.items.all fun x => match x with
      | .str _ => false
      | _ => true
    | _ => true) = true) : ¬ Malformed v := by
  have key : ∀ {v : Val}, Malformed v → ∃ c vs w, ∃ f ∈ Cls.attrs c, ∃ s, Within (.obj c vs) v ∧ (f.name, w) ∈ vs ∧ f.ty ≠ .str ∧ .str s ∈ w.items := by
    intro v h
    induction h with
    | here h1 h2 h3 h4 => exact ⟨_, _, _, _, h2, _, .self, h1, h3, h4⟩
    | inside h1 h2 _ ih =>
      obtain ⟨c, vs, w, f, hf, s, hw, h⟩ := ih
      exact ⟨c, vs, w, f, hf, s, .field h1 (within_trans hw (items_within h2)), h⟩
  intro hi
  obtain ⟨c, vs, w, f, hf, s, hw, h1, h2, h3⟩ := key hi
  have := List.all_eq_true.mp (List.all_eq_true.mp (List.all_eq_true.mp h _ (within_parts hw)) _ h1) _ hf
  simp only [bne_self_eq_false, Bool.false_or, decide_eq_false h2] at this
  exact absurd (List.all_eq_true.mp this _ h3) (by simp)

/-- **C76 is false** of KVN also in that the value may not even be in the object: a repeated line disappears (C40), whatever its value is. -/
theorem C76_refuted_hidden : ∃ v, kvnFromString (py "CCSDS_OPM_VERS = 2.0\n" ++ opmBodyText ++ py "X = far [furlong]\n") = .ok v ∧ ¬ Malformed v := by
  obtain ⟨v, h, hv⟩ := ok_of_check (x := kvnFromString (py "CCSDS_OPM_VERS = 2.0\n" ++ opmBodyText ++ py "X = far [furlong]\n"))
    (fun v => (v.parts.all fun w => match w with
    | .obj c vs => vs.all fun p => c.attrs.all fun f => f.name != p.1 || decide (f.ty = .str) || p.2.items.all fun x => match x with
      | .str _ => false
      | _ => true
    | _ => true) = true) (by decide +kernel)
  exact ⟨v, h, formed_of hv⟩

-- an OPM that lacks nothing
example : (∃ vs, (mkOpm []) = .obj .Opm vs ∧ HasType (.cls .Opm) (.obj .Opm vs)) ∧ (mkOpm []).goodTexts = true ∧ ¬ Incomplete (mkOpm []) ∧ ¬ Malformed (mkOpm []) := by
  have h2 : WellFormedMessage (.obj .Opm (mkOpm []).vars) := .plain (c := .Opm) (by decide) (wellFormed_of_b (by decide +kernel))
  exact ⟨⟨_, rfl, (wellFormed_conforms h2).2⟩, by decide +kernel, complete_of (by decide +kernel), formed_of (by decide +kernel)⟩

-- one that lacks everything
example : Incomplete (Cls.default .Opm) ∧ (∃ vs, Cls.default .Opm = .obj .Opm vs ∧ HasType (.cls .Opm) (.obj .Opm vs)) := by
  refine ⟨.here (n := py "header") (v := .none) (k := 1) (by decide) (by decide) (by decide), _, rfl, .obj (by decide) ?_⟩
  repeat first
    | exact .nil
    | refine HasFields.cons (.none rfl) ?_

end Ndm
