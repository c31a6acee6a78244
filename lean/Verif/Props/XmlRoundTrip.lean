import Verif.Lemmas.XmlTexts
import Verif.Lemmas.FromGood
import Verif.Props.Rewriting
import Verif.Props.Provenance
import Verif.Props.Conform

/-! # C65: what is written as XML is read back -/

namespace Ndm

/-- **C65** for documents.  An object of the data model is turned into a
document; and from this document, in whatever layout, the object is read, with its numbers in plain form. -/
theorem C65_document (c : Cls) (vs : List (Str × Val)) (h : HasType (.cls c) (.obj c vs)) :
    ∃ t, toDoc (.obj c vs) = .ok t ∧ c.metaName = some t.tag ∧ ∀ t', SameDoc t t' → bindElem (.cls c) t' = .ok (Val.obj c vs).plain := by
  cases h with
  | obj hm hf =>
    have hr := fields_read hf
    refine ⟨_, rfl, ?_, fun t' ht => ?_⟩
    · have : (Cls.all.all fun c => c.members.isSome || c.metaName.isSome) = true := by decide +kernel
      have := all_classes this c
      rw [hm] at this
      cases hc : c.metaName with
      | none => rw [hc] at this; cases this
      | some n => rfl
    · rw [Val.plain]
      exact object_reads hm hr (fixed_names c) ht

theorem root_classes : ∀ c ∈ .Ndm :: xmlTypes, (Cls.all.find? fun d => d.members.isNone && d.metaName == c.metaName) = some c := by
  decide +kernel

theorem bindRoot_eq {c : Cls} (hc : c ∈ .Ndm :: xmlTypes) {t : XTree} (ht : c.metaName = some t.tag) :
    bindRoot t = bindElem (.cls c) t := by
  unfold bindRoot
  rw [← ht, root_classes c hc]

theorem SameDoc.tag_eq {t t' : XTree} (h : SameDoc t t') : t'.tag = t.tag := by cases h; rfl

theorem toDoc_good {c : Cls} {vs : List (Str × Val)} (h : HasType (.cls c) (.obj c vs)) (hg : (Val.obj c vs).goodTexts = true) {t : XTree}
    (ht : toDoc (.obj c vs) = .ok t) : t.good = true := by
  have := elems_good h hg (c.metaName.getD [])
  cases ht
  rw [toElems, goodTrees, Bool.and_eq_true] at this
  exact this.1

/-- What the library makes of an object and gives back for it. -/
theorem lib_reads {X : XmlChars} (hX : X.Faithful) {c : Cls}
    (hc : (Cls.all.find? fun d => d.members.isNone && d.metaName == c.metaName) = some c) {vs : List (Str × Val)}
    (h : HasType (.cls c) (.obj c vs)) (hg : (Val.obj c vs).goodTexts = true)
    (loc noNsLoc : Option Str) :
    ∃ text core, X.lib.render loc noNsLoc (.obj c vs) = .ok text ∧ Core text core ∧ (py "<" <+: core ∧ py ">" <:+ core) ∧
      X.lib.rootTag text = c.metaName ∧ X.lib.parse text = .ok (Val.obj c vs).plain := by
  obtain ⟨t, ht, hm, hb⟩ := C65_document c vs h
  obtain ⟨text, hw, ⟨core, h1, h2⟩, t', hr, hs⟩ := hX loc noNsLoc t (toDoc_good h hg ht)
  refine ⟨text, core, ?_, h1, h2, ?_, ?_⟩
  · show (toDoc (.obj c vs) >>= fun t => X.write loc noNsLoc t) = _
    rw [ht]
    exact hw
  · show (X.read text).map XTree.tag = _
    rw [hr, Option.map_some, hs.tag_eq, hm]
  · show (match X.read text with | none => _ | some t => bindRoot t) = _
    rw [hr]
    simp only
    rw [bindRoot, hs.tag_eq, ← hm, hc]
    exact hb t' hs

theorem lib_round_trip {X : XmlChars} (hX : X.Faithful) {c : Cls} (hc : c ∈ .Ndm :: xmlTypes) {vs : List (Str × Val)}
    (h : HasType (.cls c) (.obj c vs)) (hg : (Val.obj c vs).goodTexts = true)
    (loc noNsLoc : Option Str) :
    ∃ text core, X.lib.render loc noNsLoc (.obj c vs) = .ok text ∧ Core text core ∧ (py "<" <+: core ∧ py ">" <:+ core) ∧
      X.lib.rootTag text = c.metaName ∧ X.lib.parse text = .ok (Val.obj c vs).plain :=
  lib_reads hX (root_classes c hc) h hg loc noNsLoc

/-- **C65.** A message of the data model, of any of the eight kinds, whose texts are ones XML can hold, is written as XML with
any schema locations by a fresh or used `NdmXmlIo`; and reading the text gives an object of the same class with the same
values: numbers are in plain form, but the same numbers. -/
theorem C65_round_trip (X : XmlChars) (hX : X.Faithful) (c : Cls) (hc : c ∈ xmlTypes) (vs : List (Str × Val))
    (h : HasType (.cls c) (.obj c vs)) (hg : (Val.obj c vs).goodTexts = true)
    (loc noNsLoc : Option Str) (writer reader : XmlSelf) :
    ∃ text o, (writer.toString X.lib (.obj c vs) loc noNsLoc).1 = .ok text ∧ (reader.fromString X.lib text).1 = .ok o ∧
      ndmFromString X.lib text = .ok o ∧ o = (Val.obj c vs).plain ∧ SameVal (.obj c vs) o := by
  obtain ⟨l, n, hln⟩ : ∃ l n, (writer.toString X.lib (.obj c vs) loc noNsLoc).1 = X.lib.render l n (.obj c vs) := ⟨_, _, rfl⟩
  rw [hln]
  obtain ⟨text, core, hw, hcore, hd, hr, hp⟩ := lib_round_trip hX (List.mem_cons_of_mem _ hc) h hg l n
  have hm : ∀ c ∈ xmlTypes, c ≠ .Ndm ∧ ∃ t ∈ messageTags, c.metaName = some t := by decide
  obtain ⟨hne, t, ht, hmt⟩ := hm c hc
  have hread : xmlFromString X.lib text = .ok (Val.obj c vs).plain := by
    rw [Val.plain] at hp ⊢
    exact C14_plain X.lib text t c _ hp hne (hr.trans hmt) ht
  refine ⟨text, _, hw, hread, ?_, rfl, same_plain _⟩
  rw [(C02_dispatch X.lib text core hcore).2 hd]
  exact hread

theorem messageKinds_xml : ∀ p ∈ messageKinds, p.1 ∈ xmlTypes := by decide

/-- **C65** for messages read from KVN: whatever is read from a KVN text (whose lines XML can hold) can be written as XML, and
reading that gives the same values. -/
theorem C65_from_kvn (X : XmlChars) (hX : X.Faithful) (s : KvnSelf) (src : Str) (ls cs : List Str) (ht : TextLines src ls)
    (hs : SigLines ls cs) (hcs : ∀ c ∈ cs, goodText c = true) (o : Val) (h : (s.fromString src).1 = .ok o)
    (loc noNsLoc : Option Str) (writer reader : XmlSelf) :
    ∃ text o', (writer.toString X.lib o loc noNsLoc).1 = .ok text ∧ (reader.fromString X.lib text).1 = .ok o' ∧
      ndmFromString X.lib text = .ok o' ∧ o' = o.plain ∧ SameVal o o' := by
  obtain ⟨L, hL⟩ := lineItems_exists (sigLines_cores hs)
  obtain ⟨M, -, -, hfrom⟩ := C37_provenance s src ls cs L o ht hs hL h
  have hg := from_good (items_allGood hcs hL) hfrom
  rw [kvn_history_independent] at h
  obtain ⟨kind, hk, hty⟩ := C38_conforms src o h
  have hm : ∀ p ∈ messageKinds, p.1.members = none := by decide
  cases hty with
  | obj _ hf => exact C65_round_trip X hX _ (messageKinds_xml _ hk) _ (.obj (hm _ hk) hf) hg loc noNsLoc writer reader
  | enum _ h' => rw [hm _ hk] at h'; cases h'
  | enumText _ h' => rw [hm _ hk] at h'; cases h'

/-- Well-formed messages conform to the data model. -/
theorem wellFormed_conforms {c : Cls} {vs : List (Str × Val)} (h : WellFormedMessage (.obj c vs)) :
    c ∈ xmlTypes ∧ HasType (.cls c) (.obj c vs) := by
  obtain ⟨text, -, hr⟩ := h.round_trip
  obtain ⟨kind, hk, hty⟩ := C38_conforms text _ hr
  cases hty with
  | obj hm hf => exact ⟨messageKinds_xml _ hk, .obj hm hf⟩

/-- **C65** and C53: for well-formed messages with plain numbers, a faithful reader and writer is what C53 asks for. -/
theorem C65_reads_back (X : XmlChars) (hX : X.Faithful) (c : Cls) (vs : List (Str × Val)) (h : WellFormedMessage (.obj c vs))
    (hg : (Val.obj c vs).goodTexts = true) (hp : plainVars vs = vs) : ReadsBack X.lib c vs := by
  obtain ⟨hc, ht⟩ := wellFormed_conforms h
  have key : ∀ loc noNsLoc xml, X.lib.render loc noNsLoc (.obj c vs) = .ok xml →
      (∃ core, Core xml core ∧ py "<" <+: core ∧ py ">" <:+ core) ∧ X.lib.rootTag xml = c.metaName ∧
      X.lib.parse xml = .ok (.obj c vs) := by
    intro loc noNsLoc xml hx
    obtain ⟨text, core, hw, hcore, hd, hr, hpar⟩ := lib_round_trip hX (List.mem_cons_of_mem _ hc) ht hg loc noNsLoc
    rw [hw] at hx
    cases hx
    rw [Val.plain, hp] at hpar
    exact ⟨⟨core, hcore, hd⟩, hr, hpar⟩
  exact ⟨fun l n x h => (key l n x h).1, fun l n x h => (key l n x h).2.1, fun l n x h => (key l n x h).2.2⟩

/-! ## Combined messages -/

theorem toElems_subclass {c d : Cls} (hf : c.fields = d.fields) (hi : c.idVersion = d.idVersion) (tag : Str) (vs : List (Str × Val)) :
    toElems tag (.obj c vs) = toElems tag (.obj d vs) := by
  rw [toElems, toElems, fixedAttrs, fixedAttrs, hf, hi]

theorem toList_subclass {c d : Cls} (hf : c.fields = d.fields) (hi : c.idVersion = d.idVersion) (tag : Str) :
    ∀ bs : List Body, toList tag (bs.map (.obj c)) = toList tag (bs.map (.obj d))
  | [] => rfl
  | b :: bs => by rw [List.map_cons, List.map_cons, toList, toList, toElems_subclass hf hi, toList_subclass hf hi tag bs]

/-- Values written in the same way. -/
def WrittenAlike (p q : Str × Val) : Prop := xmlStr p.2 = xmlStr q.2 ∧ ∀ tag, toElems tag p.2 = toElems tag q.2

theorem toKids_alike : ∀ (fs : List Field) {vs ws : List (Str × Val)}, List.Forall₂ WrittenAlike vs ws → toKids fs vs = toKids fs ws
  | [], _, _, _ => by rw [toKids, toKids] <;> simp
  | _ :: _, _, _, .nil => rfl
  | f :: fs, _, _, .cons h hr => by rw [toKids, toKids, h.2, toKids_alike fs hr]

theorem attrsOf_alike : ∀ (fs : List Field) {vs ws : List (Str × Val)}, List.Forall₂ WrittenAlike vs ws → attrsOf fs vs = attrsOf fs ws
  | [], _, _, _ => by rw [attrsOf, attrsOf] <;> simp
  | _ :: _, _, _, .nil => rfl
  | f :: fs, _, _, .cons h hr => by rw [attrsOf, attrsOf, h.1, attrsOf_alike fs hr]

theorem textOf_alike : ∀ (fs : List Field) {vs ws : List (Str × Val)}, List.Forall₂ WrittenAlike vs ws → textOf fs vs = textOf fs ws
  | [], _, _, _ => by rw [textOf, textOf] <;> simp
  | _ :: _, _, _, .nil => rfl
  | f :: fs, _, _, .cons h hr => by rw [textOf, textOf, h.1, textOf_alike fs hr]

/-- A combined message is written in the same way whether its messages have their concrete classes or the base classes. -/
theorem toDoc_typed (m : Combined) : toDoc m.typed = toDoc m.parsed := by
  have sub : ∀ (n : Str) (c d : Cls) (bs : List Body), c.fields = d.fields → c.idVersion = d.idVersion →
      WrittenAlike (n, .list (bs.map (.obj c))) (n, .list (bs.map (.obj d))) := fun n c d bs hf hi =>
    ⟨rfl, fun tag => by show toElems tag (.list _) = toElems tag (.list _); rw [toElems, toElems, toList_subclass hf hi]⟩
  have refl : ∀ p, WrittenAlike p p := fun p => ⟨rfl, fun _ => rfl⟩
  have h : List.Forall₂ WrittenAlike
      [(py "message_id", m.messageId), (py "comment", m.comment),
        (py "aem", .list (m.aem.map (.obj .Aem))), (py "apm", .list (m.apm.map (.obj .Apm))),
        (py "cdm", .list (m.cdm.map (.obj .Cdm))), (py "oem", .list (m.oem.map (.obj .Oem))),
        (py "omm", .list (m.omm.map (.obj .Omm))), (py "opm", .list (m.opm.map (.obj .Opm))),
        (py "rdm", .list (m.rdm.map (.obj .Rdm))), (py "tdm", .list (m.tdm.map (.obj .Tdm)))]
      [(py "message_id", m.messageId), (py "comment", m.comment),
        (py "aem", .list (m.aem.map (.obj .AemType))), (py "apm", .list (m.apm.map (.obj .ApmType))),
        (py "cdm", .list (m.cdm.map (.obj .CdmType))), (py "oem", .list (m.oem.map (.obj .OemType))),
        (py "omm", .list (m.omm.map (.obj .OmmType))), (py "opm", .list (m.opm.map (.obj .OpmType))),
        (py "rdm", .list (m.rdm.map (.obj .RdmType))), (py "tdm", .list (m.tdm.map (.obj .TdmType)))] :=
    .cons (refl _) <| .cons (refl _) <| .cons (sub _ _ _ _ rfl rfl) <| .cons (sub _ _ _ _ rfl rfl) <|
    .cons (sub _ _ _ _ rfl rfl) <| .cons (sub _ _ _ _ rfl rfl) <| .cons (sub _ _ _ _ rfl rfl) <|
    .cons (sub _ _ _ _ rfl rfl) <| .cons (sub _ _ _ _ rfl rfl) <| .cons (sub _ _ _ _ rfl rfl) .nil
  unfold Combined.typed Combined.parsed Combined.toObj toDoc
  simp only
  rw [attrsOf_alike _ h, textOf_alike _ h, toKids_alike _ h]

theorem plainList_eq : ∀ xs : List Val, plainList xs = xs.map Val.plain
  | [] => rfl
  | v :: vs => by rw [plainList, plainList_eq vs]; rfl

theorem plain_objs (c : Cls) (bs : List Body) : (bs.map (Val.obj c)).map Val.plain = (bs.map plainVars).map (.obj c) := by
  rw [List.map_map, List.map_map]
  refine List.map_congr_left fun b _ => ?_
  show Val.plain (.obj c b) = _
  rw [Val.plain]
  rfl

theorem plain_toObj (m : Combined) (a b c d e f g h : Cls) : (m.toObj a b c d e f g h).plain = m.plain.toObj a b c d e f g h := by
  simp only [Combined.toObj, Combined.plain, Val.plain, plainVars, plainList_eq, plain_objs]

theorem plain_messages (m : Combined) : m.plain.messages = m.messages.map Val.plain := by
  simp only [Combined.messages, Combined.plain, List.map_append, plain_objs]

/-- **C65** for combined messages.  An `Ndm` object of the data model, whose texts are ones XML can hold, is written as XML; and
reading the text gives its only message, or the object with all its messages; numbers are in plain form, but the same
numbers. -/
theorem C65_ndm (X : XmlChars) (hX : X.Faithful) (m : Combined) (h : HasType (.cls .Ndm) m.parsed)
    (hg : m.parsed.goodTexts = true) (loc noNsLoc : Option Str) (writer reader : XmlSelf) :
    ∃ text, (writer.toString X.lib m.typed loc noNsLoc).1 = .ok text ∧
      (∀ x, m.messages = [x] → (reader.fromString X.lib text).1 = .ok x.plain ∧ ndmFromString X.lib text = .ok x.plain ∧
        SameVal x x.plain) ∧
      (m.messages.length ≠ 1 → (reader.fromString X.lib text).1 = .ok m.typed.plain ∧
        ndmFromString X.lib text = .ok m.typed.plain ∧ SameVal m.typed m.typed.plain) := by
  obtain ⟨l, n, hln⟩ : ∃ l n, (writer.toString X.lib m.typed loc noNsLoc).1 = X.lib.render l n m.typed := ⟨_, _, rfl⟩
  rw [hln]
  have hren : X.lib.render l n m.typed = X.lib.render l n m.parsed := by
    show (toDoc m.typed >>= fun t => X.write l n t) = (toDoc m.parsed >>= fun t => X.write l n t)
    rw [toDoc_typed]
  obtain ⟨text, core, hw, hcore, hd, hr, hp⟩ := lib_round_trip hX (c := .Ndm) List.mem_cons_self h hg l n
  have hp : X.lib.parse text = .ok m.plain.parsed := by
    rw [show m.plain.parsed = m.parsed.plain from (plain_toObj m _ _ _ _ _ _ _ _).symm]
    exact hp
  have htag : ∀ t, X.lib.rootTag text = some t → t ∉ messageTags := by
    intro t ht
    rw [hr] at ht
    have : ∀ t, Cls.Ndm.metaName = some t → t ∉ messageTags := by
      intro t h
      cases h
      decide
    exact this t ht
  obtain ⟨h1, h2⟩ := C14_read X.lib text m.plain hp htag
  have hdis := (C02_dispatch X.lib text core hcore).2 hd
  refine ⟨text, hren.trans hw, fun x hx => ?_, fun hx => ?_⟩
  · have := h1 x.plain (by rw [plain_messages, hx]; rfl)
    exact ⟨this, hdis.trans this, same_plain _⟩
  · have := h2 (by rw [plain_messages, List.length_map]; exact hx)
    rw [show m.plain.typed = m.typed.plain from (plain_toObj m _ _ _ _ _ _ _ _).symm] at this
    exact ⟨this, hdis.trans this, same_plain _⟩

/-! ## A limit -/

/-- **C65 is false** of objects with an empty text between tags: no object read from KVN has one (C38), but a user can make
one, and the XML text does not tell it from `None`. -/
theorem C65_empty_refuted : ∃ o o' : Val, o ≠ o' ∧ o = opmWithUser [mkUser (py "A") (py "")] ∧
    ∀ (X : XmlChars) (loc noNsLoc : Option Str) (writer : XmlSelf),
      (writer.toString X.lib o loc noNsLoc).1 = (writer.toString X.lib o' loc noNsLoc).1 := by
  refine ⟨_, opmWithUser [mkObj .UserDefinedParameterType [(py "parameter", S (py "A"))]], by decide +kernel, rfl, fun X loc noNsLoc writer => ?_⟩
  have h : toDoc (opmWithUser [mkUser (py "A") (py "")]) = toDoc (opmWithUser [mkObj .UserDefinedParameterType [(py "parameter", S (py "A"))]]) := by
    rfl
  show (toDoc _ >>= fun t => X.write _ _ t) = (toDoc _ >>= fun t => X.write _ _ t)
  rw [h]

/-! ## The hypotheses can be met -/

theorem allHaveType_objs {c d : Cls} (hm : d.members = none) (hf : c.fields = d.fields) :
    ∀ {bs : List Body}, (∀ b ∈ bs, HasType (.cls c) (.obj c b)) → AllHaveType (.cls d) (bs.map (.obj d))
  | [], _ => .nil
  | b :: bs, h => by
    refine .cons ?_ (allHaveType_objs hm hf fun b hb => h b (List.mem_cons_of_mem _ hb))
    cases h b List.mem_cons_self with
    | obj _ hfs => exact .obj hm (by unfold Cls.attrs at hfs ⊢; rwa [← hf])

/-- A combined message made of messages of the data model is in the data model. -/
theorem combined_conforms (m : Combined) (hid : m.messageId = .none ∨ ∃ s, m.messageId = .str s)
    (hc : ∃ ts : List Str, m.comment = .list (ts.map .str)) (h : ∀ c b, .obj c b ∈ m.messages → HasType (.cls c) (.obj c b)) :
    HasType (.cls .Ndm) m.parsed := by
  have hstr : ∀ ts : List Str, AllHaveType .str (ts.map .str) := by
    intro ts
    induction ts with
    | nil => exact .nil
    | cons t ts ih => exact .cons (.str t) ih
  refine .obj rfl ?_
  refine .cons (f := ⟨py "message_id", some (py "MESSAGE_ID"), .elem, .str, false, true⟩) ?_ ?_
  · rcases hid with e | ⟨s, e⟩ <;> rw [e]
    · exact .none rfl
    · exact .one rfl (.str s) fun h => nomatch h
  refine .cons (f := ⟨py "comment", some (py "COMMENT"), .elem, .str, true, true⟩) ?_ ?_
  · obtain ⟨ts, e⟩ := hc
    rw [e]
    exact .list rfl (hstr ts)
  refine .cons (.list rfl (allHaveType_objs (c := .Aem) (d := .AemType) rfl rfl fun b hb => h _ _ ?_)) ?_
  · simp [Combined.messages, hb]
  refine .cons (.list rfl (allHaveType_objs (c := .Apm) (d := .ApmType) rfl rfl fun b hb => h _ _ ?_)) ?_
  · simp [Combined.messages, hb]
  refine .cons (.list rfl (allHaveType_objs (c := .Cdm) (d := .CdmType) rfl rfl fun b hb => h _ _ ?_)) ?_
  · simp [Combined.messages, hb]
  refine .cons (.list rfl (allHaveType_objs (c := .Oem) (d := .OemType) rfl rfl fun b hb => h _ _ ?_)) ?_
  · simp [Combined.messages, hb]
  refine .cons (.list rfl (allHaveType_objs (c := .Omm) (d := .OmmType) rfl rfl fun b hb => h _ _ ?_)) ?_
  · simp [Combined.messages, hb]
  refine .cons (.list rfl (allHaveType_objs (c := .Opm) (d := .OpmType) rfl rfl fun b hb => h _ _ ?_)) ?_
  · simp [Combined.messages, hb]
  refine .cons (.list rfl (allHaveType_objs (c := .Rdm) (d := .RdmType) rfl rfl fun b hb => h _ _ ?_)) ?_
  · simp [Combined.messages, hb]
  refine .cons (.list rfl (allHaveType_objs (c := .Tdm) (d := .TdmType) rfl rfl fun b hb => h _ _ ?_)) ?_
  · simp [Combined.messages, hb]
  exact .nil

def Val.vars : Val → List (Str × Val)
  | .obj _ vs => vs
  | _ => []

/-- Two OPMs and an OMM. -/
def threeMessages : Combined := ⟨S (py "id 1"), .list [S (py "hello")], [], [], [], [], [richOmm.vars], [richOpm.vars, (mkOpm []).vars], [], []⟩

example : ∃ X : XmlChars, X.Faithful := faithful_exists

example : WellFormedMessage richOpm ∧ richOpm.goodTexts = true ∧ richOpm.plain = richOpm :=
  ⟨.plain (c := .Opm) (by decide) (wellFormed_of_b (by decide +kernel)), by decide +kernel, by decide +kernel⟩

-- `1E+3` is written and read as `1000`
example : (Val.dec (.fin false 1 3)).plain = .dec (.fin false 1000 0) := by decide +kernel

example : ∃ ls cs o, TextLines opmText ls ∧ SigLines ls cs ∧ (∀ c ∈ cs, goodText c = true) ∧ (KvnSelf.fromString {} opmText).1 = .ok o := by
  obtain ⟨cs, hs⟩ := sigLines_exists (splitChar '\n' opmText)
  have hl : ((splitChar '\n' opmText).all goodText) = true := by decide +kernel
  have key : ∀ {ls cs : List Str}, SigLines ls cs → ls.all goodText = true → ∀ c ∈ cs, goodText c = true := by
    intro ls cs h
    induction h with
    | nil => exact fun _ _ h => nomatch h
    | blank _ _ ih =>
      intro h
      simp only [List.all_cons, Bool.and_eq_true] at h
      exact ih h.2
    | line hc _ _ ih =>
      intro h c' hc'
      simp only [List.all_cons, Bool.and_eq_true] at h
      rcases List.mem_cons.mp hc' with rfl | hc'
      · exact goodText_sub h.1 (core_sub hc)
      · exact ih h.2 _ hc'
  cases ho : (KvnSelf.fromString {} opmText).1 with
  | ok o => exact ⟨_, cs, o, textLines_exists _, hs, key hs hl, rfl⟩
  | error e =>
    rw [kvn_history_independent] at ho
    have : (kvnFromString opmText).toOption.isSome = true := by decide +kernel
    rw [ho] at this
    cases this

example : HasType (.cls .Ndm) threeMessages.parsed ∧ threeMessages.parsed.goodTexts = true := by
  refine ⟨combined_conforms _ (.inr ⟨_, rfl⟩) ⟨[py "hello"], rfl⟩ ?_, by decide +kernel⟩
  have h1 : WellFormedMessage (.obj .Omm richOmm.vars) := .plain (c := .Omm) (by decide) (wellFormed_of_b (by decide +kernel))
  have h2 : WellFormedMessage (.obj .Opm richOpm.vars) := .plain (c := .Opm) (by decide) (wellFormed_of_b (by decide +kernel))
  have h3 : WellFormedMessage (.obj .Opm (mkOpm []).vars) := .plain (c := .Opm) (by decide) (wellFormed_of_b (by decide +kernel))
  intro c b h
  simp only [Combined.messages, threeMessages, List.map_cons, List.map_nil, List.append_nil, List.nil_append, List.mem_append,
    List.mem_cons, List.not_mem_nil, or_false, Val.obj.injEq] at h
  rcases h with ⟨rfl, rfl⟩ | ⟨rfl, rfl⟩ | ⟨rfl, rfl⟩
  · exact (wellFormed_conforms h1).2
  · exact (wellFormed_conforms h2).2
  · exact (wellFormed_conforms h3).2

end Ndm
