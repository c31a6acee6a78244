import Verif.Lemmas.XmlRead
import Verif.Props.XmlRoundTrip

/-! # C66 to C69: what is read from XML, and what is written -/

namespace Ndm

/-! ## C66 -/

/-- Reading an XML text is binding its document. -/
theorem xml_parse {X : XmlChars} {src : Str} {t : XTree} (hr : X.read src = some t) : X.lib.parse src = bindRoot t := by
  show (match X.read src with | none => _ | some t => bindRoot t) = _
  rw [hr]

theorem xml_rootTag {X : XmlChars} {src : Str} {t : XTree} (hr : X.read src = some t) : X.lib.rootTag src = some t.tag := by
  show (X.read src).map XTree.tag = _
  rw [hr]
  rfl

theorem message_class : ∀ t ∈ messageTags, ∃ c ∈ xmlTypes, c.metaName = some t ∧ c ≠ .Ndm ∧ c.members = none := by decide

/-- What is read from the document of a message. -/
theorem message_read {X : XmlChars} {src : Str} {t : XTree} {o : Val} (hr : X.read src = some t) (ht : t.tag ∈ messageTags)
    (h : xmlFromString X.lib src = .ok o) : ∃ c ∈ xmlTypes, c.metaName = some t.tag ∧ bindElem (.cls c) t = .ok o ∧ ∃ vs, o = .obj c vs := by
  obtain ⟨c, hc, hm, hn, hmem⟩ := message_class _ ht
  have hroot := bindRoot_eq (List.mem_cons_of_mem _ hc) hm
  have hpar := xml_parse hr
  obtain ⟨v, hv, -⟩ := bind_ok_iff.mp h
  rw [hpar, hroot] at hv
  have hty := bindElem_type t hv
  cases hty with
  | @obj _ vs _ hf =>
    have := C14_plain X.lib src t.tag c vs (by rw [hpar, hroot]; exact hv) hn (xml_rootTag hr) ht
    rw [h] at this
    cases this
    exact ⟨c, hc, hm, hv, vs, rfl⟩
  | enum _ h' => rw [hmem] at h'; cases h'
  | enumText _ h' => rw [hmem] at h'; cases h'

/-- **C66** for messages.  What is read from a document whose root is one of the eight message tags is a message of that kind
that conforms to the data model. -/
theorem C66_message_partial (X : XmlChars) (s : XmlSelf) (src : Str) (t : XTree) (o : Val) (hr : X.read src = some t)
    (ht : t.tag ∈ messageTags) (h : (s.fromString X.lib src).1 = .ok o) :
    ∃ c ∈ xmlTypes, c.metaName = some t.tag ∧ HasType (.cls c) o := by
  obtain ⟨c, hc, hm, hb, -⟩ := message_read hr ht h
  exact ⟨c, hc, hm, bindElem_type t hb⟩

theorem hasFields_cons {f : Field} {fs : List Field} {vs : List (Str × Val)} (h : HasFields (f :: fs) vs) :
    ∃ v ws, vs = (f.name, v) :: ws ∧ FieldOk f v ∧ HasFields fs ws := by
  cases h with
  | cons hv hr => exact ⟨_, _, rfl, hv, hr⟩

theorem fieldOk_list {f : Field} {v : Val} (hl : f.isList = true) (h : FieldOk f v) : ∃ xs, v = .list xs ∧ AllHaveType f.ty xs := by
  cases h with
  | list _ hx => exact ⟨_, rfl, hx⟩
  | none h => rw [hl] at h; cases h
  | one h => rw [hl] at h; cases h

theorem allHaveType_bodies {c d : Cls} (hm : c.members = none) (hd : d.members = none) (hf : c.fields = d.fields) :
    ∀ {xs : List Val}, AllHaveType (.cls c) xs →
    ∃ bs : List Body, xs = bs.map (.obj c) ∧ ∀ b ∈ bs, HasType (.cls d) (.obj d b)
  | _, .nil => ⟨[], rfl, fun _ h => nomatch h⟩
  | _, .cons hv hr => by
    obtain ⟨bs, rfl, hb⟩ := allHaveType_bodies hm hd hf hr
    cases hv with
    | @obj _ vs _ hfs =>
      refine ⟨vs :: bs, rfl, fun b h => ?_⟩
      rcases List.mem_cons.mp h with rfl | h
      · exact .obj hd (by unfold Cls.attrs at hfs ⊢; rwa [← hf])
      · exact hb b h
    | enum _ h' => rw [hm] at h'; cases h'
    | enumText _ h' => rw [hm] at h'; cases h'

theorem list_field {f : Field} {fs : List Field} {vs : List (Str × Val)} (hl : f.isList = true) (h : HasFields (f :: fs) vs) :
    ∃ xs ws, vs = (f.name, .list xs) :: ws ∧ AllHaveType f.ty xs ∧ HasFields fs ws := by
  obtain ⟨v, ws, rfl, hv, hr⟩ := hasFields_cons h
  obtain ⟨xs, rfl, hx⟩ := fieldOk_list hl hv
  exact ⟨xs, ws, rfl, hx, hr⟩

/-- An `Ndm` object that conforms to the data model is a combined message, and its messages conform. -/
theorem ndm_combined {v : Val} (h : HasType (.cls .Ndm) v) :
    ∃ m : Combined, v = m.parsed ∧ ∀ x ∈ m.messages, ∃ c ∈ xmlTypes, HasType (.cls c) x := by
  cases h with
  | @obj _ vs _ hf =>
    obtain ⟨mid, vs, rfl, -, hf⟩ := hasFields_cons hf
    obtain ⟨com, vs, rfl, -, hf⟩ := hasFields_cons hf
    obtain ⟨x1, vs, rfl, h1, hf⟩ := list_field rfl hf
    obtain ⟨x2, vs, rfl, h2, hf⟩ := list_field rfl hf
    obtain ⟨x3, vs, rfl, h3, hf⟩ := list_field rfl hf
    obtain ⟨x4, vs, rfl, h4, hf⟩ := list_field rfl hf
    obtain ⟨x5, vs, rfl, h5, hf⟩ := list_field rfl hf
    obtain ⟨x6, vs, rfl, h6, hf⟩ := list_field rfl hf
    obtain ⟨x7, vs, rfl, h7, hf⟩ := list_field rfl hf
    obtain ⟨x8, vs, rfl, h8, hf⟩ := list_field rfl hf
    cases hf
    obtain ⟨b1, rfl, g1⟩ := allHaveType_bodies (c := .AemType) (d := .Aem) rfl rfl rfl h1
    obtain ⟨b2, rfl, g2⟩ := allHaveType_bodies (c := .ApmType) (d := .Apm) rfl rfl rfl h2
    obtain ⟨b3, rfl, g3⟩ := allHaveType_bodies (c := .CdmType) (d := .Cdm) rfl rfl rfl h3
    obtain ⟨b4, rfl, g4⟩ := allHaveType_bodies (c := .OemType) (d := .Oem) rfl rfl rfl h4
    obtain ⟨b5, rfl, g5⟩ := allHaveType_bodies (c := .OmmType) (d := .Omm) rfl rfl rfl h5
    obtain ⟨b6, rfl, g6⟩ := allHaveType_bodies (c := .OpmType) (d := .Opm) rfl rfl rfl h6
    obtain ⟨b7, rfl, g7⟩ := allHaveType_bodies (c := .RdmType) (d := .Rdm) rfl rfl rfl h7
    obtain ⟨b8, rfl, g8⟩ := allHaveType_bodies (c := .TdmType) (d := .Tdm) rfl rfl rfl h8
    refine ⟨⟨mid, com, b1, b2, b3, b4, b5, b6, b7, b8⟩, rfl, ?_⟩
    intro x hx
    simp only [Combined.messages, List.mem_append, List.mem_map] at hx
    rcases hx with ((((((⟨b, hb, rfl⟩ | ⟨b, hb, rfl⟩) | ⟨b, hb, rfl⟩) | ⟨b, hb, rfl⟩) | ⟨b, hb, rfl⟩) | ⟨b, hb, rfl⟩) | ⟨b, hb, rfl⟩) | ⟨b, hb, rfl⟩
    · exact ⟨_, by decide, g1 b hb⟩
    · exact ⟨_, by decide, g2 b hb⟩
    · exact ⟨_, by decide, g3 b hb⟩
    · exact ⟨_, by decide, g4 b hb⟩
    · exact ⟨_, by decide, g5 b hb⟩
    · exact ⟨_, by decide, g6 b hb⟩
    · exact ⟨_, by decide, g7 b hb⟩
    · exact ⟨_, by decide, g8 b hb⟩
  | enum _ h' => cases h'
  | enumText _ h' => cases h'

/-- What is read from the document of a combined message. -/
theorem ndm_read {X : XmlChars} {src : Str} {t : XTree} {o : Val} (hr : X.read src = some t) (ht : t.tag = py "ndm")
    (h : xmlFromString X.lib src = .ok o) : ∃ m : Combined, bindElem (.cls .Ndm) t = .ok m.parsed ∧
      (m.messages = [o] ∨ (m.messages.length ≠ 1 ∧ o = m.typed)) ∧ ∀ x ∈ m.messages, ∃ c ∈ xmlTypes, HasType (.cls c) x := by
  have hroot := bindRoot_eq (c := .Ndm) List.mem_cons_self (t := t) (by rw [ht]; rfl)
  have hpar := xml_parse hr
  obtain ⟨v, hv, -⟩ := bind_ok_iff.mp h
  rw [hpar, hroot] at hv
  obtain ⟨m, rfl, hx⟩ := ndm_combined (bindElem_type t hv)
  refine ⟨m, hv, ?_, hx⟩
  obtain ⟨h1, h2⟩ := C14_read X.lib src m (by rw [hpar, hroot]; exact hv) (by
    intro t' ht'
    rw [xml_rootTag hr, ht] at ht'
    cases ht'
    decide)
  by_cases hl : m.messages.length = 1
  · obtain ⟨x, hx⟩ := List.length_eq_one_iff.mp hl
    have := h1 x hx
    rw [h] at this
    cases this
    exact .inl hx
  · have := h2 hl
    rw [h] at this
    cases this
    exact .inr ⟨hl, rfl⟩

/-- **C66** for combined messages.  What is read from a document whose root is `ndm` is a message, or a combined message all of
whose messages conform to the data model. -/
theorem C66_ndm_partial (X : XmlChars) (s : XmlSelf) (src : Str) (t : XTree) (o : Val) (hr : X.read src = some t)
    (ht : t.tag = py "ndm") (h : (s.fromString X.lib src).1 = .ok o) :
    (∃ c ∈ xmlTypes, HasType (.cls c) o) ∨
    ∃ m : Combined, o = m.typed ∧ m.messages.length ≠ 1 ∧ ∀ x ∈ m.messages, ∃ c ∈ xmlTypes, HasType (.cls c) x := by
  obtain ⟨m, -, hm | ⟨hl, rfl⟩, hx⟩ := ndm_read hr ht h
  · exact .inl (hx o (by rw [hm]; exact List.mem_cons_self))
  · exact .inr ⟨m, rfl, hl, hx⟩

/-- **C66 is false** of other documents: a part of a message is read without an exception, as an object that is not a message (and
not even the part). -/
theorem C66_refuted (X : XmlChars) (hX : X.Faithful) (writer reader : XmlSelf) :
    ∃ text, (writer.toString X.lib (mkObj .UserDefinedType [(py "user_defined", .list [mkUser (py "A") (py "1")])]) none none).1 = .ok text ∧
      (reader.fromString X.lib text).1 = .ok (mkUser (py "A") (py "1")) ∧ ndmFromString X.lib text = .ok (mkUser (py "A") (py "1")) ∧
      ∀ c ∈ .Ndm :: xmlTypes, ¬ HasType (.cls c) (mkUser (py "A") (py "1")) := by
  obtain ⟨l, n, hln⟩ : ∃ l n, (writer.toString X.lib (mkObj .UserDefinedType [(py "user_defined", .list [mkUser (py "A") (py "1")])]) none none).1
    = X.lib.render l n (mkObj .UserDefinedType [(py "user_defined", .list [mkUser (py "A") (py "1")])]) := ⟨_, _, rfl⟩
  rw [hln]
  have hu : HasType (.cls .UserDefinedParameterType) (mkUser (py "A") (py "1")) :=
    .obj rfl (.cons (.one rfl (.str _) fun _ => by decide) (.cons (.one rfl (.str _) fun h => nomatch h) .nil))
  have ht : HasType (.cls .UserDefinedType) (mkObj .UserDefinedType [(py "user_defined", .list [mkUser (py "A") (py "1")])]) :=
    .obj rfl (.cons (.list rfl .nil) (.cons (.list rfl (.cons hu .nil)) .nil))
  obtain ⟨text, core, hw, hcore, hd, hr, hp⟩ := lib_reads hX (c := .UserDefinedType) (by decide +kernel) ht (by decide +kernel) l n
  have hread : xmlFromString X.lib text = .ok (mkUser (py "A") (py "1")) := by
    unfold xmlFromString
    rw [identifyXmlType, hr, hp]
    decide +kernel
  refine ⟨text, hw, hread, ((C02_dispatch X.lib text core hcore).2 hd).trans hread, ?_⟩
  intro c hc h
  have : ∀ c ∈ .Ndm :: xmlTypes, c ≠ .UserDefinedParameterType := by decide
  generalize hv : mkUser (py "A") (py "1") = v at h
  cases h with
  | obj =>
    cases hv
    exact this _ hc rfl
  | enum => cases hv
  | enumText => cases hv

/-! ## C67 -/

/-- What is written again for the document of a message. -/
theorem toDoc_kept {t : XTree} {c : Cls} {vs : List (Str × Val)} (hm : c.metaName = some t.tag)
    (hb : bindElem (.cls c) t = .ok (.obj c vs)) : ∃ t', toDoc (.obj c vs) = .ok t' ∧ KeptXml (.cls c) t t' := by
  obtain ⟨t', h1, h2⟩ := bindElem_kept t hb
  refine ⟨t', ?_, h2⟩
  rw [toElems] at h1
  rw [toDoc, hm, Option.getD_some]
  exact congrArg Except.ok (List.cons.inj h1).1

theorem toString_doc {X : XmlChars} {o : Val} {t : XTree} (h : toDoc o = .ok t) (writer : XmlSelf) (loc noNsLoc : Option Str) :
    ∃ l n, (writer.toString X.lib o loc noNsLoc).1 = X.write l n t := by
  obtain ⟨l, n, e⟩ : ∃ l n, (writer.toString X.lib o loc noNsLoc).1 = X.lib.render l n o := ⟨_, _, rfl⟩
  refine ⟨l, n, e.trans ?_⟩
  show (toDoc _ >>= fun t => X.write _ _ t) = _
  rw [h]
  rfl

/-- **C67** for messages.  If a document whose root is one of the eight message tags is read, then the document written for what was
read has all its elements, with their texts and the attributes the data model has for them. -/
theorem C67_message_partial (X : XmlChars) (s : XmlSelf) (src : Str) (t : XTree) (o : Val) (hr : X.read src = some t)
    (ht : t.tag ∈ messageTags) (h : (s.fromString X.lib src).1 = .ok o) :
    ∃ c t', c.metaName = some t.tag ∧ KeptXml (.cls c) t t' ∧
      ∀ (writer : XmlSelf) (loc noNsLoc : Option Str), ∃ l n, (writer.toString X.lib o loc noNsLoc).1 = X.write l n t' := by
  obtain ⟨c, -, hm, hb, vs, rfl⟩ := message_read hr ht h
  obtain ⟨t', h1, h2⟩ := toDoc_kept hm hb
  exact ⟨c, t', hm, h2, toString_doc h1⟩

/-- **C67** for combined messages that are read as combined messages. -/
theorem C67_ndm_partial (X : XmlChars) (s : XmlSelf) (src : Str) (t : XTree) (vs : List (Str × Val)) (hr : X.read src = some t)
    (ht : t.tag = py "ndm") (h : (s.fromString X.lib src).1 = .ok (.obj .Ndm vs)) :
    ∃ t', KeptXml (.cls .Ndm) t t' ∧
      ∀ (writer : XmlSelf) (loc noNsLoc : Option Str), ∃ l n, (writer.toString X.lib (.obj .Ndm vs) loc noNsLoc).1 = X.write l n t' := by
  obtain ⟨m, hb, hm | ⟨-, hm⟩, hx⟩ := ndm_read hr ht h
  · obtain ⟨c, hc, hty⟩ := hx (.obj .Ndm vs) (by rw [hm]; exact List.mem_cons_self)
    cases hty
    exact absurd hc (by decide)
  · obtain ⟨t', h1, h2⟩ := toDoc_kept (c := .Ndm) (by rw [ht]; rfl) hb
    refine ⟨t', h2, toString_doc ?_⟩
    rw [hm, toDoc_typed]
    exact h1

theorem bindKids_subclass {c d : Cls} (hf : c.fields = d.fields) : ∀ (ts : List XTree) (seen : List Str),
    bindKids c seen ts = bindKids d seen ts
  | [], _ => by rw [bindKids, bindKids]
  | t :: ts, seen => by
    have h : c.findElem t.tag = d.findElem t.tag := by unfold Cls.findElem Cls.elemFields; rw [hf]
    rw [bindKids, bindKids, h]
    cases d.findElem t.tag with
    | none => rfl
    | some f => simp only [bindKids_subclass hf ts]

theorem bindElem_subclass {c d : Cls} (hc : c.members = none) (hd : d.members = none) (hf : c.fields = d.fields) {t : XTree}
    {vs : List (Str × Val)} (h : bindElem (.cls c) t = .ok (.obj c vs)) : bindElem (.cls d) t = .ok (.obj d vs) := by
  cases t with
  | node tag attrs text kids =>
    rw [bindElem, show (FTy.cls c).object? = some c by simp [FTy.object?, hc]] at h
    rw [bindElem, show (FTy.cls d).object? = some d by simp [FTy.object?, hd]]
    obtain ⟨bs, hb, h⟩ := bind_ok_iff.mp h
    refine bind_ok_iff.mpr ⟨bs, by rw [← bindKids_subclass hf]; exact hb, ?_⟩
    cases h
    rw [hf]
    rfl

theorem single_slot {kids : List XTree} {bs : List (Str × Val)} (hkb : List.Forall₂ (KidBound .Ndm) kids bs) {t : Str} {c d : Cls}
    {b : Body} (ht : t ∈ messageTags) (hc : c.members = none) (hd : d.members = none) (hf : c.fields = d.fields)
    (hm : d.metaName = some t) (hty : (Cls.Ndm.findElem t).map (·.ty) = some (.cls c))
    (hone : (bs.filter (·.1 == t)).map (·.2) = [.obj c b])
    (hno : ∀ t' ∈ messageTags, t' ≠ t → (bs.filter (·.1 == t')).map (·.2) = []) (X : XmlChars) :
    ∃ k ∈ kids, k.tag ∈ messageTags ∧ (kids.filter fun k => messageTags.contains k.tag) = [k] ∧
    ∃ c t', c.metaName = some k.tag ∧ KeptXml (.cls c) k t' ∧
      ∀ (writer : XmlSelf) (loc noNsLoc : Option Str), ∃ l n, (writer.toString X.lib (.obj d b) loc noNsLoc).1 = X.write l n t' := by
  have hfil := fun t => forall₂_filter_tag (fun k b h => h.1) hkb t
  have hsame : (kids.filter fun k => messageTags.contains k.tag) = kids.filter (·.tag == t) := by
    refine List.filter_congr fun k hk => ?_
    by_cases e : k.tag = t
    · simp [e, ht]
    · have : messageTags.contains k.tag = false := by
        rw [Bool.eq_false_iff]
        intro hin
        have hl := (hfil k.tag).length_eq
        have h0 : bs.filter (·.1 == k.tag) = [] := by simpa using hno k.tag (by simpa using hin) e
        rw [h0] at hl
        have : k ∈ kids.filter (·.tag == k.tag) := List.mem_filter.mpr ⟨hk, by simp⟩
        rw [List.length_eq_zero_iff.mp hl] at this
        cases this
      rw [this]
      simpa using e
  cases hx : bs.filter (·.1 == t) with
  | nil => rw [hx] at hone; cases hone
  | cons p r =>
    rw [hx] at hone
    obtain ⟨hp, hr⟩ := List.cons.inj hone
    have hr : r = [] := by simpa using hr
    subst hr
    have h1 := hfil t
    rw [hx] at h1
    cases hy : kids.filter (·.tag == t) with
    | nil => rw [hy] at h1; cases h1
    | cons k ks =>
      rw [hy] at h1
      cases h1 with
      | cons hk hks =>
        cases hks
        have hkm : k ∈ kids.filter (·.tag == t) := by rw [hy]; exact List.mem_cons_self
        obtain ⟨hkm, hkt⟩ := List.mem_filter.mp hkm
        have hkt : k.tag = t := by simpa using hkt
        obtain ⟨-, f, hfe, hbe⟩ := hk
        rw [hkt] at hfe
        rw [hfe] at hty
        have hty : f.ty = .cls c := by simpa using hty
        have hp : p.2 = .obj c b := hp
        rw [hty, hp] at hbe
        obtain ⟨t', h1, h2⟩ := toDoc_kept (by rw [hkt]; exact hm) (bindElem_subclass hc hd hf hbe)
        exact ⟨k, hkm, by rw [hkt]; exact ht, by rw [hsame, hy], d, t', by rw [hkt]; exact hm, h2, toString_doc h1⟩

/-- **C67** for combined messages that hold one message: this message is kept. -/
theorem C67_single_partial (X : XmlChars) (s : XmlSelf) (src : Str) (t : XTree) (o : Val) (hr : X.read src = some t)
    (ht : t.tag = py "ndm") (h : (s.fromString X.lib src).1 = .ok o) (ho : ∀ vs, o ≠ .obj .Ndm vs) :
    ∃ k ∈ t.kids, k.tag ∈ messageTags ∧ (t.kids.filter fun k => messageTags.contains k.tag) = [k] ∧
    ∃ c t', c.metaName = some k.tag ∧ KeptXml (.cls c) k t' ∧
      ∀ (writer : XmlSelf) (loc noNsLoc : Option Str), ∃ l n, (writer.toString X.lib o loc noNsLoc).1 = X.write l n t' := by
  obtain ⟨m, hb, hm | ⟨-, rfl⟩, -⟩ := ndm_read hr ht h
  · cases t with
    | node tag attrs text kids =>
      rcases bindElem_cases hb with ⟨h', -, -⟩ | ⟨c, bs, hc, -, hk, hv⟩
      · cases h'
      · cases hc
        have hkb := (bindKids_inv hk).1
        have hv' := (Val.obj.inj hv).2
        obtain ⟨-, hv'⟩ := List.cons.inj hv'
        obtain ⟨-, hv'⟩ := List.cons.inj hv'
        obtain ⟨e1, hv'⟩ := List.cons.inj hv'
        obtain ⟨e2, hv'⟩ := List.cons.inj hv'
        obtain ⟨e3, hv'⟩ := List.cons.inj hv'
        obtain ⟨e4, hv'⟩ := List.cons.inj hv'
        obtain ⟨e5, hv'⟩ := List.cons.inj hv'
        obtain ⟨e6, hv'⟩ := List.cons.inj hv'
        obtain ⟨e7, hv'⟩ := List.cons.inj hv'
        obtain ⟨e8, -⟩ := List.cons.inj hv'
        have f1 : m.aem.map (.obj .AemType) = (bs.filter (·.1 == py "aem")).map (·.2) := Val.list.inj (Prod.mk.inj e1).2
        have f2 : m.apm.map (.obj .ApmType) = (bs.filter (·.1 == py "apm")).map (·.2) := Val.list.inj (Prod.mk.inj e2).2
        have f3 : m.cdm.map (.obj .CdmType) = (bs.filter (·.1 == py "cdm")).map (·.2) := Val.list.inj (Prod.mk.inj e3).2
        have f4 : m.oem.map (.obj .OemType) = (bs.filter (·.1 == py "oem")).map (·.2) := Val.list.inj (Prod.mk.inj e4).2
        have f5 : m.omm.map (.obj .OmmType) = (bs.filter (·.1 == py "omm")).map (·.2) := Val.list.inj (Prod.mk.inj e5).2
        have f6 : m.opm.map (.obj .OpmType) = (bs.filter (·.1 == py "opm")).map (·.2) := Val.list.inj (Prod.mk.inj e6).2
        have f7 : m.rdm.map (.obj .RdmType) = (bs.filter (·.1 == py "rdm")).map (·.2) := Val.list.inj (Prod.mk.inj e7).2
        have f8 : m.tdm.map (.obj .TdmType) = (bs.filter (·.1 == py "tdm")).map (·.2) := Val.list.inj (Prod.mk.inj e8).2
        have z1 : m.aem = [] → (bs.filter (·.1 == py "aem")).map (·.2) = [] := fun h => by rw [← f1, h]; rfl
        have z2 : m.apm = [] → (bs.filter (·.1 == py "apm")).map (·.2) = [] := fun h => by rw [← f2, h]; rfl
        have z3 : m.cdm = [] → (bs.filter (·.1 == py "cdm")).map (·.2) = [] := fun h => by rw [← f3, h]; rfl
        have z4 : m.oem = [] → (bs.filter (·.1 == py "oem")).map (·.2) = [] := fun h => by rw [← f4, h]; rfl
        have z5 : m.omm = [] → (bs.filter (·.1 == py "omm")).map (·.2) = [] := fun h => by rw [← f5, h]; rfl
        have z6 : m.opm = [] → (bs.filter (·.1 == py "opm")).map (·.2) = [] := fun h => by rw [← f6, h]; rfl
        have z7 : m.rdm = [] → (bs.filter (·.1 == py "rdm")).map (·.2) = [] := fun h => by rw [← f7, h]; rfl
        have z8 : m.tdm = [] → (bs.filter (·.1 == py "tdm")).map (·.2) = [] := fun h => by rw [← f8, h]; rfl
        have tags : ∀ t' ∈ messageTags, t' = py "aem" ∨ t' = py "apm" ∨ t' = py "cdm" ∨ t' = py "oem" ∨ t' = py "omm" ∨ t' = py "opm" ∨
            t' = py "rdm" ∨ t' = py "tdm" := by decide
        have one : ∀ {c : Cls} {bs : List Body}, bs.map (Val.obj c) = [o] → ∃ b, bs = [b] ∧ o = .obj c b := by
          intro c bs h
          obtain ⟨b, rfl, rfl⟩ := List.map_eq_singleton_iff.mp h
          exact ⟨b, rfl, rfl⟩
        simp only [Combined.messages, List.append_eq_singleton_iff, List.append_eq_nil_iff, List.map_eq_nil_iff] at hm
        rcases hm with ⟨⟨⟨⟨⟨⟨⟨n1, n2⟩, n3⟩, n4⟩, n5⟩, n6⟩, n7⟩, e⟩ | ⟨hm, n8⟩
        · obtain ⟨b, hb, rfl⟩ := one e
          exact single_slot hkb (t := py "tdm") (c := .TdmType) (d := .Tdm) (by decide) rfl rfl rfl rfl (by decide +kernel)
            (by rw [← f8, hb]; rfl) (fun t' h hne => by
              rcases tags t' h with rfl | rfl | rfl | rfl | rfl | rfl | rfl | rfl
              · exact z1 n1
              · exact z2 n2
              · exact z3 n3
              · exact z4 n4
              · exact z5 n5
              · exact z6 n6
              · exact z7 n7
              · exact absurd rfl hne) X
        rcases hm with ⟨⟨⟨⟨⟨⟨n1, n2⟩, n3⟩, n4⟩, n5⟩, n6⟩, e⟩ | ⟨hm, n7⟩
        · obtain ⟨b, hb, rfl⟩ := one e
          exact single_slot hkb (t := py "rdm") (c := .RdmType) (d := .Rdm) (by decide) rfl rfl rfl rfl (by decide +kernel)
            (by rw [← f7, hb]; rfl) (fun t' h hne => by
              rcases tags t' h with rfl | rfl | rfl | rfl | rfl | rfl | rfl | rfl
              · exact z1 n1
              · exact z2 n2
              · exact z3 n3
              · exact z4 n4
              · exact z5 n5
              · exact z6 n6
              · exact absurd rfl hne
              · exact z8 n8) X
        rcases hm with ⟨⟨⟨⟨⟨n1, n2⟩, n3⟩, n4⟩, n5⟩, e⟩ | ⟨hm, n6⟩
        · obtain ⟨b, hb, rfl⟩ := one e
          exact single_slot hkb (t := py "opm") (c := .OpmType) (d := .Opm) (by decide) rfl rfl rfl rfl (by decide +kernel)
            (by rw [← f6, hb]; rfl) (fun t' h hne => by
              rcases tags t' h with rfl | rfl | rfl | rfl | rfl | rfl | rfl | rfl
              · exact z1 n1
              · exact z2 n2
              · exact z3 n3
              · exact z4 n4
              · exact z5 n5
              · exact absurd rfl hne
              · exact z7 n7
              · exact z8 n8) X
        rcases hm with ⟨⟨⟨⟨n1, n2⟩, n3⟩, n4⟩, e⟩ | ⟨hm, n5⟩
        · obtain ⟨b, hb, rfl⟩ := one e
          exact single_slot hkb (t := py "omm") (c := .OmmType) (d := .Omm) (by decide) rfl rfl rfl rfl (by decide +kernel)
            (by rw [← f5, hb]; rfl) (fun t' h hne => by
              rcases tags t' h with rfl | rfl | rfl | rfl | rfl | rfl | rfl | rfl
              · exact z1 n1
              · exact z2 n2
              · exact z3 n3
              · exact z4 n4
              · exact absurd rfl hne
              · exact z6 n6
              · exact z7 n7
              · exact z8 n8) X
        rcases hm with ⟨⟨⟨n1, n2⟩, n3⟩, e⟩ | ⟨hm, n4⟩
        · obtain ⟨b, hb, rfl⟩ := one e
          exact single_slot hkb (t := py "oem") (c := .OemType) (d := .Oem) (by decide) rfl rfl rfl rfl (by decide +kernel)
            (by rw [← f4, hb]; rfl) (fun t' h hne => by
              rcases tags t' h with rfl | rfl | rfl | rfl | rfl | rfl | rfl | rfl
              · exact z1 n1
              · exact z2 n2
              · exact z3 n3
              · exact absurd rfl hne
              · exact z5 n5
              · exact z6 n6
              · exact z7 n7
              · exact z8 n8) X
        rcases hm with ⟨⟨n1, n2⟩, e⟩ | ⟨hm, n3⟩
        · obtain ⟨b, hb, rfl⟩ := one e
          exact single_slot hkb (t := py "cdm") (c := .CdmType) (d := .Cdm) (by decide) rfl rfl rfl rfl (by decide +kernel)
            (by rw [← f3, hb]; rfl) (fun t' h hne => by
              rcases tags t' h with rfl | rfl | rfl | rfl | rfl | rfl | rfl | rfl
              · exact z1 n1
              · exact z2 n2
              · exact absurd rfl hne
              · exact z4 n4
              · exact z5 n5
              · exact z6 n6
              · exact z7 n7
              · exact z8 n8) X
        rcases hm with ⟨n1, e⟩ | ⟨hm, n2⟩
        · obtain ⟨b, hb, rfl⟩ := one e
          exact single_slot hkb (t := py "apm") (c := .ApmType) (d := .Apm) (by decide) rfl rfl rfl rfl (by decide +kernel)
            (by rw [← f2, hb]; rfl) (fun t' h hne => by
              rcases tags t' h with rfl | rfl | rfl | rfl | rfl | rfl | rfl | rfl
              · exact z1 n1
              · exact absurd rfl hne
              · exact z3 n3
              · exact z4 n4
              · exact z5 n5
              · exact z6 n6
              · exact z7 n7
              · exact z8 n8) X
        obtain ⟨b, hb, rfl⟩ := one hm
        exact single_slot hkb (t := py "aem") (c := .AemType) (d := .Aem) (by decide) rfl rfl rfl rfl (by decide +kernel)
          (by rw [← f1, hb]; rfl) (fun t' h hne => by
            rcases tags t' h with rfl | rfl | rfl | rfl | rfl | rfl | rfl | rfl
            · exact absurd rfl hne
            · exact z2 n2
            · exact z3 n3
            · exact z4 n4
            · exact z5 n5
            · exact z6 n6
            · exact z7 n7
            · exact z8 n8) X
  · exact absurd rfl (ho _)

/-- **C67 is false**, in three ways.  The identifier and the comments around a single message are lost; attributes the data model does
not have are lost; and so is text between elements. -/
theorem C67_refuted (X : XmlChars) (s : XmlSelf) :
    let opm := XTree.node (py "opm") [] [] []
    let read (t : XTree) (src : Str) := X.read src = some t
    (∀ a b, read (.node (py "ndm") [] [] [.node (py "MESSAGE_ID") [] (py "7") [], .node (py "COMMENT") [] (py "secret") [], opm]) a →
      read (.node (py "ndm") [] [] [opm]) b → ∃ o, (s.fromString X.lib a).1 = .ok o ∧ (s.fromString X.lib b).1 = .ok o) ∧
    (∀ a b, read (.node (py "opm") [(py "classification", py "secret")] [] []) a → read opm b →
      ∃ o, (s.fromString X.lib a).1 = .ok o ∧ (s.fromString X.lib b).1 = .ok o) ∧
    (∀ a b, read (.node (py "opm") [] (py "some text") []) a → read opm b →
      ∃ o, (s.fromString X.lib a).1 = .ok o ∧ (s.fromString X.lib b).1 = .ok o) := by
  have key : ∀ t src, X.read src = some t → (s.fromString X.lib src).1 =
      (do
        let ndm ← bindRoot t
        let ndm ← downcastNdm ndm
        if xmlTypes.any (fun c => c.metaName == some t.tag) then return ndm else stripMultiNdm ndm) := by
    intro t src hr
    show xmlFromString X.lib src = _
    unfold xmlFromString identifyXmlType
    rw [xml_rootTag hr, xml_parse hr]
    simp only
    cases hf : xmlTypes.find? (fun c => c.metaName == some t.tag) with
    | none =>
      have : xmlTypes.any (fun c => c.metaName == some t.tag) = false := by
        rw [List.any_eq_false]
        exact fun c hc => List.find?_eq_none.mp hf c hc
      rw [this]
      rfl
    | some c =>
      have : xmlTypes.any (fun c => c.metaName == some t.tag) = true :=
        List.any_eq_true.mpr ⟨c, List.mem_of_find?_eq_some hf, by simpa using List.find?_some hf⟩
      rw [this]
      rfl
  refine ⟨fun a b ha hb => ?_, fun a b ha hb => ?_, fun a b ha hb => ?_⟩ <;> rw [key _ _ ha, key _ _ hb] <;>
    exact ⟨(Cls.Opm).default, by decide +kernel, by decide +kernel⟩

/-! ## C68 -/

/-- **C68.** An XML text whose root is one of the eight message tags is read if and only if its document holds, at any depth, no
element the data model does not have there; otherwise a `ParserError` is raised. -/
theorem C68_strict (X : XmlChars) (s : XmlSelf) (src : Str) (t : XTree) (c : Cls) (hr : X.read src = some t) (hc : c ∈ xmlTypes)
    (ht : c.metaName = some t.tag) :
    (ForeignXml (.cls c) t → (s.fromString X.lib src).1 = .error .parserError) ∧
    (¬ ForeignXml (.cls c) t → ∃ vs, (s.fromString X.lib src).1 = .ok (.obj c vs)) := by
  have hroot := bindRoot_eq (List.mem_cons_of_mem _ hc) ht
  have hpar := xml_parse hr
  have hx : ∀ c ∈ xmlTypes, ∀ t, c.metaName = some t → t ∈ messageTags ∧ c ≠ .Ndm ∧ c.members = none := by
    intro c hc t ht
    have : ∀ c ∈ xmlTypes, (∃ t ∈ messageTags, c.metaName = some t) ∧ c ≠ .Ndm ∧ c.members = none := by decide
    obtain ⟨⟨t', h1, h2⟩, h3⟩ := this c hc
    rw [ht] at h2
    cases h2
    exact ⟨h1, h3⟩
  obtain ⟨htag, hn, hm⟩ := hx c hc _ ht
  constructor
  · intro hF
    show xmlFromString X.lib src = _
    unfold xmlFromString
    rw [hpar, hroot]
    cases hb : bindElem (.cls c) t with
    | ok v => exact absurd hb (foreign_refused hF v)
    | error e => rw [bindElem_error t hb]; rfl
  · intro hF
    obtain ⟨v, hv⟩ := bindElem_total t hF
    have hty := bindElem_type t hv
    cases hty with
    | @obj _ vs _ _ =>
      exact ⟨vs, C14_plain X.lib src t.tag c vs (by rw [hpar, hroot]; exact hv) hn (xml_rootTag hr) htag⟩
    | enum _ h' => rw [hm] at h'; cases h'
    | enumText _ h' => rw [hm] at h'; cases h'

/-- **C68** for combined messages. -/
theorem C68_ndm (X : XmlChars) (s : XmlSelf) (src : Str) (t : XTree) (hr : X.read src = some t) (ht : t.tag = py "ndm") :
    (ForeignXml (.cls .Ndm) t → (s.fromString X.lib src).1 = .error .parserError) ∧
    (¬ ForeignXml (.cls .Ndm) t → ∃ o, (s.fromString X.lib src).1 = .ok o) := by
  have hroot := bindRoot_eq (c := .Ndm) List.mem_cons_self (t := t) (by rw [ht]; rfl)
  have hpar := xml_parse hr
  constructor
  · intro hF
    show xmlFromString X.lib src = _
    unfold xmlFromString
    rw [hpar, hroot]
    cases hb : bindElem (.cls .Ndm) t with
    | ok v => exact absurd hb (foreign_refused hF v)
    | error e => rw [bindElem_error t hb]; rfl
  · intro hF
    obtain ⟨v, hv⟩ := bindElem_total t hF
    obtain ⟨m, rfl, -⟩ := ndm_combined (bindElem_type t hv)
    obtain ⟨h1, h2⟩ := C14_read X.lib src m (by rw [hpar, hroot]; exact hv) (by
      intro t' ht'
      rw [xml_rootTag hr, ht] at ht'
      cases ht'
      decide)
    by_cases hl : m.messages.length = 1
    · obtain ⟨x, hx⟩ := List.length_eq_one_iff.mp hl
      exact ⟨x, h1 x hx⟩
    · exact ⟨_, h2 hl⟩

/-! ## C69 -/

theorem named_same {tag id version : Str} {t t' : XTree} (h : Named tag id version t) (hs : SameDoc t t') : Named tag id version t' := by
  cases hs with
  | @node tg attrs more text text' kids kids' _ _ _ =>
    obtain ⟨h1, h2, h3⟩ := h
    have key : ∀ n s, XTree.attr n (.node tg attrs text kids) = some s → XTree.attr n (.node tg (attrs ++ more) text' kids') = some s := by
      intro n s hn
      simp only [XTree.attr] at hn ⊢
      rw [List.find?_append]
      cases hf : attrs.find? (·.1 == n) with
      | none => rw [hf] at hn; cases hn
      | some a => rw [hf] at hn; exact hn
    exact ⟨h1, key _ _ h2, key _ _ h3⟩

theorem kinds_idVersion : ∀ p ∈ xmlKinds, p.1.idVersion = some (p.2.2.1, p.2.2.2) ∧ p.1.metaName = some p.2.1 ∧ p.1 ∈ xmlTypes := by decide

theorem attr_id {tag id version text : Str} {c : Cls} (h : c.idVersion = some (id, version)) (attrs : List (Str × Str)) (kids : List XTree) :
    Named tag id version (.node tag (fixedAttrs c ++ attrs) text kids) := by
  unfold fixedAttrs
  rw [h]
  exact ⟨rfl, rfl, rfl⟩

/-- **C69.** An object of one of the eight kinds, whatever it holds, is written as a document whose root has the tag, the
identifier and the version of this kind; and if its document is one XML can hold then the text that is written, read as XML, has
them too. -/
theorem C69_named (X : XmlChars) (c : Cls) (tag id version : Str) (hk : (c, tag, id, version) ∈ xmlKinds) (vs : List (Str × Val))
    (writer : XmlSelf) (loc noNsLoc : Option Str) :
    ∃ t l n, Named tag id version t ∧ (writer.toString X.lib (.obj c vs) loc noNsLoc).1 = X.write l n t ∧
      (X.Faithful → t.good = true → ∃ text t', (writer.toString X.lib (.obj c vs) loc noNsLoc).1 = .ok text ∧ X.read text = some t' ∧
        Named tag id version t') := by
  obtain ⟨h1, h2, -⟩ := kinds_idVersion _ hk
  have h1 : c.idVersion = some (id, version) := h1
  have h2 : c.metaName = some tag := h2
  have hd : toDoc (.obj c vs) = .ok (.node tag (fixedAttrs c ++ attrsOf (c.fields.filter (·.init)) vs)
      (textOf (c.fields.filter (·.init)) vs) (toKids (c.fields.filter (·.init)) vs)) := by
    rw [toDoc, h2]
    rfl
  obtain ⟨l, n, e⟩ := toString_doc (X := X) hd writer loc noNsLoc
  refine ⟨_, l, n, attr_id h1 _ _, e, fun hX hg => ?_⟩
  obtain ⟨text, hw, -, t', hr, hs⟩ := hX l n _ hg
  exact ⟨text, t', e.trans hw, hr, named_same (attr_id h1 _ _) hs⟩

theorem toList_objs {tag id version : Str} {c : Cls} (hk : (c, tag, id, version) ∈ xmlKinds) :
    ∀ bs : List Body, List.Forall₂ WrittenFor (bs.map (.obj c)) (toList tag (bs.map (.obj c)))
  | [] => .nil
  | b :: bs => by
    rw [List.map_cons, toList, toElems]
    exact .cons ⟨c, b, tag, id, version, rfl, hk, attr_id (kinds_idVersion _ hk).1 _ _⟩ (toList_objs hk bs)

theorem filter_tags {tag : Str} (h : messageTags.contains tag = false) (v : Val) :
    ((toElems tag v).filter fun k => messageTags.contains k.tag) = [] := by
  rw [List.filter_eq_nil_iff]
  intro k hk
  rw [toElems_tag v k hk, h]
  simp

theorem filter_objs {tag id version : Str} {c : Cls} (hk : (c, tag, id, version) ∈ xmlKinds) (bs : List Body) :
    List.Forall₂ WrittenFor (bs.map (.obj c)) ((toElems tag (.list (bs.map (.obj c)))).filter fun k => messageTags.contains k.tag) := by
  rw [List.filter_eq_self.mpr]
  · rw [toElems]
    exact toList_objs hk bs
  · intro k h
    rw [toElems_tag _ k h]
    have : ∀ p ∈ xmlKinds, messageTags.contains p.2.1 = true := by decide
    exact this _ hk

theorem forall₂_append {α β : Type} {R : α → β → Prop} : ∀ {a c : List α} {b d : List β}, List.Forall₂ R a b → List.Forall₂ R c d →
    List.Forall₂ R (a ++ c) (b ++ d)
  | _, _, _, _, .nil, h => h
  | _, _, _, _, .cons h hr, h' => .cons h (forall₂_append hr h')

/-- **C69** for combined messages: the elements with the tag of a message are those of the messages, in their order, and each has
the tag, the identifier and the version of its kind. -/
theorem C69_ndm (X : XmlChars) (m : Combined) (writer : XmlSelf) (loc noNsLoc : Option Str) :
    ∃ t l n, t.tag = py "ndm" ∧ (writer.toString X.lib m.typed loc noNsLoc).1 = X.write l n t ∧
      List.Forall₂ WrittenFor m.messages (t.kids.filter fun k => messageTags.contains k.tag) := by
  have hd : toDoc m.typed = .ok (.node (py "ndm") [] [] (toElems (py "MESSAGE_ID") m.messageId ++ (toElems (py "COMMENT") m.comment ++
      (toElems (py "aem") (.list (m.aem.map (.obj .Aem))) ++
      (toElems (py "apm") (.list (m.apm.map (.obj .Apm))) ++
      (toElems (py "cdm") (.list (m.cdm.map (.obj .Cdm))) ++
      (toElems (py "oem") (.list (m.oem.map (.obj .Oem))) ++
      (toElems (py "omm") (.list (m.omm.map (.obj .Omm))) ++
      (toElems (py "opm") (.list (m.opm.map (.obj .Opm))) ++
      (toElems (py "rdm") (.list (m.rdm.map (.obj .Rdm))) ++
      (toElems (py "tdm") (.list (m.tdm.map (.obj .Tdm))) ++
      []))))))))))) := by
    rfl
  obtain ⟨l, n, e⟩ := toString_doc (X := X) hd writer loc noNsLoc
  refine ⟨_, l, n, rfl, e, ?_⟩
  simp only [XTree.kids, List.filter_append, filter_tags (tag := py "MESSAGE_ID") (by decide), filter_tags (tag := py "COMMENT") (by decide),
    List.nil_append, List.filter_nil, List.append_nil]
  unfold Combined.messages
  simp only [List.append_assoc]
  refine forall₂_append (filter_objs (id := py "CCSDS_AEM_VERS") (version := py "1.0") (by decide) m.aem) ?_
  refine forall₂_append (filter_objs (id := py "CCSDS_APM_VERS") (version := py "1.0") (by decide) m.apm) ?_
  refine forall₂_append (filter_objs (id := py "CCSDS_CDM_VERS") (version := py "1.0") (by decide) m.cdm) ?_
  refine forall₂_append (filter_objs (id := py "CCSDS_OEM_VERS") (version := py "2.0") (by decide) m.oem) ?_
  refine forall₂_append (filter_objs (id := py "CCSDS_OMM_VERS") (version := py "2.0") (by decide) m.omm) ?_
  refine forall₂_append (filter_objs (id := py "CCSDS_OPM_VERS") (version := py "2.0") (by decide) m.opm) ?_
  refine forall₂_append (filter_objs (id := py "CCSDS_RDM_VERS") (version := py "1.0") (by decide) m.rdm) ?_
  exact filter_objs (id := py "CCSDS_TDM_VERS") (version := py "2.0") (by decide) m.tdm

/-! ## The hypotheses can be met -/

/-- A library that reads every text as the given document. -/
def oneDoc (t : XTree) : XmlChars := ⟨fun _ _ _ => .ok [], fun _ => some t, fun _ => none⟩

/-- The document of an OPM with comments, a covariance matrix, manoeuvres and user defined parameters. -/
def richDoc : XTree := match toDoc richOpm with
  | .ok t => t
  | .error _ => .node [] [] [] []

/-- `<ndm><MESSAGE_ID>7</MESSAGE_ID><opm/><omm/><opm/></ndm>`, with the OPM above. -/
def richNdm : XTree := .node (py "ndm") [] []
  [.node (py "MESSAGE_ID") [] (py "7") [], richDoc, .node (py "omm") [] [] [], richDoc]

-- C66, C67, C68: a document that is read
example : richDoc.tag ∈ messageTags ∧ (oneDoc richDoc).read [] = some richDoc ∧ 2 ≤ richDoc.kids.length ∧
    (XmlSelf.fromString (oneDoc richDoc).lib {} []).1 = .ok richOpm := ⟨by decide +kernel, rfl, by decide +kernel, by decide +kernel⟩

-- and one of a combined message
example : richNdm.tag = py "ndm" ∧ (oneDoc richNdm).read [] = some richNdm ∧
    (XmlSelf.fromString (oneDoc richNdm).lib {} []).1 = .ok (Combined.mk (S (py "7")) (.list []) [] [] [] [] [(Cls.default .Omm).vars]
      [richOpm.vars, richOpm.vars] [] []).typed := ⟨rfl, rfl, by decide +kernel⟩

-- a combined message with one message
example : ∃ o, (XmlSelf.fromString (oneDoc (.node (py "ndm") [] [] [.node (py "COMMENT") [] (py "c") [], richDoc])).lib {} []).1 = .ok o ∧
    ∀ vs, o ≠ .obj .Ndm vs := ⟨richOpm, by decide +kernel, fun vs h => nomatch (Val.obj.inj h).1⟩

-- C68: foreign elements, near and deep
example : ForeignXml (.cls .Opm) (.node (py "opm") [] [] [.node (py "header") [] [] [], .node (py "footer") [] [] []]) :=
  .unknown (c := .Opm) rfl (List.mem_cons_of_mem _ List.mem_cons_self) (by decide +kernel)

example : ForeignXml (.cls .Opm) (.node (py "opm") [] [] [.node (py "header") [] [] [.node (py "ORIGINATOR") [] (py "A") [],
    .node (py "ORIGINATOR") [] (py "B") []]]) :=
  .deeper (c := .Opm) (f := ⟨py "header", none, .elem, .cls .NdmHeader, false, true⟩) rfl (by decide +kernel) rfl List.mem_cons_self rfl
    (.twice (c := .NdmHeader) (f := ⟨py "originator", some (py "ORIGINATOR"), .elem, .str, false, true⟩) rfl (by decide +kernel) rfl rfl
      (by decide +kernel))

example : ¬ ForeignXml (.cls .Opm) richDoc := by
  intro h
  have : ∃ v, bindElem (.cls .Opm) richDoc = .ok v := ⟨richOpm, by decide +kernel⟩
  exact absurd this.choose_spec (foreign_refused h _)

-- C69: a document XML can hold
example : richDoc.good = true ∧ Named (py "opm") (py "CCSDS_OPM_VERS") (py "2.0") richDoc :=
  ⟨by decide +kernel, rfl, by decide +kernel, by decide +kernel⟩

end Ndm
