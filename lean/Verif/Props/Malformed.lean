import Verif.Lemmas.Malformed
import Verif.Props.Missing
import Verif.Props.Change
import Verif.Lemmas.AemWritable

/-! # C76: values the schema does not allow are refused -/

namespace Ndm

/-- **C76** for XML messages.  What is read has a text where the schema wants a number or one of several values, at any depth,
exactly if the document has such a text or attribute that is none: nothing else is taken for a value, and no value is lost. -/
theorem C76_message_partial (X : XmlChars) (s : XmlSelf) (src : Str) (t : XTree) (o : Val) (hr : X.read src = some t)
    (ht : t.tag ∈ messageTags) (h : (s.fromString X.lib src).1 = .ok o) :
    ∃ c, c.metaName = some t.tag ∧ (Malformed o ↔ MalformedXml (.cls c) t) := by
  obtain ⟨c, -, hm, hb, vs, rfl⟩ := message_read hr ht h
  refine ⟨c, hm, (malformed_read t hb).symm.trans ?_ |>.symm⟩
  exact ⟨fun h => h.elim (fun ⟨_, s, e⟩ => (nomatch e)) id, .inr⟩

theorem malformed_body {c d : Cls} (h : c.attrs = d.attrs) {b : Body} (hi : Malformed (.obj c b)) : Malformed (.obj d b) := by
  cases hi with
  | here h1 h2 h3 h4 => exact .here h1 (by rw [← h]; exact h2) h3 h4
  | inside h1 h2 h3 => exact .inside h1 h2 h3

theorem flat_wellFormed {v x : Val} (h : Flat v) (hx : x ∈ v.items) : ¬ Malformed x := by
  intro hi
  obtain ⟨c, vs, rfl⟩ := malformed_obj hi
  exact h _ hx _ _ rfl

theorem ndm_texts : ∀ k ∈ [Cls.Ndm, Cls.NdmType], ∀ f ∈ k.attrs, f.name ∈ [py "message_id", py "comment"] → f.ty = .str := by decide

/-- A combined message has a malformed value where one of its messages has. -/
theorem malformed_toObj (m : Combined) (h1 : Flat m.messageId) (h2 : Flat m.comment) {a b c d e f g h : Cls}
    (ha : a.attrs = Cls.Aem.attrs) (hb : b.attrs = Cls.Apm.attrs) (hc : c.attrs = Cls.Cdm.attrs) (hd : d.attrs = Cls.Oem.attrs) (he : e.attrs = Cls.Omm.attrs) (hf : f.attrs = Cls.Opm.attrs) (hg : g.attrs = Cls.Rdm.attrs) (hh : h.attrs = Cls.Tdm.attrs) :
    Malformed (m.toObj a b c d e f g h) ↔ ∃ x ∈ m.messages, Malformed x := by
  have key : ∀ {bs : List Body} {x : Val} {c d : Cls}, c.attrs = d.attrs → x ∈ (Val.list (bs.map (.obj c))).items → Malformed x →
      ∃ b, b ∈ bs ∧ Malformed (.obj d b) := by
    intro bs x c d h hx hi
    obtain ⟨b, hb, rfl⟩ := List.mem_map.mp (show x ∈ bs.map (.obj c) from hx)
    exact ⟨b, hb, malformed_body h hi⟩
  have nostr : ∀ {bs : List Body} {s : Str} {c : Cls}, Val.str s ∈ (Val.list (bs.map (Val.obj c))).items → False := by
    intro bs s c hx
    obtain ⟨b, hb, e⟩ := List.mem_map.mp (show Val.str s ∈ bs.map (Val.obj c) from hx)
    cases e
  constructor
  · intro hi
    unfold Combined.toObj at hi
    cases hi with
    | @here _ _ fl v s hv hf hty hs =>
      simp only [List.mem_cons, Prod.mk.injEq, List.not_mem_nil, or_false] at hv
      rcases hv with ⟨e, rfl⟩ | ⟨e, rfl⟩ | ⟨-, rfl⟩ | ⟨-, rfl⟩ | ⟨-, rfl⟩ | ⟨-, rfl⟩ | ⟨-, rfl⟩ | ⟨-, rfl⟩ | ⟨-, rfl⟩ | ⟨-, rfl⟩
      · exact absurd (ndm_texts _ (by decide) fl hf (by rw [e]; decide)) hty
      · exact absurd (ndm_texts _ (by decide) fl hf (by rw [e]; decide)) hty
      all_goals exact (nostr hs).elim
    | @inside _ _ n v x hv hx hi =>
      simp only [List.mem_cons, Prod.mk.injEq, List.not_mem_nil, or_false] at hv
      simp only [Combined.messages, List.mem_append, List.mem_map]
      rcases hv with ⟨-, rfl⟩ | ⟨-, rfl⟩ | ⟨-, rfl⟩ | ⟨-, rfl⟩ | ⟨-, rfl⟩ | ⟨-, rfl⟩ | ⟨-, rfl⟩ | ⟨-, rfl⟩ | ⟨-, rfl⟩ | ⟨-, rfl⟩
      · exact absurd hi (flat_wellFormed h1 hx)
      · exact absurd hi (flat_wellFormed h2 hx)
      · obtain ⟨y, hb, hi⟩ := key ha hx hi
        exact ⟨_, .inl (.inl (.inl (.inl (.inl (.inl (.inl (⟨y, hb, rfl⟩))))))), hi⟩
      · obtain ⟨y, hb, hi⟩ := key hb hx hi
        exact ⟨_, .inl (.inl (.inl (.inl (.inl (.inl (.inr ⟨y, hb, rfl⟩)))))), hi⟩
      · obtain ⟨y, hb, hi⟩ := key hc hx hi
        exact ⟨_, .inl (.inl (.inl (.inl (.inl (.inr ⟨y, hb, rfl⟩))))), hi⟩
      · obtain ⟨y, hb, hi⟩ := key hd hx hi
        exact ⟨_, .inl (.inl (.inl (.inl (.inr ⟨y, hb, rfl⟩)))), hi⟩
      · obtain ⟨y, hb, hi⟩ := key he hx hi
        exact ⟨_, .inl (.inl (.inl (.inr ⟨y, hb, rfl⟩))), hi⟩
      · obtain ⟨y, hb, hi⟩ := key hf hx hi
        exact ⟨_, .inl (.inl (.inr ⟨y, hb, rfl⟩)), hi⟩
      · obtain ⟨y, hb, hi⟩ := key hg hx hi
        exact ⟨_, .inl (.inr ⟨y, hb, rfl⟩), hi⟩
      · obtain ⟨y, hb, hi⟩ := key hh hx hi
        exact ⟨_, .inr ⟨y, hb, rfl⟩, hi⟩
  · rintro ⟨x, hx, hi⟩
    simp only [Combined.messages, List.mem_append, List.mem_map] at hx
    unfold Combined.toObj
    rcases hx with ((((((⟨y, hb', rfl⟩ | ⟨y, hb', rfl⟩) | ⟨y, hb', rfl⟩) | ⟨y, hb', rfl⟩) | ⟨y, hb', rfl⟩) | ⟨y, hb', rfl⟩) | ⟨y, hb', rfl⟩) | ⟨y, hb', rfl⟩
    · exact .inside (n := py "aem") (v := .list (m.aem.map (.obj a))) (by simp) (x := .obj a y) (List.mem_map.mpr ⟨y, hb', rfl⟩) (malformed_body ha.symm hi)
    · exact .inside (n := py "apm") (v := .list (m.apm.map (.obj b))) (by simp) (x := .obj b y) (List.mem_map.mpr ⟨y, hb', rfl⟩) (malformed_body hb.symm hi)
    · exact .inside (n := py "cdm") (v := .list (m.cdm.map (.obj c))) (by simp) (x := .obj c y) (List.mem_map.mpr ⟨y, hb', rfl⟩) (malformed_body hc.symm hi)
    · exact .inside (n := py "oem") (v := .list (m.oem.map (.obj d))) (by simp) (x := .obj d y) (List.mem_map.mpr ⟨y, hb', rfl⟩) (malformed_body hd.symm hi)
    · exact .inside (n := py "omm") (v := .list (m.omm.map (.obj e))) (by simp) (x := .obj e y) (List.mem_map.mpr ⟨y, hb', rfl⟩) (malformed_body he.symm hi)
    · exact .inside (n := py "opm") (v := .list (m.opm.map (.obj f))) (by simp) (x := .obj f y) (List.mem_map.mpr ⟨y, hb', rfl⟩) (malformed_body hf.symm hi)
    · exact .inside (n := py "rdm") (v := .list (m.rdm.map (.obj g))) (by simp) (x := .obj g y) (List.mem_map.mpr ⟨y, hb', rfl⟩) (malformed_body hg.symm hi)
    · exact .inside (n := py "tdm") (v := .list (m.tdm.map (.obj h))) (by simp) (x := .obj h y) (List.mem_map.mpr ⟨y, hb', rfl⟩) (malformed_body hh.symm hi)

/-- **C76** for combined messages. -/
theorem C76_ndm_partial (X : XmlChars) (s : XmlSelf) (src : Str) (t : XTree) (o : Val) (hr : X.read src = some t)
    (ht : t.tag = py "ndm") (h : (s.fromString X.lib src).1 = .ok o) : Malformed o ↔ MalformedXml (.cls .Ndm) t := by
  obtain ⟨m, hb, hm, -⟩ := ndm_read hr ht h
  have hiff : Malformed m.parsed ↔ MalformedXml (.cls .Ndm) t :=
    ⟨fun h => (malformed_read t hb).mp (.inr h), fun h => ((malformed_read t hb).mpr h).elim (fun ⟨_, s, e⟩ => (nomatch e)) id⟩
  rw [← hiff]
  have hty := bindElem_type t hb
  have hfl : Flat m.messageId ∧ Flat m.comment := by
    cases hty with
    | obj _ hf =>
      obtain ⟨v1, vs, e1, hv1, hf⟩ := hasFields_cons hf
      cases e1
      obtain ⟨v2, vs, e2, hv2, hf⟩ := hasFields_cons hf
      cases e2
      exact ⟨fieldOk_flat rfl hv1, fieldOk_flat rfl hv2⟩
  have hpar : Malformed m.parsed ↔ ∃ x ∈ m.messages, Malformed x := malformed_toObj m hfl.1 hfl.2 rfl rfl rfl rfl rfl rfl rfl rfl
  have htyp : Malformed m.typed ↔ ∃ x ∈ m.messages, Malformed x := malformed_toObj m hfl.1 hfl.2 rfl rfl rfl rfl rfl rfl rfl rfl
  rw [hpar]
  rcases hm with hm | ⟨-, rfl⟩
  · rw [hm]
    simp
  · exact htyp

/-- **C76** for KVN.  A text in a number or enumeration field of what is read is not a number or one of the values: what is one
is converted. -/
theorem C76_kvn_partial (s : KvnSelf) (src : Str) (o : Val) (h : (s.fromString src).1 = .ok o) (c : Cls) (vs : List (Str × Val))
    (hw : Within (.obj c vs) o) (f : Field) (hf : f ∈ c.attrs) (v : Val) (hv : (f.name, v) ∈ vs) (hty : f.ty ≠ .str) (t : Str)
    (ht : .str t ∈ v.items) : ¬ LiteralOf f.ty t := by
  rw [kvn_history_independent] at h
  obtain ⟨-, k, -, -, -, hk⟩ := kvnFromString_type h
  obtain ⟨g, hg, e, hok⟩ := hasFields_at ((within_typed hw).1 _ hk) hv
  cases eq_of_name (attrs_nodup c) hg hf e
  exact text_not_literal hok hty ht

/-- **C76 is false** of XML.  Whether a document is read does not depend on its texts and attributes at all: where one document
is read, every document with the same elements is. -/
theorem C76_refuted_xml (X : XmlChars) (s s' : XmlSelf) (src src' : Str) (t t' : XTree) (hr : X.read src = some t)
    (hr' : X.read src' = some t') (ht : t.tag ∈ py "ndm" :: messageTags) (hs : SameElements t t') (o : Val)
    (h : (s.fromString X.lib src).1 = .ok o) : ∃ o', (s'.fromString X.lib src').1 = .ok o' := by
  rcases List.mem_cons.mp ht with ht | ht
  · refine (C68_ndm X s' src' t' hr' (hs.tag_eq.trans ht)).2 fun hF => ?_
    rw [(C68_ndm X s src t hr ht).1 (foreign_same hF (sameElements_symm _ (Nat.lt_succ_self _) hs))] at h
    cases h
  · obtain ⟨c, hc, hm, -, -⟩ := message_class _ ht
    obtain ⟨vs, hv⟩ := (C68_strict X s' src' t' c hr' hc (by rw [hs.tag_eq]; exact hm)).2 fun hF => by
      rw [(C68_strict X s src t c hr hc hm).1 (foreign_same hF (sameElements_symm _ (Nat.lt_succ_self _) hs))] at h
      cases h
    exact ⟨_, hv⟩

/-- **C76 is false** of KVN.  Where a text is read, so is every text with other values and units in its lines (of characters XML
knows).  For AEM and TDM, whose values say what other lines are, see C57. -/
theorem C76_refuted_kvn (s s' : KvnSelf) {t t' : Str} (h : LineByLine (Changed fun _ => True) t t') {c : Cls}
    {vs : List (Str × Val)} (hv : (s.fromString t).1 = .ok (.obj c vs)) (hc : c ≠ .Tdm ∧ c ≠ .Aem) :
    ∃ v', (s'.fromString t').1 = .ok v' := by
  obtain ⟨v', h', -⟩ := C57_changed_values s s' h hv hc.1 (fun e => absurd e hc.2)
  exact ⟨v', h'⟩

/-! ## Cases -/

def Val.isText : Val → Bool
  | .str _ => true
  | _ => false

def badB : Nat → Val → Bool
  | n + 1, .obj c vs => vs.any fun p => (c.attrs.any fun f => f.name == p.1 && decide (f.ty ≠ .str) && p.2.items.any Val.isText) ||
      p.2.items.any (badB n)
  | _, _ => false

theorem badB_malformed : ∀ (n : Nat) (v : Val), badB n v = true → Malformed v
  | 0, _, h => by simp [badB] at h
  | n + 1, .obj c vs, h => by
    rw [badB] at h
    obtain ⟨⟨m, v⟩, hv, h⟩ := List.any_eq_true.mp h
    rcases Bool.or_eq_true_iff.mp h with h | h
    · obtain ⟨f, hf, h⟩ := List.any_eq_true.mp h
      simp only [Bool.and_eq_true, beq_iff_eq, decide_eq_true_eq] at h
      obtain ⟨⟨rfl, h2⟩, h3⟩ := h
      obtain ⟨x, hx, hs⟩ := List.any_eq_true.mp h3
      cases x with
      | str s => exact .here hv hf h2 hx
      | _ => cases hs
    · obtain ⟨x, hx, h⟩ := List.any_eq_true.mp h
      exact .inside hv hx (badB_malformed n x h)
  | _ + 1, .none, h => nomatch h
  | _ + 1, .str _, h => nomatch h
  | _ + 1, .int _, h => nomatch h
  | _ + 1, .dec _, h => nomatch h
  | _ + 1, .enum _ _, h => nomatch h
  | _ + 1, .list _, h => nomatch h

def cleanB : Nat → Val → Bool
  | n + 1, .obj c vs => vs.all fun p => (c.attrs.all fun f => !(f.name == p.1) || decide (f.ty = .str) || p.2.items.all fun x => !x.isText) &&
      p.2.items.all (cleanB n)
  | _, .obj _ _ => false
  | _, _ => true

theorem cleanB_wellFormed : ∀ (n : Nat) (v : Val), cleanB n v = true → ¬ Malformed v := by
  intro n
  induction n with
  | zero =>
    intro v h hm
    obtain ⟨c, vs, rfl⟩ := malformed_obj hm
    cases h
  | succ n ih =>
    intro v h hm
    cases hm with
    | here hv hf hty hs =>
      rw [cleanB] at h
      have h := (Bool.and_eq_true_iff.mp (List.all_eq_true.mp h _ hv)).1
      have h := List.all_eq_true.mp h _ hf
      simp only [beq_self_eq_true, Bool.not_true, Bool.false_or, Bool.or_eq_true, decide_eq_true_eq] at h
      rcases h with h | h
      · exact hty h
      · have := List.all_eq_true.mp h _ hs
        cases this
    | inside hv hx hi =>
      rw [cleanB] at h
      have h := (Bool.and_eq_true_iff.mp (List.all_eq_true.mp h _ hv)).2
      exact ih _ (List.all_eq_true.mp h _ hx) hi

/-- `<opm><header><CREATION_DATE/></header><body><segment><data><stateVector><X units="furlong">far</X></stateVector>…`: neither the
number nor the unit is one. -/
def farDoc (units x : Str) : XTree := .node (py "opm") [(py "id", py "CCSDS_OPM_VERS")] [] [.node (py "header") [] [] [.node (py "ORIGINATOR") [] (py "A") []],
  .node (py "body") [] [] [.node (py "segment") [] [] [.node (py "data") [] [] [.node (py "stateVector") [] [] [
    .node (py "X") [(py "units", units)] x []]]]]]

-- C76_refuted_xml, C76_message_partial: the documents have the same elements; the one with values that are none is read, and as such
example : ∃ o, (XmlSelf.fromString (oneDoc (farDoc (py "furlong") (py "far"))).lib {} []).1 = .ok o ∧ Malformed o := by
  obtain ⟨o, h1, h2⟩ := ok_of_check (x := (XmlSelf.fromString (oneDoc (farDoc (py "furlong") (py "far"))).lib {} []).1)
    (fun o : Val => badB 8 o = true) (by decide +kernel)
  exact ⟨o, h1, badB_malformed 8 o h2⟩

example : ∃ o, (XmlSelf.fromString (oneDoc (farDoc (py "km") (py "1e3"))).lib {} []).1 = .ok o ∧ ¬ Malformed o := by
  obtain ⟨o, h1, h2⟩ := ok_of_check (x := (XmlSelf.fromString (oneDoc (farDoc (py "km") (py "1e3"))).lib {} []).1)
    (fun o : Val => cleanB 8 o = true) (by decide +kernel)
  exact ⟨o, h1, cleanB_wellFormed 8 o h2⟩

example : SameElements (farDoc (py "km") (py "1e3")) (farDoc (py "furlong") (py "far")) :=
  .node (.cons (.node (.cons (.node .nil) .nil)) (.cons (.node (.cons (.node (.cons (.node (.cons (.node (.cons (.node .nil) .nil)) .nil)) .nil)) .nil)) .nil))

-- C76_ndm_partial: two messages, of which one has a malformed value
example : ∃ o, (XmlSelf.fromString (oneDoc (.node (py "ndm") [] [] [richDoc, farDoc (py "km") (py "far")])).lib {} []).1 = .ok o ∧ Malformed o := by
  obtain ⟨o, h1, h2⟩ := ok_of_check (x := (XmlSelf.fromString (oneDoc (.node (py "ndm") [] [] [richDoc, farDoc (py "km") (py "far")])).lib {} []).1)
    (fun o : Val => badB 9 o = true) (by decide +kernel)
  exact ⟨o, h1, badB_malformed 9 o h2⟩

/-- An OPM with this for the coordinate X. -/
def opmFar (x : Str) : Str := (py "CCSDS_OPM_VERS = 2.0
" ++ headText ++ py "OBJECT_NAME = A
OBJECT_ID = B
CENTER_NAME = EARTH
REF_FRAME = GCRF
TIME_SYSTEM = UTC
EPOCH = 2000-01-01
X = " ++ x ++ py "
Y = 2 [km]
Z = 3 [km]
X_DOT = 4 [km/s]
Y_DOT = 5 [km/s]
Z_DOT = 6 [km/s]
")

-- C76_refuted_kvn, C76_kvn_partial
example : LineByLine (Changed fun _ => True) (opmFar (py "1 [km]")) (opmFar (py "far [furlong]")) :=
  (changed_of_parsed (k := py "X") (by decide +kernel)).mono fun _ _ h => by
    cases h with
    | same => exact .same _
    | value _ h1 h2 => exact .value trivial h1 h2

example : ∃ o, (KvnSelf.fromString {} (opmFar (py "far [furlong]"))).1 = .ok o ∧ Malformed o := by
  obtain ⟨o, h1, h2⟩ := ok_of_check (x := (KvnSelf.fromString {} (opmFar (py "far [furlong]"))).1) (fun o : Val => badB 8 o = true) (by decide +kernel)
  exact ⟨o, h1, badB_malformed 8 o h2⟩

example : (∃ vs, (KvnSelf.fromString {} (opmFar (py "1 [km]"))).1 = .ok (.obj .Opm vs)) ∧
    ∃ o, (KvnSelf.fromString {} (opmFar (py "1 [km]"))).1 = .ok o ∧ ¬ Malformed o := by
  refine ⟨readCls_obj (by decide +kernel), ?_⟩
  obtain ⟨o, h1, h2⟩ := ok_of_check (x := (KvnSelf.fromString {} (opmFar (py "1 [km]"))).1) (fun o : Val => cleanB 8 o = true) (by decide +kernel)
  exact ⟨o, h1, cleanB_wellFormed 8 o h2⟩

end Ndm
