import Verif.Lemmas.XmlFrom
import Verif.Props.Missing
import Verif.SpecWithin

/-! # C82: XML documents are read as what they say -/

namespace Ndm

/-- **C82** for messages.  A document with one of the eight message tags is read as `o` if and only if it holds nothing foreign and
says `o`: every field, at any depth, has the attribute, the text or the children with its name, and nothing else. -/
theorem C82_message (X : XmlChars) (s : XmlSelf) (src : Str) (t : XTree) (c : Cls) (o : Val) (hr : X.read src = some t)
    (hc : c ∈ xmlTypes) (ht : c.metaName = some t.tag) :
    (s.fromString X.lib src).1 = .ok o ↔ ¬ ForeignXml (.cls c) t ∧ XmlSays (.cls c) t o := by
  obtain ⟨h1, h2⟩ := C68_strict X s src t c hr hc ht
  have key : ∀ o, (s.fromString X.lib src).1 = .ok o → XmlSays (.cls c) t o := by
    intro o h
    have htag : t.tag ∈ messageTags := by
      have : ∀ c ∈ xmlTypes, ∃ t ∈ messageTags, c.metaName = some t := by decide
      obtain ⟨u, hu, e⟩ := this c hc
      rw [ht] at e
      cases e
      exact hu
    obtain ⟨d, hd, hm, hb, -⟩ := message_read hr htag h
    have : c = d := by
      have : ∀ c ∈ xmlTypes, ∀ d ∈ xmlTypes, c.metaName = d.metaName → c = d := by decide
      exact this c hc d hd (ht.trans hm.symm)
    subst this
    exact bindElem_says t hb
  constructor
  · intro h
    exact ⟨fun hF => (by rw [h1 hF] at h; cases h), key o h⟩
  · rintro ⟨hF, hs⟩
    obtain ⟨vs, h⟩ := h2 hF
    rw [h, xmlSays_unique hs (key _ h)]

theorem parsed_injective {m m' : Combined} (h : m.parsed = m'.parsed) : m = m' := by
  have inj : ∀ {c : Cls} {a b : List Body}, a.map (Val.obj c) = b.map (Val.obj c) → a = b := fun {c a b} e =>
    List.map_injective_iff.mpr (fun x y e => by cases e; rfl) e
  cases m
  cases m'
  simp only [Combined.parsed, Combined.toObj, Val.obj.injEq, List.cons.injEq, Prod.mk.injEq, true_and, and_true, Val.list.injEq] at h
  obtain ⟨h1, h2, h3, h4, h5, h6, h7, h8, h9, h10⟩ := h
  rw [h1, h2, inj h3, inj h4, inj h5, inj h6, inj h7, inj h8, inj h9, inj h10]

/-- **C82** for combined messages.  A document with the tag `ndm` is read as `o` if and only if it holds nothing foreign, and `o` is
the one message the document says there is, or the combined message it says if there is not exactly one. -/
theorem C82_ndm (X : XmlChars) (s : XmlSelf) (src : Str) (t : XTree) (o : Val) (hr : X.read src = some t) (ht : t.tag = py "ndm") :
    (s.fromString X.lib src).1 = .ok o ↔ ¬ ForeignXml (.cls .Ndm) t ∧
      ∃ m : Combined, XmlSays (.cls .Ndm) t m.parsed ∧ (m.messages = [o] ∨ (m.messages.length ≠ 1 ∧ o = m.typed)) := by
  obtain ⟨h1, h2⟩ := C68_ndm X s src t hr ht
  constructor
  · intro h
    obtain ⟨m, hb, hm, -⟩ := ndm_read hr ht h
    exact ⟨fun hF => (by rw [h1 hF] at h; cases h), m, bindElem_says t hb, hm⟩
  · rintro ⟨hF, m, hs, hm⟩
    obtain ⟨o', h⟩ := h2 hF
    obtain ⟨m', hb, hm', -⟩ := ndm_read hr ht h
    have := parsed_injective (xmlSays_unique hs (bindElem_says t hb))
    subst this
    rw [h]
    congr 1
    rcases hm with hm | ⟨hl, rfl⟩ <;> rcases hm' with hm' | ⟨hl', rfl⟩
    · rw [hm] at hm'; cases hm'; rfl
    · rw [hm] at hl'; simp at hl'
    · rw [hm'] at hl; simp at hl
    · rfl

/-- A document says one thing: two values it says are the same. -/
theorem C82_unique (ty : FTy) (t : XTree) (v w : Val) (h : XmlSays ty t v) (h' : XmlSays ty t w) : v = w := xmlSays_unique h h'

/-- **C82** for what is no message.  A text that is not XML, or whose root is neither a message nor a part of one, is refused. -/
theorem C82_refused (X : XmlChars) (s : XmlSelf) (src : Str)
    (h : ∀ t, X.read src = some t → ∀ c : Cls, c.members = none → c.metaName ≠ some t.tag) :
    (s.fromString X.lib src).1 = .error .parserError := by
  have hp : X.lib.parse src = .error .parserError := by
    show (match X.read src with | none => _ | some t => bindRoot t) = _
    cases hr : X.read src with
    | none => rfl
    | some t =>
      show bindRoot t = _
      unfold bindRoot
      rw [List.find?_eq_none.mpr]
      intro c _ hc
      simp only [Bool.and_eq_true, Option.isNone_iff_eq_none, beq_iff_eq] at hc
      exact h t hr c hc.1 hc.2
  show xmlFromString X.lib src = _
  unfold xmlFromString
  rw [hp]
  rfl

theorem nonZero_member {vs : List (Str × Val)} {ls : List (Str × List Val)} (h : nonZeroSlots vs = .ok ls) {n : Str} {x : Val}
    (hx : (n, [x]) ∈ ls) : ∃ m v, (m, v) ∈ vs ∧ Within x v := by
  unfold nonZeroSlots at h
  obtain ⟨rs, hrs, e⟩ := bind_ok_iff.mp h
  cases e
  have hx := (List.mem_filter.mp hx).1
  obtain ⟨p, hp, hpx⟩ := mapM_mem hrs _ hx
  obtain ⟨m, v⟩ := p
  refine ⟨m, v, (List.mem_filter.mp hp).1, ?_⟩
  cases v with
  | list xs => cases hpx; exact .item (List.mem_singleton.mpr rfl) .self
  | str s =>
    dsimp only at hpx
    cases s with
    | nil => cases hpx
    | cons a as =>
      cases as with
      | nil => cases hpx; exact .self
      | cons b bs => cases hpx
  | _ => cases hpx

/-- **C82** for other documents (a part of a message: C66 shows that some are read).  What is read is what the document says, as an
object of the class its root names, or a value somewhere in it. -/
theorem C82_part (X : XmlChars) (s : XmlSelf) (src : Str) (t : XTree) (o : Val) (hr : X.read src = some t)
    (ht : t.tag ≠ py "ndm") (h : (s.fromString X.lib src).1 = .ok o) :
    ∃ c v, c.metaName = some t.tag ∧ ¬ ForeignXml (.cls c) t ∧ XmlSays (.cls c) t v ∧ Within o v := by
  have h : xmlFromString X.lib src = .ok o := h
  unfold xmlFromString at h
  generalize identifyXmlType X.lib src = q at h
  obtain ⟨_, combi⟩ := q
  obtain ⟨v, hv, h⟩ := bind_ok_iff.mp h
  rw [xml_parse hr] at hv
  unfold bindRoot at hv
  cases hf : Cls.all.find? fun c => c.members.isNone && c.metaName == some t.tag with
  | none => rw [hf] at hv; cases hv
  | some c =>
    rw [hf] at hv
    have hc := List.find?_some hf
    simp only [Bool.and_eq_true, Option.isNone_iff_eq_none, beq_iff_eq] at hc
    refine ⟨c, v, hc.2, fun hF => foreign_refused hF v hv, bindElem_says t hv, ?_⟩
    obtain ⟨vs, rfl⟩ : ∃ vs, v = .obj c vs := by
      cases bindElem_says t hv with
      | simple ho => simp [FTy.object?, hc.1] at ho
      | object => exact ⟨_, rfl⟩
    have hn : c ≠ .Ndm := by
      rintro rfl
      exact ht (Option.some.inj (hc.2.symm.trans rfl))
    obtain ⟨w, hw, h⟩ := bind_ok_iff.mp h
    have hw : w = .obj c vs := by
      unfold downcastNdm at hw
      split at hw
      · next e => cases e; exact absurd rfl hn
      · cases hw; rfl
    subst hw
    cases combi
    · cases h; exact .self
    · rw [if_pos rfl] at h
      unfold stripMultiNdm at h
      obtain ⟨ls, hls, h⟩ := bind_ok_iff.mp h
      split at h
      · next n x =>
        cases h
        obtain ⟨m, v, hm, hwi⟩ := nonZero_member hls (n := n) (x := o) (List.mem_singleton.mpr rfl)
        exact .field hm hwi
      · cases h; exact .self

theorem nonZero_ok {vs : List (Str × Val)} : (∃ ls, nonZeroSlots vs = .ok ls) ↔
    ∀ n v, (n, v) ∈ vs → n ≠ py "message_id" → n ≠ py "comment" → (∃ xs, v = .list xs) ∨ ∃ s, v = .str s := by
  have key : ∀ (f : Str × Val → Except PyErr (Str × List Val)) (l : List (Str × Val)), (∃ r, l.mapM f = .ok r) ↔ ∀ p ∈ l, ∃ y, f p = .ok y := by
    intro f l
    induction l with
    | nil => exact ⟨fun _ p hp => (by cases hp), fun _ => ⟨[], rfl⟩⟩
    | cons a l ih =>
      rw [List.mapM_cons]
      constructor
      · rintro ⟨r, h⟩
        obtain ⟨y, hy, h⟩ := bind_ok_iff.mp h
        obtain ⟨ys, hys, -⟩ := bind_ok_iff.mp h
        intro p hp
        rcases List.mem_cons.mp hp with rfl | hp
        · exact ⟨y, hy⟩
        · exact ih.mp ⟨ys, hys⟩ p hp
      · intro h
        obtain ⟨y, hy⟩ := h a List.mem_cons_self
        obtain ⟨ys, hys⟩ := ih.mpr fun p hp => h p (List.mem_cons_of_mem _ hp)
        exact ⟨y :: ys, by rw [hy, hys]; rfl⟩
  unfold nonZeroSlots
  constructor
  · rintro ⟨ls, h⟩ n v hv h1 h2
    obtain ⟨r, hr, -⟩ := bind_ok_iff.mp h
    obtain ⟨y, hy⟩ := (key _ _).mp ⟨r, hr⟩ (n, v) (List.mem_filter.mpr ⟨hv, by simp [h1, h2]⟩)
    cases v with
    | list xs => exact .inl ⟨xs, rfl⟩
    | str s => exact .inr ⟨s, rfl⟩
    | _ => cases hy
  · intro h
    obtain ⟨r, hr⟩ := (key (fun p => match p.2 with
      | .list xs => Except.ok (p.1, xs)
      | .str s => Except.ok (p.1, s.map fun c => .str [c])
      | _ => .error .typeError) (vs.filter fun p => p.1 != py "message_id" && p.1 != py "comment")).mpr (by
        rintro ⟨n, v⟩ hp
        obtain ⟨hp, hn⟩ := List.mem_filter.mp hp
        simp only [Bool.and_eq_true, bne_iff_ne, ne_eq] at hn
        rcases h n v hp hn.1 hn.2 with ⟨xs, rfl⟩ | ⟨s, rfl⟩
        · exact ⟨_, rfl⟩
        · exact ⟨_, rfl⟩)
    exact ⟨_, bind_ok_iff.mpr ⟨r, hr, rfl⟩⟩

/-- **C82** for other documents: which of them are read.  Those that hold nothing foreign and in which every field of the root, other than
the comments and the identifier of a message, is a list or a text. -/
theorem C82_part_read (X : XmlChars) (s : XmlSelf) (src : Str) (t : XTree) (c : Cls) (hr : X.read src = some t)
    (ht : t.tag ≠ py "ndm") (htag : t.tag ∉ messageTags) (hm : c.members = none) (hc : c.metaName = some t.tag) :
    (∃ o, (s.fromString X.lib src).1 = .ok o) ↔ ¬ ForeignXml (.cls c) t ∧ ∃ vs, XmlSays (.cls c) t (.obj c vs) ∧
      ∀ n v, (n, v) ∈ vs → n ≠ py "message_id" → n ≠ py "comment" → (∃ xs, v = .list xs) ∨ ∃ s, v = .str s := by
  have hroot : bindRoot t = bindElem (.cls c) t := by
    unfold bindRoot
    have hu : (Cls.all.all fun c => c.members.isSome || (Cls.all.find? fun d => d.members.isNone && d.metaName == c.metaName) == some c) = true := by
      decide +kernel
    have := all_classes hu c
    rw [hm, hc] at this
    simp only [Option.isSome_none, Bool.false_or, beq_iff_eq] at this
    rw [this]
  have hn : c ≠ .Ndm := by
    rintro rfl
    exact ht (Option.some.inj (hc.symm.trans rfl))
  have hid : identifyXmlType X.lib src = (.Ndm, true) := by
    unfold identifyXmlType
    rw [xml_rootTag hr]
    dsimp only
    rw [List.find?_eq_none.mpr]
    intro d hd hdt
    have : ∀ c ∈ xmlTypes, ∃ t ∈ messageTags, c.metaName = some t := by decide
    obtain ⟨u, hu, e⟩ := this d hd
    rw [e] at hdt
    have : u = t.tag := by simpa using hdt
    exact htag (this ▸ hu)
  have hdown : ∀ vs, downcastNdm (.obj c vs) = .ok (.obj c vs) := by
    intro vs
    unfold downcastNdm
    split
    · next e => cases e; exact absurd rfl hn
    · rfl
  have hform : ∀ {v}, bindElem (.cls c) t = .ok v → ∃ vs, v = .obj c vs := by
    intro v hv
    cases bindElem_says t hv with
    | simple ho => simp [FTy.object?, hm] at ho
    | object => exact ⟨_, rfl⟩
  have hgo : ∀ vs, bindElem (.cls c) t = .ok (.obj c vs) → (s.fromString X.lib src).1 = stripMultiNdm (.obj c vs) := by
    intro vs hb
    show xmlFromString X.lib src = _
    unfold xmlFromString
    rw [hid, xml_parse hr, hroot, hb]
    show (downcastNdm (.obj c vs) >>= fun ndm => if true = true then stripMultiNdm ndm else pure ndm) = _
    rw [hdown]
    rfl
  have hstrip : ∀ vs, (∃ o, stripMultiNdm (.obj c vs) = .ok o) ↔ ∃ ls, nonZeroSlots vs = .ok ls := by
    intro vs
    unfold stripMultiNdm
    constructor
    · rintro ⟨o, h⟩
      obtain ⟨ls, hls, -⟩ := bind_ok_iff.mp h
      exact ⟨ls, hls⟩
    · rintro ⟨ls, h⟩
      have : ∃ o, (match ls with | [(_, [x])] => pure x | _ => pure (Val.obj c vs) : Except PyErr Val) = .ok o := by
        split
        · exact ⟨_, rfl⟩
        · exact ⟨_, rfl⟩
      obtain ⟨o, ho⟩ := this
      exact ⟨o, bind_ok_iff.mpr ⟨ls, h, ho⟩⟩
  constructor
  · rintro ⟨o, h⟩
    cases hb : bindElem (.cls c) t with
    | error e =>
      have h : xmlFromString X.lib src = .ok o := h
      unfold xmlFromString at h
      rw [hid, xml_parse hr, hroot, hb] at h
      cases h
    | ok v =>
      obtain ⟨vs, rfl⟩ := hform hb
      rw [hgo vs hb] at h
      exact ⟨fun hF => foreign_refused hF _ hb, vs, bindElem_says t hb, nonZero_ok.mp ((hstrip vs).mp ⟨o, h⟩)⟩
  · rintro ⟨hF, vs, hs, hl⟩
    obtain ⟨v, hb⟩ := bindElem_total t hF
    have := xmlSays_unique hs (bindElem_says t hb)
    subst this
    rw [hgo vs hb]
    exact (hstrip vs).mpr (nonZero_ok.mpr hl)

/-- **C82** through `NdmIo`, which recognises a text between `<` and `>`, blanks aside, as XML. -/
theorem C82_auto (X : XmlChars) (src core : Str) (hcore : Core src core) (hb : py "<" <+: core ∧ py ">" <:+ core) (t : XTree) (c : Cls) (o : Val)
    (hr : X.read src = some t) (hc : c ∈ xmlTypes) (ht : c.metaName = some t.tag) :
    ndmFromString X.lib src = .ok o ↔ ¬ ForeignXml (.cls c) t ∧ XmlSays (.cls c) t o := by
  rw [(C02_dispatch X.lib src core hcore).2 hb]
  exact C82_message X {} src t c o hr hc ht

-- a document of an OPM, with what it says
example : ¬ ForeignXml (.cls .Opm) richDoc ∧ XmlSays (.cls .Opm) richDoc richOpm :=
  (C82_message (oneDoc richDoc) {} [] richDoc .Opm richOpm rfl (by decide) (by decide +kernel)).mp (by decide +kernel)

-- the same through `NdmIo`, for a text that is recognised as XML
example : ndmFromString (oneDoc richDoc).lib (py " <opm/> ") = .ok richOpm :=
  (C82_auto (oneDoc richDoc) _ (py "<opm/>") (strip_eq_iff.mp (by decide)) (by decide) richDoc .Opm richOpm rfl (by decide)
    (by decide +kernel)).mpr ((C82_message (oneDoc richDoc) {} [] richDoc .Opm richOpm rfl (by decide) (by decide +kernel)).mp (by decide +kernel))

-- a combined message that says three messages
example : (XmlSelf.fromString (oneDoc richNdm).lib {} []).1 =
    .ok (Combined.mk (S (py "7")) (.list []) [] [] [] [] [(Cls.default .Omm).vars] [richOpm.vars, richOpm.vars] [] []).typed := by
  decide +kernel

-- what a number, an enumeration member and other texts say
example : TextSays .dec (py "1.5") (.dec ((Dec.parse (py "1.5")).get (by decide +kernel))) ∧ TextSays .dec (py "far") (S (py "far")) ∧
    TextSays (.cls .TimeUnits) (py "s") (.enum .TimeUnits (py "s")) ∧ TextSays (.cls .TimeUnits) (py "x") (S (py "x")) :=
  ⟨convText_says (ty := .dec) rfl (py "1.5"), convText_says (ty := .dec) rfl (py "far"),
    convText_says (ty := .cls .TimeUnits) rfl (py "s"), convText_says (ty := .cls .TimeUnits) rfl (py "x")⟩

-- a root no class has, and a part of a message that is read
example : ∀ t, (oneDoc (.node (py "html") [] [] [])).read [] = some t → ∀ c : Cls, c.members = none → c.metaName ≠ some t.tag := by
  intro t ht c _ hc
  cases ht
  have h : (Cls.all.all fun c => c.metaName != some (py "html")) = true := by decide +kernel
  have := all_classes h c
  rw [hc] at this
  exact absurd this (by decide)

example : let t : XTree := .node (py "userDefinedType") [] [] [.node (py "USER_DEFINED") [(py "parameter", py "A")] (py "1") []]
    t.tag ≠ py "ndm" ∧ (XmlSelf.fromString (oneDoc t).lib {} []).1 = .ok (mkUser (py "A") (py "1")) :=
  ⟨by decide, by decide +kernel⟩

-- a part that is read and one that is not
example : let t : XTree := .node (py "userDefinedType") [] [] [.node (py "USER_DEFINED") [(py "parameter", py "A")] (py "1") []]
    t.tag ∉ messageTags ∧ Cls.UserDefinedType.metaName = some t.tag ∧ Cls.UserDefinedType.members = none :=
  ⟨by decide, by decide, by decide⟩

example : let t : XTree := .node (py "positionType") [(py "units", py "km")] (py "7") []
    t.tag ∉ messageTags ∧ Cls.PositionType.metaName = some t.tag ∧ (XmlSelf.fromString (oneDoc t).lib {} []).1 = .error .typeError :=
  ⟨by decide, by decide, by decide +kernel⟩

end Ndm
