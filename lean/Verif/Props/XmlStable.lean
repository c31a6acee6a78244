import Verif.Props.XmlRead

/-! # C70: rewriting XML comes to rest -/

namespace Ndm

/-! ## The texts of what is read -/

theorem convText_good' (ty : FTy) {s : Str} (h : goodText s = true) : (convText ty s).goodTexts = true := by
  have hs : (Val.str s).goodTexts = true := by rw [Val.goodTexts]; exact h
  unfold convText convEnum
  cases ty with
  | str => exact hs
  | int => dsimp only; split <;> first | exact hs | rfl
  | dec => dsimp only; split <;> first | exact hs | rfl
  | cls c => dsimp only; split <;> (try split) <;> first | exact hs | rfl

theorem leafVal_good (ty : FTy) {s : Str} (h : goodText s = true) : (leafVal ty s).goodTexts = true := by
  unfold leafVal
  split
  · decide
  · exact convText_good' ty h

theorem attr_good {n s : Str} {attrs : List (Str × Str)} (ha : (attrs.all fun a => goodText a.2) = true) (h : attrLookup n attrs = some s) :
    goodText s = true := by
  unfold attrLookup at h
  cases hf : attrs.find? (·.1 == n) with
  | none => rw [hf] at h; cases h
  | some a =>
    rw [hf] at h
    cases h
    exact List.all_eq_true.mp ha a (List.mem_of_find?_eq_some hf)

theorem goodList_of : ∀ {xs : List Val}, (∀ v ∈ xs, v.goodTexts = true) → goodList xs = true
  | [], _ => rfl
  | v :: vs, h => by
    rw [goodList, h v List.mem_cons_self, goodList_of fun v hv => h v (List.mem_cons_of_mem _ hv)]
    rfl

theorem goodVars_of : ∀ {xs : List (Str × Val)}, (∀ v ∈ xs, v.2.goodTexts = true) → goodVars xs = true
  | [], _ => rfl
  | (n, v) :: vs, h => by
    rw [goodVars, h (n, v) List.mem_cons_self, goodVars_of fun v hv => h v (List.mem_cons_of_mem _ hv)]
    rfl

mutual
/-- What is read from a document XML can hold has texts XML can hold. -/
theorem bindElem_good : ∀ (t : XTree) {ty : FTy} {v : Val}, t.good = true → bindElem ty t = .ok v → v.goodTexts = true
  | .node tag attrs text kids, ty, v, hg, h => by
    simp only [XTree.good, Bool.and_eq_true] at hg
    obtain ⟨⟨ha, ht⟩, hk⟩ := hg
    rcases bindElem_cases h with ⟨-, -, rfl⟩ | ⟨c, bs, rfl, -, hb, rfl⟩
    · exact leafVal_good ty ht
    · have hbs := bindKids_good kids hk hb
      rw [Val.goodTexts]
      refine goodVars_of fun p hp => ?_
      obtain ⟨f, -, rfl⟩ := List.mem_map.mp hp
      show (boundField attrs text bs f).goodTexts = true
      unfold boundField
      have hall : ∀ v ∈ (bs.filter (·.1 == f.xmlName)).map (·.2), v.goodTexts = true := by
        intro v hv
        obtain ⟨b, hb, rfl⟩ := List.mem_map.mp hv
        exact hbs b (List.mem_filter.mp hb).1
      cases f.kind with
      | attr =>
        simp only [bindAttr]
        cases hf : attrLookup f.xmlName attrs with
        | none => rfl
        | some s => exact convText_good' _ (attr_good ha hf)
      | text =>
        simp only [bindText]
        split
        · rfl
        · exact convText_good' _ ht
      | elem =>
        simp only
        split
        · rw [Val.goodTexts]
          exact goodList_of hall
        · cases hx : (bs.filter (·.1 == f.xmlName)).map (·.2) with
          | nil => rfl
          | cons v vs => exact hall v (by rw [hx]; exact List.mem_cons_self)

theorem bindKids_good : ∀ (ts : List XTree) {c : Cls} {seen : List Str} {bs : List (Str × Val)}, goodTrees ts = true →
    bindKids c seen ts = .ok bs → ∀ b ∈ bs, b.2.goodTexts = true
  | [], c, seen, bs, _, h => by
    simp only [bindKids, Except.ok.injEq] at h
    subst h
    exact fun b hb => nomatch hb
  | t :: ts, c, seen, bs, hg, h => by
    rw [goodTrees, Bool.and_eq_true] at hg
    rw [bindKids] at h
    cases hf : c.findElem t.tag with
    | none => simp only [hf] at h; cases h
    | some f =>
      simp only [hf] at h
      split at h
      · cases h
      · obtain ⟨v, hv, h⟩ := bind_ok_iff.mp h
        obtain ⟨r, hr, h⟩ := bind_ok_iff.mp h
        cases h
        intro b hb
        rcases List.mem_cons.mp hb with rfl | hb
        · exact bindElem_good t hg.1 hv
        · exact bindKids_good ts hg.2 hr b hb
end

/-! ## Plain numbers -/

theorem Dec.plain_plain (d : Dec) : d.plain.plain = d.plain := by
  cases d with
  | fin neg coef exp =>
    by_cases h : exp > 0 <;> simp [Dec.plain, h]
  | inf => rfl
  | nan => rfl

mutual
theorem Val.plain_plain : ∀ v : Val, v.plain.plain = v.plain
  | .dec d => by rw [Val.plain, Val.plain, Dec.plain_plain]
  | .obj c vs => by rw [Val.plain, Val.plain, plainVars_plain vs]
  | .list xs => by rw [Val.plain, Val.plain, plainList_plain xs]
  | .none => rfl
  | .str _ => rfl
  | .int _ => rfl
  | .enum _ _ => rfl

theorem plainVars_plain : ∀ vs : List (Str × Val), plainVars (plainVars vs) = plainVars vs
  | [] => rfl
  | (n, v) :: vs => by rw [plainVars, plainVars, Val.plain_plain v, plainVars_plain vs]

theorem plainList_plain : ∀ vs : List Val, plainList (plainList vs) = plainList vs
  | [] => rfl
  | v :: vs => by rw [plainList, plainList, Val.plain_plain v, plainList_plain vs]
end

mutual
theorem goodTexts_plain : ∀ v : Val, v.plain.goodTexts = v.goodTexts
  | .dec d => by rw [Val.plain, Val.goodTexts, Val.goodTexts] <;> simp
  | .obj c vs => by rw [Val.plain, Val.goodTexts, Val.goodTexts, goodVars_plain vs]
  | .list xs => by rw [Val.plain, Val.goodTexts, Val.goodTexts, goodList_plain xs]
  | .none => rfl
  | .str _ => rfl
  | .int _ => rfl
  | .enum _ _ => rfl

theorem goodVars_plain : ∀ vs : List (Str × Val), goodVars (plainVars vs) = goodVars vs
  | [] => rfl
  | (n, v) :: vs => by rw [plainVars, goodVars, goodVars, goodTexts_plain v, goodVars_plain vs]

theorem goodList_plain : ∀ vs : List Val, goodList (plainList vs) = goodList vs
  | [] => rfl
  | v :: vs => by rw [plainList, goodList, goodList, goodTexts_plain v, goodList_plain vs]
end

mutual
theorem hasType_plain : ∀ {ty : FTy} {v : Val}, HasType ty v → HasType ty v.plain
  | _, _, .str s => .str s
  | _, _, .int i => .int i
  | _, _, .intText s h => .intText s h
  | _, _, .dec d => by rw [Val.plain]; exact .dec _
  | _, _, .decText s h => .decText s h
  | _, _, .enum s h h' => .enum s h h'
  | _, _, .enumText s h h' => .enumText s h h'
  | _, _, .obj h hf => by rw [Val.plain]; exact .obj h (hasFields_plain hf)

theorem hasFields_plain : ∀ {fs : List Field} {vs : List (Str × Val)}, HasFields fs vs → HasFields fs (plainVars vs)
  | _, _, .nil => .nil
  | _, _, .cons h hr => by rw [plainVars]; exact .cons (fieldOk_plain h) (hasFields_plain hr)

theorem fieldOk_plain : ∀ {f : Field} {v : Val}, FieldOk f v → FieldOk f v.plain
  | _, _, .list hl h => by rw [Val.plain]; exact .list hl (allHaveType_plain h)
  | _, _, .none hl => .none hl
  | _, v, .one hl h hn => .one hl (hasType_plain h) fun hk e => hn hk (by
      cases v <;> simp only [Val.plain] at e <;> first | exact e | cases e)

theorem allHaveType_plain : ∀ {ty : FTy} {vs : List Val}, AllHaveType ty vs → AllHaveType ty (plainList vs)
  | _, _, .nil => .nil
  | _, _, .cons h hr => by rw [plainList]; exact .cons (hasType_plain h) (allHaveType_plain hr)
end

/-! ## C70 -/

theorem rests {X : XmlChars} {o o₁ : Val}
    (h : ∀ (writer reader : XmlSelf) (loc noNsLoc : Option Str), ∃ text, (writer.toString X.lib o loc noNsLoc).1 = .ok text ∧
      (reader.fromString X.lib text).1 = .ok o₁)
    (h₁ : ∀ (writer reader : XmlSelf) (loc noNsLoc : Option Str), ∃ text, (writer.toString X.lib o₁ loc noNsLoc).1 = .ok text ∧
      (reader.fromString X.lib text).1 = .ok o₁) {o' : Val} (hr : RewrittenXml X o o') :
    (o' = o ∨ o' = o₁) ∧ ∀ (writer reader : XmlSelf) (loc noNsLoc : Option Str), ∃ text,
      (writer.toString X.lib o' loc noNsLoc).1 = .ok text ∧ (reader.fromString X.lib text).1 = .ok o₁ := by
  induction hr with
  | start => exact ⟨.inl rfl, h⟩
  | @again a b writer reader loc noNsLoc text hr hw hd ih =>
    obtain ⟨text', hw', hd'⟩ := ih.2 writer reader loc noNsLoc
    rw [hw] at hw'
    cases hw'
    rw [hd] at hd'
    cases hd'
    exact ⟨.inr rfl, h₁⟩

theorem message_rests {X : XmlChars} (hX : X.Faithful) {c : Cls} (hc : c ∈ xmlTypes) {vs : List (Str × Val)}
    (h : HasType (.cls c) (.obj c vs)) (hg : (Val.obj c vs).goodTexts = true) :
    ∃ o₁, SameVal (.obj c vs) o₁ ∧ ∀ o', RewrittenXml X (.obj c vs) o' → (o' = .obj c vs ∨ o' = o₁) ∧
      ∀ (writer reader : XmlSelf) (loc noNsLoc : Option Str), ∃ text, (writer.toString X.lib o' loc noNsLoc).1 = .ok text ∧
        (reader.fromString X.lib text).1 = .ok o₁ := by
  refine ⟨(Val.obj c vs).plain, same_plain _, fun o' hr => rests (fun writer reader loc noNsLoc => ?_) (fun writer reader loc noNsLoc => ?_) hr⟩
  · obtain ⟨text, o, hw, hd, -, rfl, -⟩ := C65_round_trip X hX c hc vs h hg loc noNsLoc writer reader
    exact ⟨text, hw, hd⟩
  · have hp := hasType_plain h
    have hg' := (goodTexts_plain (.obj c vs)).trans hg
    rw [Val.plain] at hp hg' ⊢
    obtain ⟨text, o, hw, hd, -, rfl, -⟩ := C65_round_trip X hX c hc _ hp hg' loc noNsLoc writer reader
    rw [Val.plain, plainVars_plain] at hd
    exact ⟨text, hw, hd⟩

/-- **C70.** A message that was read from XML can be rewritten as XML any number of times.  The first time, numbers may change their
notation; after that nothing changes any more. -/
theorem C70_message (X : XmlChars) (hX : X.Faithful) (s : XmlSelf) (src : Str) (t : XTree) (o : Val) (hr : X.read src = some t)
    (hg : t.good = true) (ht : t.tag ∈ messageTags) (h : (s.fromString X.lib src).1 = .ok o) :
    ∃ o₁, SameVal o o₁ ∧ ∀ o', RewrittenXml X o o' → (o' = o ∨ o' = o₁) ∧
      ∀ (writer reader : XmlSelf) (loc noNsLoc : Option Str), ∃ text, (writer.toString X.lib o' loc noNsLoc).1 = .ok text ∧
        (reader.fromString X.lib text).1 = .ok o₁ := by
  obtain ⟨c, hc, -, hb, vs, rfl⟩ := message_read hr ht h
  exact message_rests hX hc (bindElem_type t hb) (bindElem_good t hg hb)

theorem combined_message_good {m : Combined} (hg : m.parsed.goodTexts = true) {x : Val} (hx : x ∈ m.messages) : x.goodTexts = true := by
  have key : ∀ {c d : Cls} {bs : List Body} {b : Body}, (Val.list (bs.map (.obj c))).goodTexts = true → b ∈ bs →
      (Val.obj d b).goodTexts = true := by
    intro c d bs
    induction bs with
    | nil => exact fun _ h => nomatch h
    | cons b' bs ih =>
      intro b h hb
      rw [Val.goodTexts, List.map_cons, goodList, Bool.and_eq_true, Val.goodTexts] at h
      rw [Val.goodTexts]
      rcases List.mem_cons.mp hb with rfl | hb
      · exact h.1
      · have := ih (b := b) (by rw [Val.goodTexts]; exact h.2) hb
        rwa [Val.goodTexts] at this
  simp only [Combined.parsed, Combined.toObj, Val.goodTexts, goodVars, Bool.and_eq_true] at hg
  obtain ⟨-, -, h1, h2, h3, h4, h5, h6, h7, h8, -⟩ := hg
  simp only [Combined.messages, List.mem_append, List.mem_map] at hx
  rcases hx with ((((((⟨b, hb, rfl⟩ | ⟨b, hb, rfl⟩) | ⟨b, hb, rfl⟩) | ⟨b, hb, rfl⟩) | ⟨b, hb, rfl⟩) | ⟨b, hb, rfl⟩) | ⟨b, hb, rfl⟩) | ⟨b, hb, rfl⟩
  · exact key (by rw [Val.goodTexts]; exact h1) hb
  · exact key (by rw [Val.goodTexts]; exact h2) hb
  · exact key (by rw [Val.goodTexts]; exact h3) hb
  · exact key (by rw [Val.goodTexts]; exact h4) hb
  · exact key (by rw [Val.goodTexts]; exact h5) hb
  · exact key (by rw [Val.goodTexts]; exact h6) hb
  · exact key (by rw [Val.goodTexts]; exact h7) hb
  · exact key (by rw [Val.goodTexts]; exact h8) hb

/-- **C70** for combined messages. -/
theorem C70_ndm (X : XmlChars) (hX : X.Faithful) (s : XmlSelf) (src : Str) (t : XTree) (o : Val) (hr : X.read src = some t)
    (hg : t.good = true) (ht : t.tag = py "ndm") (h : (s.fromString X.lib src).1 = .ok o) :
    ∃ o₁, SameVal o o₁ ∧ ∀ o', RewrittenXml X o o' → (o' = o ∨ o' = o₁) ∧
      ∀ (writer reader : XmlSelf) (loc noNsLoc : Option Str), ∃ text, (writer.toString X.lib o' loc noNsLoc).1 = .ok text ∧
        (reader.fromString X.lib text).1 = .ok o₁ := by
  obtain ⟨m, hb, hm, hx⟩ := ndm_read hr ht h
  have hgood := bindElem_good t hg hb
  have hty := bindElem_type t hb
  rcases hm with hm | ⟨hl, rfl⟩
  · have ho : o ∈ m.messages := by rw [hm]; exact List.mem_cons_self
    obtain ⟨c, hc, hc'⟩ := hx o ho
    have hn : ∀ c ∈ xmlTypes, c.members = none := by decide
    cases hc' with
    | @obj _ vs hmem hf => exact message_rests hX hc (.obj hmem hf) (combined_message_good hgood ho)
    | enum _ h' => rw [hn c hc] at h'; cases h'
    | enumText _ h' => rw [hn c hc] at h'; cases h'
  · refine ⟨m.typed.plain, same_plain _, fun o' hr => rests (fun writer reader loc noNsLoc => ?_) (fun writer reader loc noNsLoc => ?_) hr⟩
    · obtain ⟨text, hw, -, h2⟩ := C65_ndm X hX m hty hgood loc noNsLoc writer reader
      exact ⟨text, hw, (h2 hl).1⟩
    · have e : m.plain.parsed = m.parsed.plain := (plain_toObj m _ _ _ _ _ _ _ _).symm
      have e' : m.plain.typed = m.typed.plain := (plain_toObj m _ _ _ _ _ _ _ _).symm
      obtain ⟨text, hw, -, h2⟩ := C65_ndm X hX m.plain (by rw [e]; exact hasType_plain hty)
        (by rw [e, goodTexts_plain]; exact hgood) loc noNsLoc writer reader
      have := (h2 (by rw [plain_messages, List.length_map]; exact hl)).1
      rw [e', Val.plain_plain] at this
      exact ⟨text, by rw [← e']; exact hw, this⟩

-- the hypotheses can be met: `richDoc` and `richNdm` are read (see `Props/XmlRead.lean`), and XML can hold them
example : richDoc.good = true ∧ richNdm.good = true := ⟨by decide +kernel, by decide +kernel⟩

example : ∃ X : XmlChars, X.Faithful ∧ ∃ src t, X.read src = some t ∧ t.good = true ∧ t.tag ∈ messageTags ∧
    (XmlSelf.fromString X.lib {} src).1 = .ok richOpm := by
  obtain ⟨X, hX, hr⟩ := faithful_exact
  obtain ⟨src, hr⟩ := hr richDoc
  refine ⟨X, hX, src, richDoc, hr, by decide +kernel, by decide +kernel, ?_⟩
  show xmlFromString X.lib src = _
  unfold xmlFromString identifyXmlType
  rw [xml_rootTag hr, xml_parse hr]
  decide +kernel

end Ndm
