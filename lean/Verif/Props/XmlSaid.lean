import Verif.Props.XmlFrom
import Verif.Props.Valid

/-! # C83: what is written as XML says what the object holds -/

namespace Ndm

/-- The document in what is written for an object of the data model. -/
theorem written_says {X : XmlChars} (hX : X.Faithful) {c : Cls} (hc : c ∈ .Ndm :: xmlTypes) {vs : List (Str × Val)} (h : HasType (.cls c) (.obj c vs))
    (hg : (Val.obj c vs).goodTexts = true) (loc noNsLoc : Option Str) :
    ∃ text t v, X.lib.render loc noNsLoc (.obj c vs) = .ok text ∧ X.read text = some t ∧ c.metaName = some t.tag ∧
      XmlSays (.cls c) t v ∧ SameVal (.obj c vs) v := by
  obtain ⟨text, core, hw, -, -, hr, hp⟩ := lib_round_trip hX hc h hg loc noNsLoc
  have hmeta : ∀ c ∈ .Ndm :: xmlTypes, c.metaName.isSome = true := by decide
  obtain ⟨tag, hmt⟩ := Option.isSome_iff_exists.mp (hmeta c hc)
  obtain ⟨t, hread, ht⟩ := Option.map_eq_some_iff.mp (hr.trans hmt)
  have hmt' : c.metaName = some t.tag := by rw [hmt, ht]
  have hbind : bindElem (.cls c) t = .ok (Val.obj c vs).plain := by
    have := xml_parse hread
    rw [hp, bindRoot_eq hc hmt'] at this
    exact this.symm
  exact ⟨text, t, _, hw, hread, hmt', bindElem_says t hbind, same_plain _⟩

/-- **C83.** The text `to_string` gives for a message is XML with the tag of its kind, and the document says what the message holds:
an object with the same values. -/
theorem C83_says (X : XmlChars) (hX : X.Faithful) (c : Cls) (hc : c ∈ xmlTypes) (vs : List (Str × Val)) (h : HasType (.cls c) (.obj c vs))
    (hg : (Val.obj c vs).goodTexts = true) (loc noNsLoc : Option Str) (writer : XmlSelf) :
    ∃ text t v, (writer.toString X.lib (.obj c vs) loc noNsLoc).1 = .ok text ∧ X.read text = some t ∧ c.metaName = some t.tag ∧
      XmlSays (.cls c) t v ∧ SameVal (.obj c vs) v := by
  obtain ⟨l, n, hln⟩ : ∃ l n, (writer.toString X.lib (.obj c vs) loc noNsLoc).1 = X.lib.render l n (.obj c vs) := ⟨_, _, rfl⟩
  rw [hln]
  exact written_says hX (List.mem_cons_of_mem _ hc) h hg l n

/-- **C83** for combined messages. -/
theorem C83_ndm (X : XmlChars) (hX : X.Faithful) (m : Combined) (h : HasType (.cls .Ndm) m.parsed) (hg : m.parsed.goodTexts = true)
    (loc noNsLoc : Option Str) (writer : XmlSelf) :
    ∃ text t v, (writer.toString X.lib m.typed loc noNsLoc).1 = .ok text ∧ X.read text = some t ∧ t.tag = py "ndm" ∧
      XmlSays (.cls .Ndm) t v ∧ SameVal m.parsed v := by
  obtain ⟨l, n, hln⟩ : ∃ l n, (writer.toString X.lib m.typed loc noNsLoc).1 = X.lib.render l n m.typed := ⟨_, _, rfl⟩
  rw [hln]
  have hren : X.lib.render l n m.typed = X.lib.render l n m.parsed := by
    show (toDoc m.typed >>= fun t => X.write l n t) = (toDoc m.parsed >>= fun t => X.write l n t)
    rw [toDoc_typed]
  obtain ⟨text, t, v, hw, hread, hmt, hs, he⟩ := written_says hX (c := .Ndm) List.mem_cons_self h hg l n
  exact ⟨text, t, v, hren.trans hw, hread, (Option.some.inj hmt).symm, hs, he⟩

mutual
theorem sameVal_both : ∀ {a b p : Val}, SameVal a p → SameVal b p → SameVal a b
  | _, _, _, .none, h => by cases h; exact .none
  | _, _, _, .str s, h => by cases h; exact .str s
  | _, _, _, .int i, h => by cases h; exact .int i
  | _, _, _, .enum c s, h => by cases h; exact .enum c s
  | _, _, _, .same d, h => by
    cases h with
    | same => exact .same d
    | number h1 h2 => exact .number h2 h1
  | _, _, _, .number h1 h2, h => by
    cases h with
    | same => exact .number h1 h2
    | number h3 h4 =>
      rw [h2] at h4
      cases h4
      exact .number h1 h3
  | _, _, _, .obj hv, h => by
    cases h with
    | obj hw => exact .obj (sameVars_both hv hw)
  | _, _, _, .list hv, h => by
    cases h with
    | list hw => exact .list (sameVals_both hv hw)

theorem sameVars_both : ∀ {a b p : List (Str × Val)}, SameVars a p → SameVars b p → SameVars a b
  | _, _, _, .nil, h => by cases h; exact .nil
  | _, _, _, .cons hv hr, h => by
    cases h with
    | cons hw hs => exact .cons (sameVal_both hv hw) (sameVars_both hr hs)

theorem sameVals_both : ∀ {a b p : List Val}, SameVals a p → SameVals b p → SameVals a b
  | _, _, _, .nil, h => by cases h; exact .nil
  | _, _, _, .cons hv hr, h => by
    cases h with
    | cons hw hs => exact .cons (sameVal_both hv hw) (sameVals_both hr hs)
end

/-- **C83.** So different messages have different XML texts: two messages for which the same text is written, by whatever instances and
with whatever schema locations, are of the same kind and hold the same values. -/
theorem C83_different (X : XmlChars) (hX : X.Faithful) (c d : Cls) (hc : c ∈ xmlTypes) (hd : d ∈ xmlTypes) (vs ws : List (Str × Val))
    (hv : HasType (.cls c) (.obj c vs)) (hw : HasType (.cls d) (.obj d ws)) (gv : (Val.obj c vs).goodTexts = true)
    (gw : (Val.obj d ws).goodTexts = true) (l n l' n' : Option Str) (s s' : XmlSelf) (text : Str)
    (h : (s.toString X.lib (.obj c vs) l n).1 = .ok text) (h' : (s'.toString X.lib (.obj d ws) l' n').1 = .ok text) :
    SameVal (.obj c vs) (.obj d ws) := by
  obtain ⟨t1, o1, e1, r1, -, -, p1⟩ := C65_round_trip X hX c hc vs hv gv l n s {}
  obtain ⟨t2, o2, e2, r2, -, -, p2⟩ := C65_round_trip X hX d hd ws hw gw l' n' s' {}
  rw [h] at e1
  rw [h'] at e2
  cases e1
  cases e2
  rw [r1] at r2
  cases r2
  exact sameVal_both p1 p2

/-- **C83.** The same for combined messages. -/
theorem C83_different_ndm (X : XmlChars) (hX : X.Faithful) (m m' : Combined) (hm : HasType (.cls .Ndm) m.parsed)
    (hm' : HasType (.cls .Ndm) m'.parsed) (gm : m.parsed.goodTexts = true) (gm' : m'.parsed.goodTexts = true) (l n l' n' : Option Str)
    (s s' : XmlSelf) (text : Str) (h : (s.toString X.lib m.typed l n).1 = .ok text) (h' : (s'.toString X.lib m'.typed l' n').1 = .ok text) :
    SameVal m.parsed m'.parsed := by
  obtain ⟨t1, d1, v1, e1, r1, -, s1, p1⟩ := C83_ndm X hX m hm gm l n s
  obtain ⟨t2, d2, v2, e2, r2, -, s2, p2⟩ := C83_ndm X hX m' hm' gm' l' n' s'
  rw [h] at e1
  rw [h'] at e2
  cases e1
  cases e2
  rw [r1] at r2
  cases r2
  rw [xmlSays_unique s1 s2] at p1
  exact sameVal_both p1 p2

-- messages and combined messages as the theorems ask for
example : HasType (.cls .Opm) richOpm ∧ richOpm.goodTexts = true ∧ Cls.Opm ∈ xmlTypes :=
  ⟨bindElem_type richDoc (v := richOpm) (by decide +kernel), by decide +kernel, by decide⟩

example : HasType (.cls .Ndm) (Combined.mk (S (py "7")) (.list []) [] [] [] [] [(Cls.default .Omm).vars] [richOpm.vars, richOpm.vars] [] []).parsed ∧
    (Combined.mk (S (py "7")) (.list []) [] [] [] [] [(Cls.default .Omm).vars] [richOpm.vars, richOpm.vars] [] []).parsed.goodTexts = true :=
  ⟨bindElem_type richNdm (by decide +kernel), by decide +kernel⟩

end Ndm
