import Verif.Lemmas.Missing
import Verif.Props.XmlRead

/-! # C71: what the schema requires and is not there -/

namespace Ndm

/-- **C71** for XML messages.  What is read lacks something the schema requires, at any depth, exactly if the document does: the
reader makes nothing up and loses nothing. -/
theorem C71_message_partial (X : XmlChars) (s : XmlSelf) (src : Str) (t : XTree) (o : Val) (hr : X.read src = some t)
    (ht : t.tag ∈ messageTags) (h : (s.fromString X.lib src).1 = .ok o) :
    ∃ c, c.metaName = some t.tag ∧ (Incomplete o ↔ IncompleteXml (.cls c) t) := by
  obtain ⟨c, -, hm, hb, vs, rfl⟩ := message_read hr ht h
  exact ⟨c, hm, incomplete_read t hb⟩

theorem incomplete_body {c d : Cls} (h : c.least = d.least) {b : Body} (hi : Incomplete (.obj c b)) : Incomplete (.obj d b) := by
  cases hi with
  | here h1 h2 h3 => exact .here h1 (by rw [← h]; exact h2) h3
  | inside h1 h2 h3 => exact .inside h1 h2 h3

/-- Fields with texts lack nothing. -/
def Flat (v : Val) : Prop := ∀ x ∈ v.items, ∀ c vs, x ≠ .obj c vs

theorem flat_complete {v x : Val} (h : Flat v) (hx : x ∈ v.items) : ¬ Incomplete x := by
  intro hi
  cases hi with
  | here => exact h _ hx _ _ rfl
  | inside => exact h _ hx _ _ rfl

/-- A combined message lacks what its messages lack. -/
theorem incomplete_toObj (m : Combined) (h1 : Flat m.messageId) (h2 : Flat m.comment) {a b c d e f g h : Cls}
    (ha : a.least = Cls.Aem.least) (hb : b.least = Cls.Apm.least) (hc : c.least = Cls.Cdm.least) (hd : d.least = Cls.Oem.least)
    (he : e.least = Cls.Omm.least) (hf : f.least = Cls.Opm.least) (hg : g.least = Cls.Rdm.least) (hh : h.least = Cls.Tdm.least) :
    Incomplete (m.toObj a b c d e f g h) ↔ ∃ x ∈ m.messages, Incomplete x := by
  have key : ∀ {bs : List Body} {x : Val} {c d : Cls}, c.least = d.least → x ∈ (Val.list (bs.map (.obj c))).items → Incomplete x →
      ∃ b, b ∈ bs ∧ Incomplete (.obj d b) := by
    intro bs x c d h hx hi
    obtain ⟨b, hb, rfl⟩ := List.mem_map.mp (show x ∈ bs.map (.obj c) from hx)
    exact ⟨b, hb, incomplete_body h hi⟩
  constructor
  · intro hi
    unfold Combined.toObj at hi
    cases hi with
    | here _ hl _ => cases hl
    | @inside _ _ n v x hv hx hi =>
      simp only [List.mem_cons, Prod.mk.injEq, List.not_mem_nil, or_false] at hv
      simp only [Combined.messages, List.mem_append, List.mem_map]
      rcases hv with ⟨-, rfl⟩ | ⟨-, rfl⟩ | ⟨-, rfl⟩ | ⟨-, rfl⟩ | ⟨-, rfl⟩ | ⟨-, rfl⟩ | ⟨-, rfl⟩ | ⟨-, rfl⟩ | ⟨-, rfl⟩ | ⟨-, rfl⟩
      · exact absurd hi (flat_complete h1 hx)
      · exact absurd hi (flat_complete h2 hx)
      · obtain ⟨b, hb, hi⟩ := key ha hx hi
        exact ⟨_, .inl (.inl (.inl (.inl (.inl (.inl (.inl ⟨b, hb, rfl⟩)))))), hi⟩
      · obtain ⟨b, hb, hi⟩ := key hb hx hi
        exact ⟨_, .inl (.inl (.inl (.inl (.inl (.inl (.inr ⟨b, hb, rfl⟩)))))), hi⟩
      · obtain ⟨b, hb, hi⟩ := key hc hx hi
        exact ⟨_, .inl (.inl (.inl (.inl (.inl (.inr ⟨b, hb, rfl⟩))))), hi⟩
      · obtain ⟨b, hb, hi⟩ := key hd hx hi
        exact ⟨_, .inl (.inl (.inl (.inl (.inr ⟨b, hb, rfl⟩)))), hi⟩
      · obtain ⟨b, hb, hi⟩ := key he hx hi
        exact ⟨_, .inl (.inl (.inl (.inr ⟨b, hb, rfl⟩))), hi⟩
      · obtain ⟨b, hb, hi⟩ := key hf hx hi
        exact ⟨_, .inl (.inl (.inr ⟨b, hb, rfl⟩)), hi⟩
      · obtain ⟨b, hb, hi⟩ := key hg hx hi
        exact ⟨_, .inl (.inr ⟨b, hb, rfl⟩), hi⟩
      · obtain ⟨b, hb, hi⟩ := key hh hx hi
        exact ⟨_, .inr ⟨b, hb, rfl⟩, hi⟩
  · rintro ⟨x, hx, hi⟩
    simp only [Combined.messages, List.mem_append, List.mem_map] at hx
    unfold Combined.toObj
    rcases hx with ((((((⟨y, hb', rfl⟩ | ⟨y, hb', rfl⟩) | ⟨y, hb', rfl⟩) | ⟨y, hb', rfl⟩) | ⟨y, hb', rfl⟩) | ⟨y, hb', rfl⟩) | ⟨y, hb', rfl⟩) | ⟨y, hb', rfl⟩
    · exact .inside (n := py "aem") (v := .list (m.aem.map (.obj a))) (by simp) (x := .obj a y) (List.mem_map.mpr ⟨y, hb', rfl⟩) (incomplete_body ha.symm hi)
    · exact .inside (n := py "apm") (v := .list (m.apm.map (.obj b))) (by simp) (x := .obj b y) (List.mem_map.mpr ⟨y, hb', rfl⟩) (incomplete_body hb.symm hi)
    · exact .inside (n := py "cdm") (v := .list (m.cdm.map (.obj c))) (by simp) (x := .obj c y) (List.mem_map.mpr ⟨y, hb', rfl⟩) (incomplete_body hc.symm hi)
    · exact .inside (n := py "oem") (v := .list (m.oem.map (.obj d))) (by simp) (x := .obj d y) (List.mem_map.mpr ⟨y, hb', rfl⟩) (incomplete_body hd.symm hi)
    · exact .inside (n := py "omm") (v := .list (m.omm.map (.obj e))) (by simp) (x := .obj e y) (List.mem_map.mpr ⟨y, hb', rfl⟩) (incomplete_body he.symm hi)
    · exact .inside (n := py "opm") (v := .list (m.opm.map (.obj f))) (by simp) (x := .obj f y) (List.mem_map.mpr ⟨y, hb', rfl⟩) (incomplete_body hf.symm hi)
    · exact .inside (n := py "rdm") (v := .list (m.rdm.map (.obj g))) (by simp) (x := .obj g y) (List.mem_map.mpr ⟨y, hb', rfl⟩) (incomplete_body hg.symm hi)
    · exact .inside (n := py "tdm") (v := .list (m.tdm.map (.obj h))) (by simp) (x := .obj h y) (List.mem_map.mpr ⟨y, hb', rfl⟩) (incomplete_body hh.symm hi)

theorem str_flat {v : Val} (h : ∀ x ∈ v.items, HasType .str x) : Flat v := by
  intro x hx c vs e
  have := h x hx
  rw [e] at this
  cases this

theorem allHaveType_each {ty : FTy} {x : Val} : ∀ {xs : List Val}, AllHaveType ty xs → x ∈ xs → HasType ty x
  | _ :: _, .cons h hr, hx => by
    rcases List.mem_cons.mp hx with rfl | hx
    · exact h
    · exact allHaveType_each hr hx

theorem fieldOk_flat {f : Field} {v : Val} (hf : f.ty = .str) (h : FieldOk f v) : Flat v := by
  cases h with
  | list _ ha =>
    rw [hf] at ha
    exact str_flat fun x hx => allHaveType_each ha hx
  | none => exact fun x hx => nomatch hx
  | one _ hx' _ =>
    rw [hf] at hx'
    cases hx'
    refine str_flat fun x hx => ?_
    cases List.mem_singleton.mp hx
    exact .str _

/-- **C71** for combined messages. -/
theorem C71_ndm_partial (X : XmlChars) (s : XmlSelf) (src : Str) (t : XTree) (o : Val) (hr : X.read src = some t)
    (ht : t.tag = py "ndm") (h : (s.fromString X.lib src).1 = .ok o) : Incomplete o ↔ IncompleteXml (.cls .Ndm) t := by
  obtain ⟨m, hb, hm, -⟩ := ndm_read hr ht h
  rw [← incomplete_read t hb]
  have hty := bindElem_type t hb
  have hfl : Flat m.messageId ∧ Flat m.comment := by
    cases hty with
    | obj _ hf =>
      obtain ⟨v1, vs, e1, hv1, hf⟩ := hasFields_cons hf
      cases e1
      obtain ⟨v2, vs, e2, hv2, hf⟩ := hasFields_cons hf
      cases e2
      exact ⟨fieldOk_flat rfl hv1, fieldOk_flat rfl hv2⟩
  have hpar : Incomplete m.parsed ↔ ∃ x ∈ m.messages, Incomplete x := incomplete_toObj m hfl.1 hfl.2 rfl rfl rfl rfl rfl rfl rfl rfl
  have htyp : Incomplete m.typed ↔ ∃ x ∈ m.messages, Incomplete x := incomplete_toObj m hfl.1 hfl.2 rfl rfl rfl rfl rfl rfl rfl rfl
  rw [hpar]
  rcases hm with hm | ⟨-, rfl⟩
  · rw [hm]
    simp
  · exact htyp

/-- **C71 is false** of XML: for each of the eight kinds, an empty element is read without an exception. -/
theorem C71_refuted_xml (X : XmlChars) (s : XmlSelf) (c : Cls) (hc : c ∈ xmlTypes) (tag : Str) (ht : c.metaName = some tag) (src : Str)
    (hr : X.read src = some (.node tag [] [] [])) :
    (s.fromString X.lib src).1 = .ok c.default ∧ Incomplete c.default ∧ IncompleteXml (.cls c) (.node tag [] [] []) := by
  have htag : tag ∈ messageTags := by
    have : ∀ c ∈ xmlTypes, ∀ t, c.metaName = some t → t ∈ messageTags := by
      intro c hc t ht
      have : ∀ c ∈ xmlTypes, ∃ t ∈ messageTags, c.metaName = some t := by decide
      obtain ⟨t', h1, h2⟩ := this c hc
      rw [ht] at h2
      cases h2
      exact h1
    exact this c hc tag ht
  have hb : ∀ c ∈ xmlTypes, ∀ tag, bindElem (.cls c) (.node tag [] [] []) = .ok c.default := by
    intro c hc tag
    have hm : ∀ c ∈ xmlTypes, c = .Aem ∨ c = .Apm ∨ c = .Cdm ∨ c = .Oem ∨ c = .Omm ∨ c = .Opm ∨ c = .Rdm ∨ c = .Tdm := by decide
    rcases hm c hc with rfl | rfl | rfl | rfl | rfl | rfl | rfl | rfl <;> rfl
  have hroot := bindRoot_eq (List.mem_cons_of_mem _ hc) (t := .node tag [] [] []) ht
  have hdef : ∃ vs, c.default = .obj c vs ∧ c ≠ .Ndm := by
    have hm : ∀ c ∈ xmlTypes, c = .Aem ∨ c = .Apm ∨ c = .Cdm ∨ c = .Oem ∨ c = .Omm ∨ c = .Opm ∨ c = .Rdm ∨ c = .Tdm := by decide
    rcases hm c hc with rfl | rfl | rfl | rfl | rfl | rfl | rfl | rfl <;> exact ⟨_, rfl, by decide⟩
  obtain ⟨vs, hvs, hne⟩ := hdef
  have hx : IncompleteXml (.cls c) (.node tag [] [] []) := by
    have hf : ∃ f ∈ c.attrs, f.kind = .elem ∧ (f.name, 1) ∈ c.least ∧ c.members = none := by
      have : ∀ c ∈ xmlTypes, ∃ f ∈ c.attrs, f.kind = .elem ∧ (f.name, 1) ∈ c.least ∧ c.members = none := by decide +kernel
      exact this c hc
    obtain ⟨f, hf, hk, hl, hm⟩ := hf
    exact .element (c := c) (by simp [FTy.object?, hm]) hf hk hl (by simp [XTree.kids])
  refine ⟨?_, (incomplete_read _ (hb c hc tag)).mpr hx, hx⟩
  rw [hvs]
  exact C14_plain X.lib src tag c vs (by rw [xml_parse hr, hroot, hb c hc tag, hvs]) hne (xml_rootTag hr) htag

mutual
def Val.lacks : Val → Bool
  | .obj c vs => lacksVars c vs
  | .list xs => lacksList xs
  | _ => false

def lacksVars (c : Cls) : List (Str × Val) → Bool
  | [] => false
  | (n, v) :: vs => c.least.any (fun p => p.1 == n && decide (v.items.length < p.2)) || v.lacks || lacksVars c vs

def lacksList : List Val → Bool
  | [] => false
  | .obj c vs :: us => lacksVars c vs || lacksList us
  | _ :: us => lacksList us
end

theorem items_obj (c : Cls) (vs : List (Str × Val)) : (Val.obj c vs).items = [.obj c vs] := rfl

mutual
theorem incomplete_of_lacks : ∀ (v : Val), v.lacks = true → ∃ x ∈ v.items, Incomplete x
  | .obj c vs, h => ⟨.obj c vs, by rw [items_obj]; exact List.mem_cons_self, by
      rw [Val.lacks] at h
      rcases incomplete_of_vars c vs h with ⟨n, v, k, h1, h2, h3⟩ | ⟨n, v, x, h1, h2, h3⟩
      · exact .here h1 h2 h3
      · exact .inside h1 h2 h3⟩
  | .list xs, h => by
    rw [Val.lacks] at h
    exact incomplete_of_list xs h
  | .none, h => nomatch h
  | .str _, h => nomatch h
  | .int _, h => nomatch h
  | .dec _, h => nomatch h
  | .enum _ _, h => nomatch h

theorem incomplete_of_vars (c : Cls) : ∀ (vs : List (Str × Val)), lacksVars c vs = true →
    (∃ n v k, (n, v) ∈ vs ∧ (n, k) ∈ c.least ∧ v.items.length < k) ∨ ∃ n v x, (n, v) ∈ vs ∧ x ∈ v.items ∧ Incomplete x
  | [], h => nomatch h
  | (n, v) :: vs, h => by
    rw [lacksVars, Bool.or_eq_true, Bool.or_eq_true] at h
    rcases h with (h | h) | h
    · obtain ⟨p, hp, h⟩ := List.any_eq_true.mp h
      simp only [Bool.and_eq_true, beq_iff_eq, decide_eq_true_eq] at h
      exact .inl ⟨n, v, p.2, List.mem_cons_self, by rw [← h.1]; exact hp, h.2⟩
    · obtain ⟨x, hx, hi⟩ := incomplete_of_lacks v h
      exact .inr ⟨n, v, x, List.mem_cons_self, hx, hi⟩
    · rcases incomplete_of_vars c vs h with ⟨n, v, k, h1, h2⟩ | ⟨n, v, x, h1, h2⟩
      · exact .inl ⟨n, v, k, List.mem_cons_of_mem _ h1, h2⟩
      · exact .inr ⟨n, v, x, List.mem_cons_of_mem _ h1, h2⟩

theorem incomplete_of_list : ∀ (vs : List Val), lacksList vs = true → ∃ x ∈ vs, Incomplete x
  | [], h => nomatch h
  | .obj c vs :: us, h => by
    rw [lacksList, Bool.or_eq_true] at h
    rcases h with h | h
    · refine ⟨_, List.mem_cons_self, ?_⟩
      rcases incomplete_of_vars c vs h with ⟨n, v, k, h1, h2, h3⟩ | ⟨n, v, x, h1, h2, h3⟩
      · exact .here h1 h2 h3
      · exact .inside h1 h2 h3
    · obtain ⟨x, hx, hi⟩ := incomplete_of_list us h
      exact ⟨x, List.mem_cons_of_mem _ hx, hi⟩
  | .list _ :: us, h => by
    obtain ⟨x, hx, hi⟩ := incomplete_of_list us h
    exact ⟨x, List.mem_cons_of_mem _ hx, hi⟩
  | .none :: us, h => by
    obtain ⟨x, hx, hi⟩ := incomplete_of_list us h
    exact ⟨x, List.mem_cons_of_mem _ hx, hi⟩
  | .str _ :: us, h => by
    obtain ⟨x, hx, hi⟩ := incomplete_of_list us h
    exact ⟨x, List.mem_cons_of_mem _ hx, hi⟩
  | .int _ :: us, h => by
    obtain ⟨x, hx, hi⟩ := incomplete_of_list us h
    exact ⟨x, List.mem_cons_of_mem _ hx, hi⟩
  | .dec _ :: us, h => by
    obtain ⟨x, hx, hi⟩ := incomplete_of_list us h
    exact ⟨x, List.mem_cons_of_mem _ hx, hi⟩
  | .enum _ _ :: us, h => by
    obtain ⟨x, hx, hi⟩ := incomplete_of_list us h
    exact ⟨x, List.mem_cons_of_mem _ hx, hi⟩
end

/-- An OPM without the name of the object and without the position. -/
def opmPart : Val :=
  let vel (i : Int) := mkVal .VelocityType i (.enum .VelocityUnits (py "km/s"))
  mkObj .Opm [(py "header", header), (py "body", mkObj .OpmBody [(py "segment", mkObj .OpmSegment [
    (py "metadata", mkObj .OpmMetadata [(py "object_id", S (py "B")), (py "center_name", S (py "EARTH")), (py "ref_frame", S (py "GCRF")), (py "time_system", S (py "UTC"))]),
    (py "data", mkObj .OpmData [(py "state_vector", mkObj .StateVectorType [(py "epoch", S (py "2000-01-01")), (py "x_dot", vel 4), (py "y_dot", vel 5),
      (py "z_dot", vel 6)])])])])]

/-- **C71 is false** of KVN: a message without the name of the object and without a position is written and read without an
exception. -/
theorem C71_refuted_kvn : Incomplete opmPart ∧ ∃ text, kvnToString opmPart = .ok text ∧ kvnFromString text = .ok opmPart := by
  have hw : WellFormedMessage opmPart := .plain (c := .Opm) (by decide) (wellFormed_of_b (by decide +kernel))
  refine ⟨?_, hw.round_trip⟩
  obtain ⟨x, hx, hi⟩ := incomplete_of_lacks opmPart (by decide +kernel)
  cases List.mem_singleton.mp (show x ∈ [opmPart] from hx)
  exact hi

theorem lacksVars_mem {c : Cls} {n : Str} {v : Val} : ∀ {vs : List (Str × Val)}, (n, v) ∈ vs →
    (c.least.any (fun p => p.1 == n && decide (v.items.length < p.2)) = true ∨ v.lacks = true) → lacksVars c vs = true
  | (m, w) :: vs, hm, h => by
    rw [lacksVars, Bool.or_eq_true, Bool.or_eq_true]
    rcases List.mem_cons.mp hm with e | hm
    · cases e
      exact .inl h
    · exact .inr (lacksVars_mem hm h)

theorem lacksList_mem {c : Cls} {ws : List (Str × Val)} (h : lacksVars c ws = true) : ∀ {xs : List Val}, .obj c ws ∈ xs → lacksList xs = true
  | x :: xs, hm => by
    rcases List.mem_cons.mp hm with e | hm
    · cases e
      simp [lacksList, h]
    · have := lacksList_mem h hm
      cases x <;> simp [lacksList, this]

theorem lacks_of_incomplete {x : Val} (h : Incomplete x) : x.lacks = true := by
  induction h with
  | here h1 h2 h3 =>
    rw [Val.lacks]
    exact lacksVars_mem h1 (.inl (List.any_eq_true.mpr ⟨_, h2, by simpa using h3⟩))
  | @inside c vs n v x h1 h2 h3 ih =>
    rw [Val.lacks]
    refine lacksVars_mem h1 (.inr ?_)
    cases v with
    | list xs =>
      rw [Val.lacks]
      cases h3 with
      | here _ _ _ => exact lacksList_mem (by rwa [Val.lacks] at ih) h2
      | inside _ _ _ => exact lacksList_mem (by rwa [Val.lacks] at ih) h2
    | none => cases h2
    | _ =>
      cases List.mem_singleton.mp h2
      exact ih

-- a document in which something is missing at some depth, and one in which nothing is
example : ∃ t, (XmlSelf.fromString (oneDoc t).lib {} []).1 = .ok opmPart ∧ Incomplete opmPart :=
  ⟨match toDoc opmPart with | .ok t => t | .error _ => .node [] [] [] [], by decide +kernel, C71_refuted_kvn.1⟩

example : (∃ t, (XmlSelf.fromString (oneDoc t).lib {} []).1 = .ok (mkOpm [])) ∧ ¬ Incomplete (mkOpm []) :=
  ⟨⟨match toDoc (mkOpm []) with | .ok t => t | .error _ => .node [] [] [] [], by decide +kernel⟩,
    fun h => absurd (lacks_of_incomplete h) (by decide +kernel)⟩

-- a combined message with an empty OMM in it
example : richNdm.tag = py "ndm" ∧ (oneDoc richNdm).read [] = some richNdm ∧ ∃ o, (XmlSelf.fromString (oneDoc richNdm).lib {} []).1 = .ok o ∧
    o.lacks = true :=
  ⟨rfl, rfl, (Combined.mk (S (py "7")) (.list []) [] [] [] [] [(Cls.default .Omm).vars] [richOpm.vars, richOpm.vars] [] []).typed,
    by decide +kernel, by decide +kernel⟩

end Ndm
