import Verif.Lemmas.WriteRt
import Verif.SpecRead

/-! Binding the keyword lines of a well-formed object gives back its keyword attributes. -/

namespace Ndm

/-- The leaf element made from a line. -/
def leafOf : Line → XLeaf
  | [k, v, u] => ⟨k, [(py "units", u)], v⟩
  | [k, v] => ⟨k, [], v⟩
  | _ => ⟨[], [], []⟩

theorem schema_quantity : (Cls.all.all fun c => match c.attrs with
    | [fv, fu] => fv.name != py "value" || fu.name != py "units" ||
        (decide (fv.kind = .text) && decide (fu.kind = .attr) && fu.xmlName == py "units")
    | _ => true) = true := by decide +kernel

theorem xmlCheck_ok {s : Str} (h : ∀ c ∈ s, xmlChar c = true) : xmlCheck s = .ok () := by
  have : xmlText s = true := List.all_eq_true.mpr h
  simp [xmlCheck, this]

theorem num_xml {s : Str} (h : ∀ c ∈ s, NumC c) : ∀ c ∈ s, xmlChar c = true := by
  intro c hc
  have hn := h c hc
  rcases hn with ⟨h1, h2⟩ | hn | hn
  · simp only [xmlChar, Bool.or_eq_true, Bool.and_eq_true, decide_eq_true_eq, beq_iff_eq, bne_iff_ne, ne_eq]
    right
    refine ⟨⟨by omega, ?_⟩, ?_⟩ <;> omega
  · exact (by decide : ∀ c ∈ ['.', 'E', '+', '-'], xmlChar c = true) c hn
  · exact (by decide : ∀ c ∈ ['I', 'n', 'f', 'i', 't', 'y', 'N', 'a', 's'], xmlChar c = true) c hn

theorem isEmpty_false {s : Str} (h : s ≠ []) : s.isEmpty = false := by
  cases s with
  | nil => exact absurd rfl h
  | cons a b => rfl

theorem parseInt_ne {s : Str} {i : Int} (h : parseInt s = some i) : s ≠ [] := by
  rintro rfl
  exact absurd h (by simp [show parseInt [] = none from by decide])

theorem dec_parse_ne {s : Str} {d : Dec} (h : Dec.parse s = some d) : s ≠ [] := by
  rintro rfl
  exact absurd h (by simp [show Dec.parse [] = none from by decide])

/-- What is written for a value states it. -/
theorem KeyVal.text {f : Field} {v : Val} {l : Line} (h : KeyVal f v l) : KeyText f v l := by
  cases h with
  | str hc ht hp => exact .str hc ht hp.xml
  | int hi => exact .int hi (parseInt_intStr _) (num_xml (intStr_num _))
  | dec hd => exact .dec hd (dec_parse_toStr _) (num_xml (dec_toStr_num _))
  | enum hc hm hs => exact .enum hc hm hs
  | number hc hq => exact .number hc hq (dec_parse_toStr _) (num_xml (dec_toStr_num _))
  | quantity hc hq hm hs => exact .quantity hc hq (dec_parse_toStr _) (num_xml (dec_toStr_num _)) hm hs

theorem KeysOf.mono {R R' : Field → Val → Line → Prop} (hR : ∀ f v l, R f v l → R' f v l) {fs : List Field}
    {vs : List (Str × Val)} {ls : List Line} (h : KeysOf R fs vs ls) : KeysOf R' fs vs ls := by
  induction h with
  | nil => exact .nil
  | absent hl _ ih => exact .absent hl ih
  | value hl hv _ ih => exact .value hl (hR _ _ _ hv) ih
  | comments hl hn ht _ ih => exact .comments hl hn ht ih

theorem KeysOf.text {fs : List Field} {vs : List (Str × Val)} {ls : List Line} (h : KeysOf KeyVal fs vs ls) :
    KeysOf KeyText fs vs ls := h.mono fun _ _ _ h => h.text

/-- A keyword line is bound to the value it states. -/
theorem bind_key {f : Field} {v : Val} {l : Line} (h : KeyText f v l) : bindLeaf f (leafOf l) = v := by
  cases h with
  | @str s hc ht hx =>
    by_cases hs : s = []
    · subst hs
      unfold bindLeaf leafOf
      split
      · rename_i d hd
        cases hm : d.members with
        | none => exact absurd hm (hc d hd)
        | some ms => rfl
      · rfl
    · have hconv : convText f.ty s = .str s := by
        cases hty : f.ty with
        | str => rfl
        | int =>
          rw [hty] at ht
          cases ht with
          | intText _ h => simp [convText, h]
        | dec =>
          rw [hty] at ht
          cases ht with
          | decText _ h => simp [convText, h]
        | cls d =>
          rw [hty] at ht
          cases ht with
          | @enumText _ ms _ hm hno =>
            simp only [convText, hm, convEnum]
            rw [if_neg]
            intro hany
            rw [List.any_eq_true] at hany
            obtain ⟨⟨m, s'⟩, hmem, heq⟩ := hany
            simp at heq
            exact hno ⟨m, heq ▸ hmem⟩
      unfold bindLeaf leafOf
      simp only [isEmpty_false hs, Bool.false_eq_true, if_false, hconv]
      split
      · rename_i d hd
        cases hm : d.members with
        | none => exact absurd hm (hc d hd)
        | some ms => rfl
      · exact hconv
  | @int i s hi hp =>
    simp [bindLeaf, leafOf, hi, isEmpty_false (parseInt_ne hp), convText, hp]
  | @dec d s hd hp =>
    simp [bindLeaf, leafOf, hd, isEmpty_false (dec_parse_ne hp), convText, hp]
  | @enum c ms m s hc hm hs =>
    have ht := enumText hm hs
    have hany : (ms.any fun p => p.2 == s) = true := List.any_eq_true.mpr ⟨_, hs, by simp⟩
    simp [bindLeaf, leafOf, hc, hm, isEmpty_false ht.ne, convText, convEnum, hany]
  | @number c u d s hc hq hp hx =>
    obtain ⟨fv, fu, hm, ha, hv, hvt, hu, hut⟩ := hq
    have hs := all_classes schema_quantity c
    rw [ha] at hs
    simp only [hv, hu, bne_self_eq_false, Bool.or_self, Bool.false_or, Bool.and_eq_true, decide_eq_true_eq,
      beq_iff_eq] at hs
    obtain ⟨⟨k1, k2⟩, k3⟩ := hs
    have ha' : c.fields.filter (·.init) = [fv, fu] := ha
    simp [bindLeaf, leafOf, hc, hm, bindLeafClass, ha', hv, hu, k1, k2, bindText, bindAttr, attrLookup,
      isEmpty_false (dec_parse_ne hp), hvt, convText, hp]
  | @quantity c u d t ms m s hc hq hp hx hms hs' =>
    obtain ⟨fv, fu, hm, ha, hv, hvt, hu, hut⟩ := hq
    have hs := all_classes schema_quantity c
    rw [ha] at hs
    simp only [hv, hu, bne_self_eq_false, Bool.or_self, Bool.false_or, Bool.and_eq_true, decide_eq_true_eq,
      beq_iff_eq] at hs
    obtain ⟨⟨k1, k2⟩, k3⟩ := hs
    have ha' : c.fields.filter (·.init) = [fv, fu] := ha
    have hany : (ms.any fun p => p.2 == s) = true := List.any_eq_true.mpr ⟨_, hs', by simp⟩
    simp [bindLeaf, leafOf, hc, hm, bindLeafClass, ha', hv, hu, k1, k2, k3, bindText, bindAttr, attrLookup,
      isEmpty_false (dec_parse_ne hp), hvt, convText, hp, hut, hms, convEnum, hany]

/-- The tag of a keyword line. -/
theorem keyVal_tag {f : Field} {v : Val} {l : Line} (h : KeyText f v l) : (leafOf l).tag = upper f.name ∧
    l.key = upper f.name := by
  cases h <;> exact ⟨rfl, rfl⟩

theorem xmlify_key {f : Field} {v : Val} {l : Line} (hf : KeyField f) (h : KeyText f v l) :
    xmlifyItem l = .ok (leafOf l) := by
  have two : ∀ s : Str, (∀ c ∈ s, xmlChar c = true) → xmlifyItem [upper f.name, s] = .ok (leafOf [upper f.name, s]) := by
    intro s hs
    simp only [xmlifyItem, pyGet, List.getElem?_cons_zero, List.getElem?_cons_succ, bind, Except.bind, tagCheck, hf.tag,
      if_true, unitAttrs, xmlCheck_ok hs]
    rfl
  cases h with
  | str _ _ hx => exact two _ hx
  | int _ _ hx => exact two _ hx
  | dec _ _ hx => exact two _ hx
  | enum _ hm hs => exact two _ (enumText hm hs).xml
  | number _ _ _ hx => exact two _ hx
  | @quantity c u d t ms m s hc hq hp hx hms hs =>
    simp only [xmlifyItem, pyGet, List.getElem?_cons_zero, List.getElem?_cons_succ, bind, Except.bind, tagCheck, hf.tag,
      if_true, unitAttrs, xmlCheck_ok (enumText hms hs).xml, xmlCheck_ok hx]
    rfl

theorem xmlify_comment {t : Str} (h : PlainComment t) :
    xmlifyItem [py "COMMENT", t] = .ok (leafOf [py "COMMENT", t]) := by
  have ht : xmlTag (py "COMMENT") = true := by decide
  simp only [xmlifyItem, pyGet, List.getElem?_cons_zero, List.getElem?_cons_succ, bind, Except.bind, tagCheck, ht,
    if_true, unitAttrs, xmlCheck_ok h.xml]
  rfl

theorem mapM_ok_of {α β : Type} {f : α → Except PyErr β} {g : α → β} : ∀ {l : List α}, (∀ a ∈ l, f a = .ok (g a)) →
    l.mapM f = .ok (l.map g)
  | [], _ => rfl
  | a :: l, h => by
    rw [List.mapM_cons, h a (by simp), mapM_ok_of (fun b hb => h b (by simp [hb]))]
    rfl

theorem goodKeys_xmlify {fs : List Field} {vs : List (Str × Val)} {ls : List Line} (hfs : ∀ f ∈ fs, KeyField f)
    (h : KeysOf KeyText fs vs ls) : ∀ l ∈ ls, xmlifyItem l = .ok (leafOf l) := by
  induction h with
  | nil => simp
  | absent _ _ ih => exact ih (fun g hg => hfs g (by simp [hg]))
  | @value f fs v vs l ls _ hv _ ih =>
    intro m hm
    rcases List.mem_cons.mp hm with rfl | hm
    · exact xmlify_key (hfs f (by simp)) hv
    · exact ih (fun g hg => hfs g (by simp [hg])) m hm
  | @comments f fs texts vs ls _ _ ht _ ih =>
    intro m hm
    rcases List.mem_append.mp hm with hm | hm
    · obtain ⟨t, htm, rfl⟩ := List.mem_map.mp hm
      exact xmlify_comment (ht t htm)
    · exact ih (fun g hg => hfs g (by simp [hg])) m hm

theorem upper_comment {f : Field} (h : f.name = py "comment") : upper f.name = py "COMMENT" := by
  rw [h]; decide

/-- The keys of the lines are keywords of the attributes. -/
theorem goodKeys_key {fs : List Field} {vs : List (Str × Val)} {ls : List Line}
    (h : KeysOf KeyText fs vs ls) : ∀ l ∈ ls, l.key ∈ fs.map (fun f => upper f.name) ∧ (leafOf l).tag = l.key := by
  induction h with
  | nil => simp
  | absent _ _ ih => exact fun l hl => ⟨by simp [(ih l hl).1], (ih l hl).2⟩
  | @value f fs v vs l ls _ hv _ ih =>
    intro m hm
    rcases List.mem_cons.mp hm with rfl | hm
    · have := keyVal_tag hv
      exact ⟨by simp [this.2], by rw [this.1, this.2]⟩
    · exact ⟨by simp [(ih m hm).1], (ih m hm).2⟩
  | @comments f fs texts vs ls _ hn _ _ ih =>
    intro m hm
    rcases List.mem_append.mp hm with hm | hm
    · obtain ⟨t, htm, rfl⟩ := List.mem_map.mp hm
      exact ⟨by simp [upper_comment hn, Line.key], rfl⟩
    · exact ⟨by simp [(ih m hm).1], (ih m hm).2⟩

theorem find_elem {c : Cls} (ho : (c.attrs.map (·.xmlName)).Nodup) (he : c.elemFields = c.attrs) {f : Field}
    (hf : f ∈ c.attrs) : c.findElem f.xmlName = some f := by
  unfold Cls.findElem
  rw [he]
  revert hf ho
  generalize c.attrs = fs
  intro ho hf
  induction fs with
  | nil => simp at hf
  | cons g fs ih =>
    rw [List.map_cons, List.nodup_cons] at ho
    rcases List.mem_cons.mp hf with rfl | hf
    · simp
    · rw [List.find?_cons_of_neg, ih ho.2 hf]
      intro heq
      simp at heq
      exact ho.1 (heq ▸ List.mem_map_of_mem hf)

theorem check_keys {c : Cls} (ho : (c.attrs.map (·.xmlName)).Nodup) (he : c.elemFields = c.attrs)
    {fs : List Field} {vs : List (Str × Val)} {ls : List Line} (hfs : ∀ f ∈ fs, KeyField f) (hc : ∀ f ∈ fs, f ∈ c.attrs)
    (hn : (fs.map fun f => upper f.name).Nodup) (h : KeysOf KeyText fs vs ls) (tail : List XLeaf) :
    ∀ seen, (∀ f ∈ fs, f.isList = false → upper f.name ∉ seen) →
    (∀ seen', (∀ t ∈ seen', t ∈ seen ∨ t ∈ fs.map (fun f => upper f.name)) → checkChildren c seen' tail = .ok ()) →
    checkChildren c seen (ls.map leafOf ++ tail) = .ok () := by
  induction h with
  | nil => intro seen _ htail; exact htail seen (fun t ht => Or.inl ht)
  | @absent f fs vs ls hl hk ih =>
    intro seen hs htail
    rw [List.map_cons, List.nodup_cons] at hn
    exact ih (fun g hg => hfs g (by simp [hg])) (fun g hg => hc g (by simp [hg])) hn.2 seen
      (fun g hg => hs g (by simp [hg])) (fun seen' hse => htail seen' (fun t ht => (hse t ht).imp id (by simp; tauto)))
  | @value f fs v vs l ls hl hv hk ih =>
    intro seen hs htail
    rw [List.map_cons, List.nodup_cons] at hn
    have hf := hfs f (by simp)
    simp only [List.map_cons, List.cons_append, checkChildren]
    rw [(keyVal_tag hv).1, ← hf.xmlName, find_elem ho he (hc f (by simp))]
    simp only [hl, Bool.not_false, Bool.true_and]
    rw [if_neg (by simpa [hf.xmlName] using hs f (by simp) hl)]
    refine ih (fun g hg => hfs g (by simp [hg])) (fun g hg => hc g (by simp [hg])) hn.2 _ ?_ ?_
    · intro g hg hgl hmem
      rcases List.mem_cons.mp hmem with hmem | hmem
      · apply hn.1
        rw [hf.xmlName] at hmem
        rw [← hmem]
        exact List.mem_map_of_mem (f := fun f => upper f.name) hg
      · exact hs g (by simp [hg]) hgl hmem
    · intro seen' hse
      refine htail seen' (fun t ht => ?_)
      rcases hse t ht with h | h
      · rcases List.mem_cons.mp h with h | h
        · right; rw [h, hf.xmlName]; simp
        · exact Or.inl h
      · right; rw [List.map_cons]; exact List.mem_cons_of_mem _ h
  | @comments f fs texts vs ls hl hname ht hk ih =>
    intro seen hs htail
    rw [List.map_cons, List.nodup_cons] at hn
    have hf := hfs f (by simp)
    have hup := upper_comment hname
    have key : ∀ (ts : List Str) (seen : List Str), (∀ f' ∈ f :: fs, f'.isList = false → upper f'.name ∉ seen) →
        (∀ seen', (∀ t ∈ seen', t ∈ seen ∨ t ∈ (f :: fs).map (fun f => upper f.name)) → checkChildren c seen' tail = .ok ()) →
        checkChildren c seen ((ts.map fun t => [py "COMMENT", t]).map leafOf ++ (ls.map leafOf ++ tail)) = .ok () := by
      intro ts
      induction ts with
      | nil =>
        intro seen hs htail
        exact ih (fun g hg => hfs g (by simp [hg])) (fun g hg => hc g (by simp [hg])) hn.2 seen
          (fun g hg => hs g (by simp [hg])) (fun seen' hse => htail seen' (fun t ht => (hse t ht).imp id (by simp; tauto)))
      | cons t ts iht =>
        intro seen hs htail
        have hfind : c.findElem (leafOf [py "COMMENT", t]).tag = some f := by
          have : (leafOf [py "COMMENT", t]).tag = f.xmlName := by rw [hf.xmlName, hup]; rfl
          rw [this]; exact find_elem ho he (hc f (by simp))
        simp only [List.map_cons, List.cons_append, checkChildren, hfind, hl, Bool.not_true, Bool.false_and,
          Bool.false_eq_true, if_false]
        refine iht _ ?_ ?_
        · intro g hg hgl hmem
          rcases List.mem_cons.mp hmem with hmem | hmem
          · have hgt : upper g.name = upper f.name := by rw [hmem, hup]; rfl
            rcases List.mem_cons.mp hg with rfl | hg
            · rw [hl] at hgl; cases hgl
            · apply hn.1
              rw [← hgt]
              exact List.mem_map_of_mem (f := fun f => upper f.name) hg
          · exact hs g hg hgl hmem
        · intro seen' hse
          refine htail seen' (fun t' ht' => ?_)
          rcases hse t' ht' with h | h
          · rcases List.mem_cons.mp h with h | h
            · right; rw [h, List.map_cons, hup]; exact List.mem_cons_self
            · exact Or.inl h
          · exact Or.inr h
    have := key texts seen hs htail
    rwa [List.map_append, List.append_assoc]

/-- The children of a field among the leaves of the keyword lines. -/
theorem bind_keys {fs : List Field} {vs : List (Str × Val)} {ls : List Line} (hfs : ∀ f ∈ fs, KeyField f)
    (hn : (fs.map fun f => upper f.name).Nodup) (h : KeysOf KeyText fs vs ls) : ∀ (pre post : List XLeaf) (tag : Str)
    (attrs : List (Str × Str)) (text : Str), (∀ x ∈ pre, x.tag ∉ fs.map fun f => upper f.name) →
    (∀ x ∈ post, x.tag ∉ fs.map fun f => upper f.name) →
    fs.map (fun f => (f.name, bindField ⟨tag, attrs, text, pre ++ ls.map leafOf ++ post⟩ f)) = vs := by
  have nofilter : ∀ (xs : List XLeaf) (k : Str), (∀ x ∈ xs, x.tag ≠ k) → xs.filter (·.tag == k) = [] := by
    intro xs k hx
    rw [List.filter_eq_nil_iff]
    intro x hxx; simpa using hx x hxx
  have later : ∀ {fs : List Field} {vs : List (Str × Val)} {ls : List Line}, KeysOf KeyText fs vs ls → ∀ k,
      k ∉ fs.map (fun f => upper f.name) → (ls.map leafOf).filter (·.tag == k) = [] := by
    intro fs vs ls h k hk
    apply nofilter
    intro x hx
    obtain ⟨l, hl, rfl⟩ := List.mem_map.mp hx
    obtain ⟨h1, h2⟩ := goodKeys_key h l hl
    rw [h2]
    rintro rfl
    exact hk h1
  induction h with
  | nil => intros; rfl
  | @absent f fs vs ls hl hk ih =>
    intro pre post tag attrs text hpre hpost
    rw [List.map_cons, List.nodup_cons] at hn
    have hf := hfs f (by simp)
    rw [List.map_cons, ih (fun g hg => hfs g (by simp [hg])) hn.2 pre post tag attrs text
      (fun x hx hm => hpre x hx (by rw [List.map_cons]; exact List.mem_cons_of_mem _ hm))
      (fun x hx hm => hpost x hx (by rw [List.map_cons]; exact List.mem_cons_of_mem _ hm))]
    congr 2
    unfold bindField
    rw [hf.kind]
    simp only [hl, hf.xmlName, Bool.false_eq_true, if_false, List.filter_append]
    rw [nofilter pre _ (fun x hx he => hpre x hx (by rw [he]; simp)), later hk _ hn.1,
      nofilter post _ (fun x hx he => hpost x hx (by rw [he]; simp))]
    rfl
  | @value f fs v vs l ls hl hv hk ih =>
    intro pre post tag attrs text hpre hpost
    rw [List.map_cons, List.nodup_cons] at hn
    have hf := hfs f (by simp)
    have e : pre ++ (l :: ls).map leafOf ++ post = (pre ++ [leafOf l]) ++ ls.map leafOf ++ post := by simp
    rw [e, List.map_cons, ih (fun g hg => hfs g (by simp [hg])) hn.2 (pre ++ [leafOf l]) post tag attrs text ?_
      (fun x hx hm => hpost x hx (by rw [List.map_cons]; exact List.mem_cons_of_mem _ hm))]
    · congr 2
      unfold bindField
      rw [hf.kind]
      simp only [hl, hf.xmlName, Bool.false_eq_true, if_false, List.filter_append]
      rw [nofilter pre _ (fun x hx he => hpre x hx (by rw [he]; simp)), later hk _ hn.1,
        nofilter post _ (fun x hx he => hpost x hx (by rw [he]; simp))]
      have : ([leafOf l].filter fun x => x.tag == upper f.name) = [leafOf l] := by simp [(keyVal_tag hv).1]
      rw [this]
      exact bind_key hv
    · intro x hx hm
      rcases List.mem_append.mp hx with hx | hx
      · exact hpre x hx (by rw [List.map_cons]; exact List.mem_cons_of_mem _ hm)
      · simp at hx
        subst hx
        rw [(keyVal_tag hv).1] at hm
        exact hn.1 hm
  | @comments f fs texts vs ls hl hname ht hk ih =>
    intro pre post tag attrs text hpre hpost
    rw [List.map_cons, List.nodup_cons] at hn
    have hf := hfs f (by simp)
    have hup := upper_comment hname
    set cs := (texts.map fun t => [py "COMMENT", t]).map leafOf with hcs
    have hct : ∀ x ∈ cs, x.tag = upper f.name := by
      intro x hx
      rw [hcs, List.map_map] at hx
      obtain ⟨t, -, rfl⟩ := List.mem_map.mp hx
      rw [hup]; rfl
    have e : pre ++ ((texts.map fun t => [py "COMMENT", t]) ++ ls).map leafOf ++ post =
        (pre ++ cs) ++ ls.map leafOf ++ post := by simp [hcs]
    rw [e, List.map_cons, ih (fun g hg => hfs g (by simp [hg])) hn.2 (pre ++ cs) post tag attrs text ?_
      (fun x hx hm => hpost x hx (by rw [List.map_cons]; exact List.mem_cons_of_mem _ hm))]
    · congr 2
      unfold bindField
      rw [hf.kind]
      simp only [hl, hf.xmlName, if_true, List.filter_append]
      rw [nofilter pre _ (fun x hx he => hpre x hx (by rw [he]; simp)), later hk _ hn.1,
        nofilter post _ (fun x hx he => hpost x hx (by rw [he]; simp))]
      rw [List.filter_eq_self.mpr (fun x hx => by simpa using hct x hx)]
      simp only [List.nil_append, List.append_nil, hcs, List.map_map]
      congr 1
      apply List.map_congr_left
      intro t _
      have hty := (hf.list hl).2
      cases t with
      | nil => simp [bindLeaf, hty, leafOf]
      | cons a b => simp [bindLeaf, hty, leafOf, convText]
    · intro x hx hm
      rcases List.mem_append.mp hx with hx | hx
      · exact hpre x hx (by rw [List.map_cons]; exact List.mem_cons_of_mem _ hm)
      · rw [hct x hx] at hm
        exact hn.1 hm

/-- The default value of a field. -/
def Field.initial (f : Field) : Val := if f.isList then .list [] else .none

/-- Binding the document of an ordinary object's keyword lines. -/
theorem bind_own {c : Cls} (ho : Bindable c) {kvs : List (Str × Val)} {own : List Line}
    (h : KeysOf KeyText c.keyAttrs kvs own) (name : Str) :
    ∃ doc, xmlifyList name own none = .ok doc ∧
      bindDoc c doc = .ok (.obj c (kvs ++ c.blockAttrs.map fun f => (f.name, f.initial))) := by
  have hk := keyed ho.members ho.value ho.user
  have hkeyIn : ∀ f ∈ c.keyAttrs, f ∈ c.attrs := fun f hf => List.mem_of_mem_filter hf
  refine ⟨⟨name, [], [], own.map leafOf⟩, ?_, ?_⟩
  · unfold xmlifyList
    have : xmlifyChild none = xmlifyItem := rfl
    rw [this, mapM_ok_of (goodKeys_xmlify hk.field h)]
    rfl
  · unfold bindDoc
    have hcheck : checkChildren c [] (own.map leafOf) = .ok () := by
      have := check_keys ho.tags ho.elems hk.field hkeyIn hk.nodup h [] [] (by simp) (by intros; rfl)
      simpa using this
    have hattrs : c.fields.filter (·.init) = c.keyAttrs ++ c.blockAttrs := ho.order
    simp only [hcheck, bind, Except.bind, pure, Except.pure]
    rw [hattrs, List.map_append]
    have h1 := bind_keys hk.field hk.nodup h [] [] name [] [] (by simp) (by simp)
    simp only [List.nil_append, List.append_nil] at h1
    rw [h1]
    congr 3
    apply List.map_congr_left
    intro f hf
    have hfa : f ∈ c.attrs := List.mem_of_mem_filter hf
    have hnone : (own.map leafOf).filter (·.tag == f.xmlName) = [] := by
      rw [List.filter_eq_nil_iff]
      intro x hx
      obtain ⟨l, hl, rfl⟩ := List.mem_map.mp hx
      obtain ⟨k1, k2⟩ := goodKeys_key h l hl
      rw [k2]
      intro heq
      simp at heq
      obtain ⟨g, hg, hge⟩ := List.mem_map.mp k1
      have hgx : g.xmlName = f.xmlName := by rw [(hk.field g hg).xmlName, hge, heq]
      have hgf : g = f := by
        have htags := ho.tags
        exact List.inj_on_of_nodup_map htags (hkeyIn g hg) hfa hgx
      subst hgf
      have a := (List.mem_filter.mp hg).2
      have b := (List.mem_filter.mp hf).2
      rw [b] at a
      cases a
    unfold bindField Field.initial
    rw [(ho.attr f hfa).1]
    simp only [hnone]
    split <;> rfl

/-! ### The order of the lines of a section -/

theorem Reordered.refl (a : List Line) : Reordered a a := fun _ => rfl

theorem Reordered.symm {a b : List Line} (h : Reordered a b) : Reordered b a := fun t => (h t).symm

theorem Reordered.mem {a b : List Line} (h : Reordered a b) {l : Line} : l ∈ a ↔ l ∈ b := by
  have := h l.key
  constructor
  · intro hl
    have : l ∈ b.filter (·.key == l.key) := by rw [← this]; simp [hl]
    exact List.mem_of_mem_filter this
  · intro hl
    have : l ∈ a.filter (·.key == l.key) := by rw [this]; simp [hl]
    exact List.mem_of_mem_filter this

theorem Reordered.nil_iff {a b : List Line} (h : Reordered a b) : a = [] ↔ b = [] := by
  simp only [List.eq_nil_iff_forall_not_mem, h.mem]

theorem Reordered.perm {a b : List Line} (h : Reordered a b) : a.Perm b := by
  rw [List.perm_iff_count]
  intro l
  have key : ∀ ls : List Line, ls.count l = (ls.filter (·.key == l.key)).count l := by
    intro ls
    rw [List.count_filter (by simp)]
  rw [key a, key b, h]

/-- When the children of a document are accepted. -/
theorem checkChildren_ok {c : Cls} : ∀ {xs : List XLeaf} {seen : List Str},
    checkChildren c seen xs = .ok () ↔ ∀ x ∈ xs, ∃ f, c.findElem x.tag = some f ∧
      (f.isList = true ∨ x.tag ∉ seen ∧ (xs.filter (·.tag == x.tag)).length = 1)
  | [], seen => by simp [checkChildren]
  | x :: xs, seen => by
    unfold checkChildren
    cases hf : c.findElem x.tag with
    | none =>
      simp only [reduceCtorEq, false_iff]
      intro h
      obtain ⟨f, h1, -⟩ := h x (by simp)
      rw [hf] at h1
      cases h1
    | some f =>
      simp only
      by_cases hseen : (!f.isList && seen.contains x.tag) = true
      · rw [if_pos hseen]
        simp only [reduceCtorEq, false_iff]
        intro h
        obtain ⟨g, h1, h2⟩ := h x (by simp)
        rw [hf] at h1
        cases h1
        simp only [Bool.and_eq_true, Bool.not_eq_true', List.contains_iff_mem] at hseen
        rcases h2 with h2 | h2
        · rw [hseen.1] at h2; cases h2
        · exact h2.1 hseen.2
      · rw [if_neg hseen, checkChildren_ok]
        have hseen' : f.isList = true ∨ x.tag ∉ seen := by
          cases hl : f.isList with
          | true => exact .inl rfl
          | false => simp only [hl, Bool.not_false, Bool.true_and, List.contains_iff_mem] at hseen; exact .inr hseen
        constructor
        · intro h y hy
          rcases List.mem_cons.mp hy with rfl | hy
          · refine ⟨f, hf, ?_⟩
            cases hl : f.isList with
            | true => exact .inl rfl
            | false =>
            refine .inr ⟨hseen'.resolve_left (by simp [hl]), ?_⟩
            by_cases hin : ∃ z ∈ xs, z.tag = y.tag
            · obtain ⟨z, hz, hzy⟩ := hin
              obtain ⟨g, h1, h2⟩ := h z hz
              rw [hzy, hf] at h1
              cases h1
              rcases h2 with h2 | h2
              · rw [hl] at h2; cases h2
              · exact absurd (by rw [hzy]; simp) h2.1
            · rw [List.filter_cons_of_pos (by simp), List.length_cons]
              have : xs.filter (·.tag == y.tag) = [] := by
                rw [List.filter_eq_nil_iff]
                intro z hz hzy
                exact hin ⟨z, hz, by simpa using hzy⟩
              rw [this]; rfl
          · obtain ⟨g, h1, h2⟩ := h y hy
            refine ⟨g, h1, h2.imp_right fun h2 => ?_⟩
            have hne : y.tag ≠ x.tag := fun he => h2.1 (by rw [he]; simp)
            refine ⟨fun hs => h2.1 (by simp [hs]), ?_⟩
            rw [List.filter_cons_of_neg (by simpa using fun h => hne h.symm)]
            exact h2.2
        · intro h y hy
          obtain ⟨g, h1, h2⟩ := h y (by simp [hy])
          refine ⟨g, h1, h2.imp_right fun h2 => ?_⟩
          have hne : y.tag ≠ x.tag := by
            intro he
            have h2' := h2.2
            rw [List.filter_cons_of_pos (by simp [he]), List.length_cons] at h2'
            have hm : y ∈ xs.filter (·.tag == y.tag) := by simp [hy]
            have := List.length_pos_of_mem hm
            omega
          refine ⟨by simp [hne, h2.1], ?_⟩
          have h2' := h2.2
          rwa [List.filter_cons_of_neg (by simpa using fun h => hne h.symm)] at h2'

/-- Binding depends only on the children of each tag. -/
theorem bindDoc_reorder {c : Cls} {n : Str} {as : List (Str × Str)} {t : Str} {xs ys : List XLeaf}
    (h : ∀ t : Str, xs.filter (·.tag == t) = ys.filter (·.tag == t)) {v : Val} (hv : bindDoc c ⟨n, as, t, xs⟩ = .ok v) :
    bindDoc c ⟨n, as, t, ys⟩ = .ok v := by
  unfold bindDoc at hv ⊢
  obtain ⟨u, hu, hv⟩ := bind_ok_iff.mp hv
  have hys : checkChildren c [] ys = .ok () := by
    cases u
    simp only at hu
    rw [checkChildren_ok] at hu ⊢
    intro y hy
    have hyx : y ∈ xs := by
      have : y ∈ xs.filter (·.tag == y.tag) := by rw [h]; simp [hy]
      exact List.mem_of_mem_filter this
    rw [← h y.tag]
    exact hu y hyx
  simp only [hys, bind, Except.bind, pure, Except.pure] at hv ⊢
  rw [← hv]
  congr 2
  apply List.map_congr_left
  intro f _
  unfold bindField
  simp only [h]

/-- `bind_own` with the lines in another order. -/
theorem bind_own_any {c : Cls} (ho : Bindable c) {kvs : List (Str × Val)} {own own' : List Line}
    (h : KeysOf KeyText c.keyAttrs kvs own) (hr : Reordered own own') (name : Str) :
    ∃ doc, xmlifyList name own' none = .ok doc ∧
      bindDoc c doc = .ok (.obj c (kvs ++ c.blockAttrs.map fun f => (f.name, f.initial))) := by
  have hk := keyed ho.members ho.value ho.user
  obtain ⟨doc, h1, h2⟩ := bind_own ho h name
  have hdoc : ∀ ls : List Line, (∀ l ∈ ls, xmlifyItem l = .ok (leafOf l)) →
      xmlifyList name ls none = .ok ⟨name, [], [], ls.map leafOf⟩ := by
    intro ls hls
    unfold xmlifyList
    have : xmlifyChild none = xmlifyItem := rfl
    rw [this, mapM_ok_of hls]
    rfl
  have hown := goodKeys_xmlify hk.field h
  rw [hdoc own hown] at h1
  cases h1
  refine ⟨_, hdoc own' (fun l hl => hown l (hr.mem.mpr hl)), bindDoc_reorder (fun t => ?_) h2⟩
  have key : ∀ ls : List Line, (∀ l ∈ ls, (leafOf l).tag = l.key) →
      (ls.map leafOf).filter (·.tag == t) = (ls.filter (·.key == t)).map leafOf := by
    intro ls hls
    rw [List.filter_map]
    congr 1
    apply List.filter_congr
    intro l hl
    simp [Function.comp, hls l hl]
  have htag : ∀ l ∈ own, (leafOf l).tag = l.key := fun l hl => (goodKeys_key h l hl).2
  rw [key own htag, key own' (fun l hl => htag l (hr.mem.mpr hl)), hr t]

end Ndm
