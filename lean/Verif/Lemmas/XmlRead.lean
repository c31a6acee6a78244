import Verif.SpecXmlRead
import Verif.Lemmas.XmlTexts

/-! # What is read from a document, and what is written again -/

namespace Ndm

theorem object?_some {ty : FTy} {c : Cls} (h : ty.object? = some c) : ty = .cls c ∧ c.members = none := by
  cases ty with
  | cls d =>
    unfold FTy.object? at h
    simp only at h
    cases hm : d.members with
    | some ms => rw [hm] at h; cases h
    | none =>
      rw [hm] at h
      cases h
      exact ⟨rfl, hm⟩
  | str => cases h
  | int => cases h
  | dec => cases h

theorem leafVal_type {ty : FTy} (h : ty.object? = none) (s : Str) : HasType ty (leafVal ty s) := by
  have hb : ty.isBlock = false := by rw [object?_isBlock, h]; rfl
  unfold leafVal
  split
  · exact emptyText_type hb
  · exact convText_type hb _

theorem allHaveType_ofMem {ty : FTy} : ∀ {xs : List Val}, (∀ v ∈ xs, HasType ty v) → AllHaveType ty xs
  | [], _ => .nil
  | v :: _, h => .cons (h v List.mem_cons_self) (allHaveType_ofMem fun w hw => h w (List.mem_cons_of_mem _ hw))

/-- The value of a field of an object. -/
def boundField (attrs : List (Str × Str)) (text : Str) (bs : List (Str × Val)) (f : Field) : Val :=
  match f.kind with
  | .attr => bindAttr f attrs
  | .text => bindText f text
  | .elem =>
    if f.isList then .list ((bs.filter (·.1 == f.xmlName)).map (·.2))
    else ((bs.filter (·.1 == f.xmlName)).map (·.2)).headD .none

/-- The two cases of binding an element. -/
theorem bindElem_cases {ty : FTy} {tag text : Str} {attrs : List (Str × Str)} {kids : List XTree} {v : Val}
    (h : bindElem ty (.node tag attrs text kids) = .ok v) :
    (ty.object? = none ∧ kids = [] ∧ v = leafVal ty text) ∨
    ∃ c bs, ty = .cls c ∧ c.members = none ∧ bindKids c [] kids = .ok bs ∧
      v = .obj c (c.attrs.map fun f => (f.name, boundField attrs text bs f)) := by
  rw [bindElem] at h
  cases ho : ty.object? with
  | none =>
    rw [ho] at h
    simp only at h
    split at h
    · next hk =>
      cases h
      exact .inl ⟨rfl, by simpa using hk, rfl⟩
    · cases h
  | some c =>
    rw [ho] at h
    obtain ⟨bs, hb, h⟩ := bind_ok_iff.mp h
    cases h
    obtain ⟨h1, h2⟩ := object?_some ho
    exact .inr ⟨c, bs, h1, h2, hb, rfl⟩

mutual
/-- What is read from an element conforms to its type. -/
theorem bindElem_type : ∀ (t : XTree) {ty : FTy} {v : Val}, bindElem ty t = .ok v → HasType ty v
  | .node tag attrs text kids, ty, v, h => by
    rcases bindElem_cases h with ⟨ho, -, rfl⟩ | ⟨c, bs, rfl, hm, hb, rfl⟩
    · exact leafVal_type ho text
    · refine .obj hm (hasFields_map (fs := c.attrs) fun f hf => ?_)
      have hbs := bindKids_type kids hb
      unfold boundField
      cases hk : f.kind with
      | attr => exact bindAttr_ok (mem_attrs hf) hk _
      | text => exact bindText_ok (mem_attrs hf) hk _
      | elem =>
        have hall : ∀ v ∈ (bs.filter (·.1 == f.xmlName)).map (·.2), HasType f.ty v := by
          intro v hv
          obtain ⟨b, hb, rfl⟩ := List.mem_map.mp hv
          obtain ⟨hb, e⟩ := List.mem_filter.mp hb
          obtain ⟨g, hg, ht⟩ := hbs b hb
          rw [show b.1 = f.xmlName by simpa using e, findElem_attr hf hk] at hg
          cases hg
          exact ht
        simp only
        split
        · next hl => exact .list hl (allHaveType_ofMem hall)
        · next hl =>
          have hl : f.isList = false := by simpa using hl
          cases hx : (bs.filter (·.1 == f.xmlName)).map (·.2) with
          | nil => exact .none hl
          | cons v vs => exact .one hl (hall v (by rw [hx]; exact List.mem_cons_self)) fun h => absurd (hk.symm.trans h) (by decide)

theorem bindKids_type : ∀ (ts : List XTree) {c : Cls} {seen : List Str} {bs : List (Str × Val)}, bindKids c seen ts = .ok bs →
    ∀ b ∈ bs, ∃ f, c.findElem b.1 = some f ∧ HasType f.ty b.2
  | [], c, seen, bs, h => by
    simp only [bindKids, Except.ok.injEq] at h
    subst h
    exact fun b hb => nomatch hb
  | t :: ts, c, seen, bs, h => by
    rw [bindKids] at h
    cases hf : c.findElem t.tag with
    | none => simp only [hf] at h; cases h
    | some f =>
      simp only [hf] at h
      split at h
      · cases h
      · obtain ⟨v, hv, h⟩ := bind_ok_iff.mp h
        obtain ⟨r, hr, h⟩ := bind_ok_iff.mp h
        cases h
        intro b hb
        rcases List.mem_cons.mp hb with rfl | hb
        · exact ⟨f, hf, bindElem_type t hv⟩
        · exact bindKids_type ts hr b hb
end

/-! ## What is kept -/

theorem convText_kept (ty : FTy) (s : Str) : ∃ s', xmlStr (convText ty s) = some s' ∧ SameText s s' ∧
    ∀ tag, toElems tag (convText ty s) = [.node tag [] s' []] := by
  have text : ∃ s', xmlStr (.str s) = some s' ∧ SameText s s' ∧ ∀ tag, toElems tag (.str s) = [.node tag [] s' []] :=
    ⟨s, rfl, .same s, fun _ => rfl⟩
  unfold convText
  split
  · exact text
  · split
    · next i hi => exact ⟨intStr i, rfl, .int hi (parseInt_intStr i), fun _ => rfl⟩
    · exact text
  · split
    · next d hd =>
      refine ⟨d.xmlStr, rfl, .number hd (parse_xmlStr d) ?_, fun _ => rfl⟩
      have := same_plain (.dec d)
      rwa [Val.plain] at this
    · exact text
  · split
    · unfold convEnum
      split
      · exact ⟨s, rfl, .same s, fun _ => rfl⟩
      · exact text
    · exact text

theorem leafVal_kept (ty : FTy) (s : Str) : ∃ s', SameText s s' ∧ ∀ tag, toElems tag (leafVal ty s) = [.node tag [] s' []] := by
  unfold leafVal
  split
  · next h =>
    have : s = [] := by simpa using h
    subst this
    exact ⟨[], .same _, fun _ => rfl⟩
  · obtain ⟨s', -, h1, h2⟩ := convText_kept ty s
    exact ⟨s', h1, h2⟩

mutual
theorem toElems_tag : ∀ (v : Val) {tag : Str}, ∀ t ∈ toElems tag v, t.tag = tag
  | .none, tag, t, h => by rw [toElems] at h; cases h
  | .list xs, tag, t, h => by rw [toElems] at h; exact toList_tag xs t h
  | .obj c vs, tag, t, h => by rw [toElems] at h; cases List.mem_singleton.mp h; rfl
  | .str s, tag, t, h => by rw [toElems] at h; cases List.mem_singleton.mp h; rfl
  | .int i, tag, t, h => by rw [toElems] at h; cases List.mem_singleton.mp h; rfl
  | .dec d, tag, t, h => by rw [toElems] at h; cases List.mem_singleton.mp h; rfl
  | .enum c s, tag, t, h => by rw [toElems] at h; cases List.mem_singleton.mp h; rfl

theorem toList_tag : ∀ (xs : List Val) {tag : Str}, ∀ t ∈ toList tag xs, t.tag = tag
  | [], tag, t, h => by rw [toList] at h; cases h
  | v :: vs, tag, t, h => by
    rw [toList, List.mem_append] at h
    rcases h with h | h
    · exact toElems_tag v t h
    · exact toList_tag vs t h
end

theorem mem_zip_map {g : Field → Str × Val} : ∀ {fs : List Field} {f : Field}, f ∈ fs → (f, g f) ∈ fs.zip (fs.map g)
  | [], _, h => nomatch h
  | a :: fs, f, h => by
    rw [List.map_cons, List.zip_cons_cons]
    rcases List.mem_cons.mp h with rfl | h
    · exact List.mem_cons_self
    · exact List.mem_cons_of_mem _ (mem_zip_map h)

/-- The elements written for a field are those written for the values bound to it. -/
theorem toElems_bound {attrs : List (Str × Str)} {text : Str} {bs : List (Str × Val)} {f : Field} (hk : f.kind = .elem)
    (hl : f.isList = false → (bs.filter (·.1 == f.xmlName)).length ≤ 1) :
    toElems f.xmlName (boundField attrs text bs f) = toList f.xmlName ((bs.filter (·.1 == f.xmlName)).map (·.2)) := by
  unfold boundField
  rw [hk]
  simp only
  split
  · rw [toElems]
  · next h =>
    have hlen := hl (by simpa using h)
    cases hx : bs.filter (·.1 == f.xmlName) with
    | nil => rw [List.map_nil, List.headD_nil, toElems, toList]
    | cons b r =>
      rw [hx] at hlen
      have : r = [] := by
        cases r with
        | nil => rfl
        | cons _ _ => simp at hlen
      subst this
      rw [List.map_cons, List.map_nil, List.headD_cons, toList, toList, List.append_nil]

mutual
/-- What is read from an element is written as an element in which everything is kept. -/
theorem bindElem_kept : ∀ (t : XTree) {ty : FTy} {v : Val}, bindElem ty t = .ok v →
    ∃ t', toElems t.tag v = [t'] ∧ KeptXml ty t t'
  | .node tag attrs text kids, ty, v, h => by
    rcases bindElem_cases h with ⟨ho, rfl, rfl⟩ | ⟨c, bs, rfl, hm, hb, rfl⟩
    · obtain ⟨s', hs, he⟩ := leafVal_kept ty text
      refine ⟨_, he tag, .node (fun _ => hs) ?_ fun t => .nil⟩
      intro n hn
      cases ty with
      | cls c =>
        exfalso
        have hno : ∀ c : Cls, c.members.isSome = true → (c.attrs.filter (·.kind = .attr)) = [] := by
          intro c hc
          have := all_classes (p := fun c => c.members.isNone || (c.attrs.filter (·.kind = .attr)).isEmpty) (by decide +kernel) c
          cases hm : c.members with
          | none => rw [hm] at hc; cases hc
          | some ms => rw [hm] at this; simpa using this
        have : c.members.isSome = true := by
          unfold FTy.object? at ho
          simp only at ho
          cases hm : c.members with
          | none => rw [hm] at ho; cases ho
          | some ms => rfl
        unfold FTy.attrNames at hn
        simp only [hno c this] at hn
        cases hn
      | str => cases hn
      | int => cases hn
      | dec => cases hn
    · obtain ⟨hkb, hdup⟩ := bindKids_inv hb
      have hkids := bindKids_kept kids hb
      have hnod : ((c.attrs.filter (·.kind = .elem)).map (·.xmlName)).Nodup := by
        have h1 : (c.elemFields.map (·.xmlName)).Nodup := by simpa using all_classes schema_elem_names c
        refine h1.sublist (List.Sublist.map _ ?_)
        show ((c.fields.filter (·.init)).filter _).Sublist (c.fields.filter _)
        exact (List.filter_sublist).filter _
      have hobj : (FTy.cls c).object? = some c := by simp [FTy.object?, hm]
      refine ⟨_, by rw [XTree.tag, toElems], .node ?_ ?_ ?_⟩
      · intro ht
        unfold FTy.hasText at ht
        simp only [hm, Option.isSome_none, Bool.false_or, List.any_eq_true, decide_eq_true_eq] at ht
        obtain ⟨f, hf, hk⟩ := ht
        have hsch := all_classes schema_text_fields c
        rw [Bool.and_eq_true] at hsch
        rw [show c.fields.filter (·.init) = c.attrs from rfl, textOf_eq (mem_zip_map hf) hk (by simpa using hsch.1)]
        simp only [boundField, hk, bindText]
        split
        · next h =>
          have : text = [] := by simpa using h
          subst this
          exact .same _
        · obtain ⟨s', h1, h2, -⟩ := convText_kept f.ty text
          rw [h1]
          exact h2
      · intro n hn s hs
        obtain ⟨f, hf, rfl⟩ := List.mem_map.mp hn
        obtain ⟨hf, hk⟩ := List.mem_filter.mp hf
        have hk : f.kind = .attr := by simpa using hk
        have hnoda : ((c.attrs.filter (·.kind = .attr)).map (·.xmlName)).Nodup := by simpa using all_classes schema_attr_names c
        rw [attrLookup_append, attrLookup_none (as := fixedAttrs c) (fixed_names c f hf hk), Option.none_or,
          show c.fields.filter (·.init) = c.attrs from rfl, attrsOf_lookup (mem_zip_map hf) hk hnoda]
        simp only [boundField, hk, bindAttr, hs]
        obtain ⟨s', h1, h2, -⟩ := convText_kept f.ty s
        exact ⟨s', h1, h2⟩
      · intro t
        have htags : ∀ g q, (g, q) ∈ c.attrs.zip (c.attrs.map fun f => (f.name, boundField attrs text bs f)) → g.kind = .elem →
            ∀ t ∈ toElems g.xmlName q.2, t.tag = g.xmlName := fun g q _ _ => toElems_tag q.2
        rw [show c.fields.filter (·.init) = c.attrs from rfl]
        cases hf : c.findElem t with
        | none =>
          have h1 : kids.filter (·.tag == t) = [] := by
            rw [List.filter_eq_nil_iff]
            intro k hk e
            obtain ⟨b, -, -, f, hf', -⟩ := forall₂_left hkb hk
            rw [show k.tag = t by simpa using e, hf] at hf'
            cases hf'
          have h2 : (toKids c.attrs (c.attrs.map fun f => (f.name, boundField attrs text bs f))).filter (·.tag == t) = [] := by
            rw [List.filter_eq_nil_iff]
            intro k hk e
            obtain ⟨g, q, hgq, hg, hin⟩ := toKids_mem hk
            have := toElems_tag q.2 k hin
            rw [← show k.tag = t by simpa using e, this, findElem_attr (List.of_mem_zip hgq).1 hg] at hf
            cases hf
          rw [h1, h2]
          exact .nil
        | some f =>
          obtain ⟨hfa, hk, rfl⟩ := findElem_some hf
          have hch : (FTy.cls c).child f.xmlName = f.ty := by simp [FTy.child, hobj, hf]
          have hfb := forall₂_filter_tag (fun k b h => h.1) hkb f.xmlName
          rw [toKids_filter htags hnod (mem_zip_map hfa) hk, hch]
          simp only
          rw [toElems_bound hk]
          · exact hkids f hf
          · intro hl
            rw [← hfb.length_eq]
            cases hx : kids.filter (·.tag == f.xmlName) with
            | nil => simp
            | cons k r =>
              have hkm : k ∈ kids.filter (·.tag == f.xmlName) := by rw [hx]; exact List.mem_cons_self
              obtain ⟨hkm, e⟩ := List.mem_filter.mp hkm
              have e : k.tag = f.xmlName := by simpa using e
              have := (hdup k hkm f (by rw [e]; exact hf) hl).2
              rw [e, hx] at this
              exact this

theorem bindKids_kept : ∀ (ts : List XTree) {c : Cls} {seen : List Str} {bs : List (Str × Val)}, bindKids c seen ts = .ok bs →
    ∀ f, c.findElem f.xmlName = some f →
      KeptXmls f.ty (ts.filter (·.tag == f.xmlName)) (toList f.xmlName ((bs.filter (·.1 == f.xmlName)).map (·.2)))
  | [], c, seen, bs, h, f, hf => by
    simp only [bindKids, Except.ok.injEq] at h
    subst h
    rw [List.filter_nil, List.filter_nil, List.map_nil, toList]
    exact .nil
  | t :: ts, c, seen, bs, h, f, hf => by
    rw [bindKids] at h
    cases hg : c.findElem t.tag with
    | none => simp only [hg] at h; cases h
    | some g =>
      simp only [hg] at h
      split at h
      · cases h
      · obtain ⟨v, hv, h⟩ := bind_ok_iff.mp h
        obtain ⟨r, hr, h⟩ := bind_ok_iff.mp h
        cases h
        have ih := bindKids_kept ts hr f hf
        by_cases e : t.tag = f.xmlName
        · rw [List.filter_cons_of_pos (by simpa using e), List.filter_cons_of_pos (by simpa using e), List.map_cons, toList]
          rw [e, hf] at hg
          cases hg
          obtain ⟨t', h1, h2⟩ := bindElem_kept t hv
          simp only
          rw [← e, h1, e]
          exact .cons h2 ih
        · rw [List.filter_cons_of_neg (by simpa using e), List.filter_cons_of_neg (by simpa using e)]
          exact ih
end

/-! ## Documents that are refused -/

theorem foreign_refused {ty : FTy} {t : XTree} (h : ForeignXml ty t) : ∀ v, bindElem ty t ≠ .ok v := by
  induction h with
  | @unknown ty c t k ho hk hn =>
    intro v hv
    cases t with
    | node tag attrs text kids =>
      rcases bindElem_cases hv with ⟨h', -, -⟩ | ⟨c', bs, rfl, hm, hb, -⟩
      · rw [ho] at h'; cases h'
      · rw [show (FTy.cls c').object? = some c' by simp [FTy.object?, hm]] at ho
        cases ho
        obtain ⟨b, -, -, f, hf, -⟩ := forall₂_left (bindKids_inv hb).1 hk
        obtain ⟨h1, h2, h3⟩ := findElem_some hf
        exact hn f h1 h2 h3
  | @twice ty c f t ho hf hk hl hlen =>
    intro v hv
    cases t with
    | node tag attrs text kids =>
      rcases bindElem_cases hv with ⟨h', -, -⟩ | ⟨c', bs, rfl, hm, hb, -⟩
      · rw [ho] at h'; cases h'
      · rw [show (FTy.cls c').object? = some c' by simp [FTy.object?, hm]] at ho
        cases ho
        simp only [XTree.kids] at hlen
        cases hx : kids.filter (·.tag == f.xmlName) with
        | nil => rw [hx] at hlen; simp at hlen
        | cons k r =>
          have hkm : k ∈ kids.filter (·.tag == f.xmlName) := by rw [hx]; exact List.mem_cons_self
          obtain ⟨hkm, e⟩ := List.mem_filter.mp hkm
          have e : k.tag = f.xmlName := by simpa using e
          have := ((bindKids_inv hb).2 k hkm f (by rw [e]; exact findElem_attr hf hk) hl).2
          rw [e] at this
          omega
  | @inside ty t k ho hk =>
    intro v hv
    cases t with
    | node tag attrs text kids =>
      rcases bindElem_cases hv with ⟨-, rfl, -⟩ | ⟨c', bs, rfl, hm, hb, -⟩
      · cases hk
      · rw [show (FTy.cls c').object? = some c' by simp [FTy.object?, hm]] at ho
        cases ho
  | @deeper ty c f t k ho hf hk hkm ht _ ih =>
    intro v hv
    cases t with
    | node tag attrs text kids =>
      rcases bindElem_cases hv with ⟨h', -, -⟩ | ⟨c', bs, rfl, hm, hb, -⟩
      · rw [ho] at h'; cases h'
      · rw [show (FTy.cls c').object? = some c' by simp [FTy.object?, hm]] at ho
        cases ho
        obtain ⟨b, -, -, g, hg, hbe⟩ := forall₂_left (bindKids_inv hb).1 hkm
        rw [ht, findElem_attr hf hk] at hg
        cases hg
        exact ih _ hbe

mutual
theorem bindElem_error : ∀ (t : XTree) {ty : FTy} {e : PyErr}, bindElem ty t = .error e → e = .parserError
  | .node tag attrs text kids, ty, e, h => by
    rw [bindElem] at h
    cases ho : ty.object? with
    | none =>
      rw [ho] at h
      simp only at h
      split at h
      · cases h
      · cases h; rfl
    | some c =>
      rw [ho] at h
      simp only at h
      cases hb : bindKids c [] kids with
      | error e' =>
        rw [hb] at h
        cases h
        exact bindKids_error kids hb
      | ok bs => rw [hb] at h; cases h

theorem bindKids_error : ∀ (ts : List XTree) {c : Cls} {seen : List Str} {e : PyErr}, bindKids c seen ts = .error e → e = .parserError
  | [], c, seen, e, h => by rw [bindKids] at h; cases h
  | t :: ts, c, seen, e, h => by
    rw [bindKids] at h
    cases hf : c.findElem t.tag with
    | none => simp only [hf] at h; cases h; rfl
    | some f =>
      simp only [hf] at h
      split at h
      · cases h; rfl
      · cases hv : bindElem f.ty t with
        | error e' =>
          rw [hv] at h
          cases h
          exact bindElem_error t hv
        | ok v =>
          rw [hv] at h
          cases hr : bindKids c (t.tag :: seen) ts with
          | error e' =>
            simp only [hr, bind, Except.bind] at h
            cases h
            exact bindKids_error ts hr
          | ok r => simp only [hr, bind, Except.bind] at h; cases h
end

/-- A document that holds nothing foreign is read. -/
theorem bindKids_total {c : Cls} {kids : List XTree} (h1 : ∀ k ∈ kids, ∃ f v, c.findElem k.tag = some f ∧ bindElem f.ty k = .ok v)
    (h2 : ∀ f ∈ c.attrs, f.kind = .elem → f.isList = false → (kids.filter (·.tag == f.xmlName)).length ≤ 1) :
    ∃ bs, bindKids c [] kids = .ok bs := by
  obtain ⟨bs, hb, -⟩ := bindKids_ok (c := c) (kids := kids) (seen := []) h1 fun k hk f hf hl => by
    obtain ⟨hfa, hkind, e⟩ := findElem_some hf
    exact ⟨by simp, by rw [← e]; exact h2 f hfa hkind hl⟩
  exact ⟨bs, hb⟩

mutual
theorem bindElem_total : ∀ (t : XTree) {ty : FTy}, ¬ ForeignXml ty t → ∃ v, bindElem ty t = .ok v
  | .node tag attrs text kids, ty, h => by
    rw [bindElem]
    cases ho : ty.object? with
    | none =>
      have : kids = [] := by
        cases kids with
        | nil => rfl
        | cons k r => exact absurd (.inside ho (by simp [XTree.kids] : k ∈ (XTree.node tag attrs text (k :: r)).kids)) h
      subst this
      exact ⟨_, rfl⟩
    | some c =>
      obtain ⟨bs, hb⟩ := bindKids_total (c := c) (kids := kids) (bindKids_each kids (c := c)
        (fun k hk hn => h (.unknown ho (by simpa [XTree.kids] using hk) hn))
        (fun k hk f hf hkind e hF => h (.deeper ho hf hkind (by simpa [XTree.kids] using hk) e hF)))
        (fun f hf hkind hl => Nat.le_of_not_lt fun hlen => h (.twice ho hf hkind hl (by simpa [XTree.kids] using hlen)))
      simp only [hb]
      exact ⟨_, rfl⟩

theorem bindKids_each : ∀ (ts : List XTree) {c : Cls}, (∀ k ∈ ts, ¬ ∀ f ∈ c.attrs, f.kind = .elem → f.xmlName ≠ k.tag) →
    (∀ k ∈ ts, ∀ f ∈ c.attrs, f.kind = .elem → k.tag = f.xmlName → ¬ ForeignXml f.ty k) →
    ∀ k ∈ ts, ∃ f v, c.findElem k.tag = some f ∧ bindElem f.ty k = .ok v
  | [], c, _, _, k, hk => nomatch hk
  | t :: ts, c, h1, h2, k, hk => by
    rcases List.mem_cons.mp hk with e | hk
    · rw [e]
      obtain ⟨f, hf, hkind, e⟩ : ∃ f ∈ c.attrs, f.kind = .elem ∧ f.xmlName = t.tag := by
        have := h1 t List.mem_cons_self
        push Not at this
        exact this
      obtain ⟨v, hv⟩ := bindElem_total t (h2 t List.mem_cons_self f hf hkind e.symm)
      exact ⟨f, v, by rw [← e]; exact findElem_attr hf hkind, hv⟩
    · exact bindKids_each ts (fun k hk => h1 k (List.mem_cons_of_mem _ hk)) (fun k hk => h2 k (List.mem_cons_of_mem _ hk)) k hk
end

/-! ## The two models of binding -/

/-- A leaf element as a tree. -/
def XLeaf.tree (x : XLeaf) : XTree := .node x.tag x.attrs x.text []

theorem bindElem_leaf (f : Field) (x : XLeaf) : bindElem f.ty x.tree = .ok (bindLeaf f x) := by
  unfold XLeaf.tree bindLeaf
  rw [bindElem]
  cases hty : f.ty with
  | cls c =>
    cases hm : c.members with
    | some ms => simp [FTy.object?, hm, leafVal]
    | none =>
      simp only [FTy.object?, hm, bindKids, bind, Except.bind, pure, Except.pure, List.filter_nil, List.map_nil, List.headD_nil]
      rfl
  | str => simp [FTy.object?, leafVal]
  | int => simp [FTy.object?, leafVal]
  | dec => simp [FTy.object?, leafVal]

theorem bindKids_leaves {c : Cls} : ∀ (xs : List XLeaf) (seen : List Str),
    bindKids c seen (xs.map XLeaf.tree) = (checkChildren c seen xs).map fun _ =>
      xs.map fun x => (x.tag, match c.findElem x.tag with | some f => bindLeaf f x | none => .none)
  | [], seen => rfl
  | x :: xs, seen => by
    rw [List.map_cons, bindKids, checkChildren]
    have ht : x.tree.tag = x.tag := rfl
    rw [ht]
    cases hf : c.findElem x.tag with
    | none => rfl
    | some f =>
      simp only
      split
      · rfl
      · rw [bindElem_leaf, bindKids_leaves xs]
        cases checkChildren c (x.tag :: seen) xs with
        | error e => rfl
        | ok u => simp [bind, Except.bind, pure, Except.pure, Except.map, hf]

/-- The binding that reading KVN uses is the binding of documents, for documents of depth two. -/
theorem bindDoc_eq {c : Cls} (hm : c.members = none) (tag : Str) (d : XDoc) :
    bindDoc c d = bindElem (.cls c) (.node tag d.attrs d.text (d.children.map XLeaf.tree)) := by
  unfold bindDoc
  rw [bindElem, show (FTy.cls c).object? = some c by simp [FTy.object?, hm]]
  simp only
  rw [bindKids_leaves]
  cases hc : checkChildren c [] d.children with
  | error e => rfl
  | ok u =>
    simp only [bind, Except.bind, pure, Except.pure, Except.map]
    congr 2
    refine List.map_congr_left fun f hf => ?_
    congr 1
    unfold bindField
    cases hk : f.kind with
    | attr => rfl
    | text => rfl
    | elem =>
      have hfe := findElem_attr (c := c) hf hk
      have key : (d.children.map fun x => (x.tag, match c.findElem x.tag with | some f => bindLeaf f x | none => .none)).filter
          (·.1 == f.xmlName) = (d.children.filter (·.tag == f.xmlName)).map fun x => (x.tag, bindLeaf f x) := by
        rw [List.filter_map]
        refine List.map_congr_left fun x hx => ?_
        have e : x.tag = f.xmlName := by simpa using (List.mem_filter.mp hx).2
        rw [e, hfe]
      simp only [key, List.map_map]
      split
      · rfl
      · cases d.children.filter (·.tag == f.xmlName) <;> rfl

end Ndm
