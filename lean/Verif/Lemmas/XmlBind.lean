import Verif.Lemmas.XmlNum
import Verif.Lemmas.Conf

/-! # Objects, their documents, and what is read from them -/

namespace Ndm

/-! ## Facts about the schema table -/

theorem schema_elem_names : (Cls.all.all fun c => decide ((c.elemFields.map (·.xmlName)).Nodup)) = true := by decide +kernel

theorem schema_attr_names : (Cls.all.all fun c => decide (((c.attrs.filter (·.kind = .attr)).map (·.xmlName)).Nodup)) = true := by
  decide +kernel

theorem schema_text_fields : (Cls.all.all fun c => decide ((c.attrs.filter (·.kind = .text)).length ≤ 1) &&
    (!(c.attrs.any fun f => f.kind = .text) || c.elemFields.isEmpty)) = true := by decide +kernel

theorem schema_fixed : (Cls.all.all fun c => c.idVersion.isNone || c.attrs.all (·.kind = .elem)) = true := by decide +kernel

theorem schema_braces : (Cls.all.all fun c => c.attrs.all fun f => f.kind ≠ .attr || !f.xmlName.contains '{') = true := by
  decide +kernel

theorem schema_elem_init : (Cls.all.all fun c => c.elemFields.all (·.init)) = true := by decide +kernel

theorem attrs_sub {c : Cls} {f : Field} (h : f ∈ c.attrs) : f ∈ c.fields := (List.mem_filter.mp h).1

theorem object?_isBlock (t : FTy) : t.isBlock = t.object?.isSome := by
  cases t <;> simp [FTy.isBlock, FTy.object?]
  rename_i c
  cases c.members <;> rfl

theorem findElem_attr {c : Cls} {f : Field} (h : f ∈ c.attrs) (hk : f.kind = .elem) : c.findElem f.xmlName = some f := by
  have hn : (c.elemFields.map (·.xmlName)).Nodup := by simpa using all_classes schema_elem_names c
  have hm : f ∈ c.elemFields := List.mem_filter.mpr ⟨attrs_sub h, by simpa using hk⟩
  unfold Cls.findElem
  generalize c.elemFields = fs at hn hm
  induction fs with
  | nil => cases hm
  | cons g fs ih =>
    rw [List.map_cons, List.nodup_cons] at hn
    rcases List.mem_cons.mp hm with rfl | hm
    · simp
    · rw [List.find?_cons_of_neg]
      · exact ih hn.2 hm
      · intro e
        apply hn.1
        rw [show g.xmlName = f.xmlName by simpa using e]
        exact List.mem_map_of_mem hm

theorem findElem_some {c : Cls} {t : Str} {f : Field} (h : c.findElem t = some f) : f ∈ c.attrs ∧ f.kind = .elem ∧ f.xmlName = t := by
  have hm := List.mem_of_find?_eq_some h
  have hx : f.xmlName = t := by simpa using List.find?_some h
  have hi := List.all_eq_true.mp (all_classes schema_elem_init c) f hm
  have := List.mem_filter.mp hm
  exact ⟨List.mem_filter.mpr ⟨this.1, hi⟩, by simpa using this.2, hx⟩

/-! ## Simple values -/

/-- The text of a value of a simple type is converted to its plain form. -/
theorem simple_conv {ty : FTy} {v : Val} (h : HasType ty v) (ht : ty.object? = none) :
    ∃ s, xmlStr v = some s ∧ convText ty s = v.plain ∧ (s = [] → v = .str []) ∧ (∀ tag, toElems tag v = [.node tag [] s []]) := by
  cases h with
  | str s => exact ⟨s, rfl, rfl, fun e => by rw [e], fun _ => rfl⟩
  | int i => exact ⟨intStr i, rfl, by simp [convText, parseInt_intStr, Val.plain], fun e => absurd e (intStr_ne i), fun _ => rfl⟩
  | intText s h => exact ⟨s, rfl, by simp [convText, h, Val.plain], fun e => by rw [e], fun _ => rfl⟩
  | dec d => exact ⟨d.xmlStr, rfl, by simp [convText, parse_xmlStr, Val.plain], fun e => absurd e (xmlStr_ne d), fun _ => rfl⟩
  | decText s h => exact ⟨s, rfl, by simp [convText, h, Val.plain], fun e => by rw [e], fun _ => rfl⟩
  | @enum c ms s hm hs =>
    refine ⟨s, rfl, ?_, fun e => ?_, fun _ => rfl⟩
    · have : ms.any (·.2 == s) = true := by
        obtain ⟨m, hs⟩ := hs
        exact List.any_eq_true.mpr ⟨_, hs, by simp⟩
      simp [convText, hm, convEnum, this, Val.plain]
    · obtain ⟨m, hs⟩ := hs
      have := all_classes schema_enum_values c
      rw [hm] at this
      have := List.all_eq_true.mp this _ hs
      simp [e] at this
  | @enumText c ms s hm hs =>
    refine ⟨s, rfl, ?_, fun e => by rw [e], fun _ => rfl⟩
    have : ms.any (·.2 == s) = false := by
      rw [List.any_eq_false]
      intro p hp e
      exact hs ⟨p.1, by rw [← show p.2 = s by simpa using e]; exact hp⟩
    simp [convText, hm, convEnum, this, Val.plain]
  | obj hm hf => simp [FTy.object?, hm] at ht

theorem simple_leaf {ty : FTy} {v : Val} (h : HasType ty v) (ht : ty.object? = none) :
    ∃ s, (∀ tag, toElems tag v = [.node tag [] s []]) ∧ leafVal ty s = v.plain := by
  obtain ⟨s, hs, hc, he, hn⟩ := simple_conv h ht
  refine ⟨s, hn, ?_⟩
  unfold leafVal
  cases s with
  | nil => rw [he rfl]; rfl
  | cons a s => simpa using hc

/-! ## Children -/

/-- The relation between a child and the value it is bound to. -/
def KidBound (c : Cls) (k : XTree) (b : Str × Val) : Prop :=
  b.1 = k.tag ∧ ∃ f, c.findElem k.tag = some f ∧ bindElem f.ty k = .ok b.2

theorem bindKids_ok {c : Cls} : ∀ {kids : List XTree} {seen : List Str},
    (∀ k ∈ kids, ∃ f v, c.findElem k.tag = some f ∧ bindElem f.ty k = .ok v) →
    (∀ k ∈ kids, ∀ f, c.findElem k.tag = some f → f.isList = false →
      k.tag ∉ seen ∧ (kids.filter (·.tag == k.tag)).length ≤ 1) →
    ∃ bs, bindKids c seen kids = .ok bs ∧ List.Forall₂ (KidBound c) kids bs
  | [], _, _, _ => ⟨[], rfl, .nil⟩
  | k :: ts, seen, h1, h2 => by
    obtain ⟨f, v, hf, hv⟩ := h1 k (by simp)
    obtain ⟨bs, hb, hr⟩ := bindKids_ok (c := c) (kids := ts) (seen := k.tag :: seen) (fun k hk => h1 k (by simp [hk])) (by
      intro k' hk' f' hf' hl'
      obtain ⟨hs, hlen⟩ := h2 k' (by simp [hk']) f' hf' hl'
      have hmem : k' ∈ ts.filter (·.tag == k'.tag) := List.mem_filter.mpr ⟨hk', by simp⟩
      have hpos : 0 < (ts.filter (·.tag == k'.tag)).length := List.length_pos_of_mem hmem
      rw [List.filter_cons] at hlen
      split at hlen
      · simp only [List.length_cons] at hlen; omega
      · next hne =>
        refine ⟨?_, hlen⟩
        simp only [List.mem_cons, not_or]
        exact ⟨fun e => hne (by simp [e]), hs⟩)
    refine ⟨(k.tag, v) :: bs, ?_, .cons ⟨rfl, f, hf, hv⟩ hr⟩
    rw [bindKids]
    simp only [hf]
    rw [if_neg]
    · simp only [hv, hb, bind, Except.bind, pure, Except.pure]
    · simp only [Bool.and_eq_true, Bool.not_eq_true', List.contains_eq_mem, decide_eq_true_eq, not_and]
      intro hl
      exact (h2 k (by simp) f hf hl).1

theorem bindKids_inv {c : Cls} : ∀ {kids : List XTree} {seen : List Str} {bs : List (Str × Val)}, bindKids c seen kids = .ok bs →
    List.Forall₂ (KidBound c) kids bs ∧ ∀ k ∈ kids, ∀ f, c.findElem k.tag = some f → f.isList = false →
      k.tag ∉ seen ∧ (kids.filter (·.tag == k.tag)).length ≤ 1
  | [], _, bs, h => by
    simp only [bindKids, Except.ok.injEq] at h
    subst h
    exact ⟨.nil, fun k hk => nomatch hk⟩
  | k :: ts, seen, bs, h => by
    rw [bindKids] at h
    cases hf : c.findElem k.tag with
    | none => simp only [hf] at h; cases h
    | some f =>
      simp only [hf] at h
      split at h
      · cases h
      · next hnot =>
        obtain ⟨v, hv, h⟩ := bind_ok_iff.mp h
        obtain ⟨r, hr, h⟩ := bind_ok_iff.mp h
        cases h
        obtain ⟨hb, hd⟩ := bindKids_inv hr
        refine ⟨.cons ⟨rfl, f, hf, hv⟩ hb, ?_⟩
        intro k' hk' f' hf' hl'
        have hts : ∀ k'' ∈ ts, k''.tag = k'.tag → k'.tag ∉ k.tag :: seen ∧ (ts.filter (·.tag == k'.tag)).length ≤ 1 := by
          intro k'' hk'' e
          have := hd k'' hk'' f' (by rw [e]; exact hf') hl'
          rwa [e] at this
        by_cases hk : ∃ k'' ∈ ts, k''.tag = k'.tag
        · obtain ⟨k'', hk'', e⟩ := hk
          obtain ⟨h1, h2⟩ := hts k'' hk'' e
          simp only [List.mem_cons, not_or] at h1
          refine ⟨h1.2, ?_⟩
          rw [List.filter_cons_of_neg]
          · exact h2
          · intro e'; exact h1.1 (by simpa using Eq.symm (by simpa using e'))
        · have hnil : ts.filter (·.tag == k'.tag) = [] := by
            rw [List.filter_eq_nil_iff]
            intro k'' hk'' e
            exact hk ⟨k'', hk'', by simpa using e⟩
          rcases List.mem_cons.mp hk' with rfl | hk'
          · rw [hf] at hf'
            cases hf'
            refine ⟨?_, ?_⟩
            · intro hs
              apply hnot
              simp [hl', hs]
            · rw [List.filter_cons, hnil]
              split <;> simp
          · exact absurd ⟨k', hk', rfl⟩ hk

theorem forall₂_filter_tag {R : XTree → Str × Val → Prop} (hR : ∀ k b, R k b → b.1 = k.tag) {ks : List XTree}
    {bs : List (Str × Val)} (h : List.Forall₂ R ks bs) (t : Str) :
    List.Forall₂ R (ks.filter (·.tag == t)) (bs.filter (·.1 == t)) := by
  induction h with
  | nil => exact .nil
  | @cons k b ks bs hkb _ ih =>
    have e := hR k b hkb
    by_cases hk : k.tag = t
    · rw [List.filter_cons_of_pos (by simp [hk]), List.filter_cons_of_pos (by simp [e, hk])]
      exact .cons hkb ih
    · rw [List.filter_cons_of_neg (by simp [hk]), List.filter_cons_of_neg (by simp [e, hk])]
      exact ih

/-! ## What is written for an object -/

/-- The plain values of a field. -/
def items : Val → List Val
  | .none => []
  | .list xs => plainList xs
  | v => [v.plain]

/-- However the elements are laid out, they are bound to the values. -/
def Binds (ty : FTy) (tag : Str) (ts : List XTree) (vs : List Val) : Prop :=
  (∀ t ∈ ts, t.tag = tag) ∧
  ∀ ts', List.Forall₂ SameDoc ts ts' → List.Forall₂ (fun t' v => bindElem ty t' = .ok v) ts' vs

/-- A field and its value, when what is written for it is read back. -/
def FieldReads (f : Field) (p : Str × Val) : Prop :=
  p.1 = f.name ∧ FieldOk f p.2 ∧ (f.kind = .elem → Binds f.ty f.xmlName (toElems f.xmlName p.2) (items p.2)) ∧
  (f.kind = .text → p.2 ≠ .str [])

theorem attrsOf_names : ∀ {fs : List Field} {vs : List (Str × Val)}, ∀ a ∈ attrsOf fs vs,
    a.1 ∈ (fs.filter (·.kind = .attr)).map (·.xmlName)
  | [], _, a, h => by simp [attrsOf] at h
  | _ :: _, [], a, h => by simp [attrsOf] at h
  | f :: fs, (n, v) :: vs, a, h => by
    rw [attrsOf, List.mem_append] at h
    rcases h with h | h
    · split at h
      · next hk =>
        rw [List.filter_cons_of_pos (by simpa using hk), List.map_cons]
        obtain ⟨s, -, rfl⟩ := List.mem_map.mp h
        exact List.mem_cons_self
      · cases h
    · have := attrsOf_names a h
      rw [List.filter_cons]
      split
      · exact List.mem_cons_of_mem _ this
      · exact this

theorem attrLookup_none {n : Str} {as : List (Str × Str)} (h : ∀ a ∈ as, a.1 ≠ n) : attrLookup n as = none := by
  unfold attrLookup
  rw [List.find?_eq_none.mpr]
  · rfl
  · intro a ha e
    exact h a ha (by simpa using e)

theorem attrLookup_append (n : Str) (as bs : List (Str × Str)) :
    attrLookup n (as ++ bs) = (attrLookup n as).or (attrLookup n bs) := by
  unfold attrLookup
  rw [List.find?_append]
  cases as.find? (·.1 == n) <;> simp

theorem attrsOf_lookup : ∀ {fs : List Field} {vs : List (Str × Val)} {f : Field} {p : Str × Val}, (f, p) ∈ fs.zip vs →
    f.kind = .attr → ((fs.filter (·.kind = .attr)).map (·.xmlName)).Nodup → attrLookup f.xmlName (attrsOf fs vs) = xmlStr p.2
  | [], _, _, _, h, _, _ => by simp at h
  | _ :: _, [], _, _, h, _, _ => by simp at h
  | g :: fs, (n, v) :: vs, f, p, h, hk, hn => by
    rw [attrsOf, attrLookup_append]
    rw [List.zip_cons_cons, List.mem_cons] at h
    rcases h with h | h
    · cases h
      rw [List.filter_cons_of_pos (by simpa using hk), List.map_cons, List.nodup_cons] at hn
      rw [if_pos hk, attrLookup_none (as := attrsOf fs vs) fun a ha e => hn.1 (by
        have := attrsOf_names a ha
        rwa [e] at this)]
      cases hx : xmlStr v <;> simp [attrLookup]
    · rw [List.filter_cons] at hn
      split at hn
      · next hg =>
        rw [List.map_cons, List.nodup_cons] at hn
        have hne : g.xmlName ≠ f.xmlName := fun e => hn.1 (by
          rw [e]
          exact List.mem_map_of_mem (List.mem_filter.mpr ⟨(List.of_mem_zip h).1, by simpa using hk⟩))
        rw [attrLookup_none (as := if g.kind = .attr then _ else _), Option.none_or]
        · exact attrsOf_lookup h hk hn.2
        · intro a ha
          split at ha
          · obtain ⟨s, -, rfl⟩ := List.mem_map.mp ha
            exact hne
          · cases ha
      · next hg =>
        rw [if_neg (by simpa using hg)]
        exact attrsOf_lookup h hk hn

theorem textOf_eq : ∀ {fs : List Field} {vs : List (Str × Val)} {f : Field} {p : Str × Val}, (f, p) ∈ fs.zip vs →
    f.kind = .text → (fs.filter (·.kind = .text)).length ≤ 1 → textOf fs vs = (xmlStr p.2).getD []
  | [], _, _, _, h, _, _ => by simp at h
  | _ :: _, [], _, _, h, _, _ => by simp at h
  | g :: fs, (n, v) :: vs, f, p, h, hk, hn => by
    rw [textOf]
    rw [List.zip_cons_cons, List.mem_cons] at h
    rcases h with h | h
    · cases h
      rw [if_pos hk]
    · have hm : f ∈ fs.filter (·.kind = .text) := List.mem_filter.mpr ⟨(List.of_mem_zip h).1, by simpa using hk⟩
      have hpos : 0 < (fs.filter (·.kind = .text)).length := List.length_pos_of_mem hm
      rw [List.filter_cons] at hn
      split at hn
      · simp only [List.length_cons] at hn; omega
      · next hg =>
        rw [if_neg (by simpa using hg)]
        exact textOf_eq h hk hn

theorem toKids_mem : ∀ {fs : List Field} {vs : List (Str × Val)} {k : XTree}, k ∈ toKids fs vs →
    ∃ f p, (f, p) ∈ fs.zip vs ∧ f.kind = .elem ∧ k ∈ toElems f.xmlName p.2
  | [], _, _, h => by simp [toKids] at h
  | _ :: _, [], _, h => by simp [toKids] at h
  | g :: fs, (n, v) :: vs, k, h => by
    rw [toKids, List.mem_append] at h
    rcases h with h | h
    · split at h
      · next hk => exact ⟨g, (n, v), by simp, hk, h⟩
      · cases h
    · obtain ⟨f, p, hm, hk, hf⟩ := toKids_mem h
      exact ⟨f, p, by rw [List.zip_cons_cons]; exact List.mem_cons_of_mem _ hm, hk, hf⟩

theorem toKids_filter : ∀ {fs : List Field} {vs : List (Str × Val)} {f : Field} {p : Str × Val},
    (∀ g q, (g, q) ∈ fs.zip vs → g.kind = .elem → ∀ t ∈ toElems g.xmlName q.2, t.tag = g.xmlName) →
    ((fs.filter (·.kind = .elem)).map (·.xmlName)).Nodup → (f, p) ∈ fs.zip vs → f.kind = .elem →
    (toKids fs vs).filter (·.tag == f.xmlName) = toElems f.xmlName p.2
  | [], _, _, _, _, _, h, _ => by simp at h
  | _ :: _, [], _, _, _, _, h, _ => by simp at h
  | g :: fs, (n, v) :: vs, f, p, ht, hn, h, hk => by
    rw [toKids, List.filter_append]
    have ht' : ∀ g q, (g, q) ∈ fs.zip vs → g.kind = .elem → ∀ t ∈ toElems g.xmlName q.2, t.tag = g.xmlName :=
      fun g q hm => ht g q (by rw [List.zip_cons_cons]; exact List.mem_cons_of_mem _ hm)
    rw [List.zip_cons_cons, List.mem_cons] at h
    rcases h with h | h
    · cases h
      rw [List.filter_cons_of_pos (by simpa using hk), List.map_cons, List.nodup_cons] at hn
      rw [if_pos hk]
      have e1 : (toElems g.xmlName v).filter (·.tag == g.xmlName) = toElems g.xmlName v :=
        List.filter_eq_self.mpr fun t htm => by simpa using ht g (n, v) (by simp) hk t htm
      have e2 : (toKids fs vs).filter (·.tag == g.xmlName) = [] := by
        rw [List.filter_eq_nil_iff]
        intro t htm e
        obtain ⟨g', q, hm, hg, hq⟩ := toKids_mem htm
        have := ht' g' q hm hg t hq
        apply hn.1
        rw [← show t.tag = g.xmlName by simpa using e, this]
        exact List.mem_map_of_mem (List.mem_filter.mpr ⟨(List.of_mem_zip hm).1, by simpa using hg⟩)
      rw [e1, e2, List.append_nil]
    · rw [List.filter_cons] at hn
      split at hn
      · next hg =>
        rw [List.map_cons, List.nodup_cons] at hn
        have hg' : g.kind = .elem := by simpa using hg
        have hne : g.xmlName ≠ f.xmlName := fun e => hn.1 (by
          rw [e]
          exact List.mem_map_of_mem (List.mem_filter.mpr ⟨(List.of_mem_zip h).1, by simpa using hk⟩))
        rw [if_pos hg', toKids_filter ht' hn.2 h hk, List.filter_eq_nil_iff.mpr, List.nil_append]
        intro t htm e
        exact hne ((ht g (n, v) (by simp) hg' t htm).symm.trans (by simpa using e))
      · next hg =>
        rw [if_neg (by simpa using hg), toKids_filter ht' hn h hk]
        rfl

theorem plainVars_map {G : Field → Val} : ∀ {fs : List Field} {vs : List (Str × Val)}, List.Forall₂ FieldReads fs vs →
    (∀ f p, (f, p) ∈ fs.zip vs → G f = p.2.plain) → fs.map (fun f => (f.name, G f)) = plainVars vs
  | _, _, .nil, _ => rfl
  | f :: fs, (n, v) :: vs, .cons h hs, hG => by
    rw [List.map_cons, plainVars, hG f (n, v) (by simp), plainVars_map hs fun f p hm => hG f p (by
      rw [List.zip_cons_cons]; exact List.mem_cons_of_mem _ hm), show n = f.name from h.1]

theorem reads_of_mem : ∀ {fs : List Field} {vs : List (Str × Val)}, List.Forall₂ FieldReads fs vs → ∀ {f p}, (f, p) ∈ fs.zip vs →
    FieldReads f p
  | _, _, .nil, _, _, h => by simp at h
  | _ :: _, _ :: _, .cons hr hs, f, p, h => by
    rw [List.zip_cons_cons, List.mem_cons] at h
    rcases h with h | h
    · cases h; exact hr
    · exact reads_of_mem hs h

theorem zip_of_mem : ∀ {fs : List Field} {vs : List (Str × Val)}, List.Forall₂ FieldReads fs vs → ∀ {f}, f ∈ fs → ∃ p, (f, p) ∈ fs.zip vs
  | _, _, .nil, _, h => by simp at h
  | _ :: _, p :: _, .cons hr hs, f, h => by
    rcases List.mem_cons.mp h with rfl | h
    · exact ⟨p, by simp⟩
    · obtain ⟨q, hq⟩ := zip_of_mem hs h
      exact ⟨q, by rw [List.zip_cons_cons]; exact List.mem_cons_of_mem _ hq⟩

theorem items_of_type {ty : FTy} {v : Val} (h : HasType ty v) : items v = [v.plain] := by cases h <;> rfl

theorem fieldOk_items {f : Field} {v : Val} (h : FieldOk f v) :
    v.plain = if f.isList then .list (items v) else (items v).headD .none := by
  cases h with
  | list hl hx => rw [if_pos hl]; rfl
  | none hl => rw [hl]; rfl
  | one hl ht => rw [hl, items_of_type ht]; rfl

theorem fieldOk_text {f : Field} {v : Val} (h : FieldOk f v) (hk : f.kind = .text) : v ≠ .str [] := by
  cases h with
  | list => exact fun e => nomatch e
  | none => exact fun e => nomatch e
  | one _ _ h => exact h hk

theorem fieldOk_items_length {f : Field} {v : Val} (h : FieldOk f v) (hl : f.isList = false) : (items v).length ≤ 1 := by
  cases h with
  | list hl' hx => rw [hl] at hl'; cases hl'
  | none hl => simp [items]
  | one hl ht => simp [items_of_type ht]

theorem forall₂_left {α β : Type} {R : α → β → Prop} {xs : List α} {ys : List β} (h : List.Forall₂ R xs ys) {x : α} (hx : x ∈ xs) :
    ∃ y ∈ ys, R x y := by
  induction h with
  | nil => cases hx
  | @cons a b as bs hab _ ih =>
    rcases List.mem_cons.mp hx with rfl | hx
    · exact ⟨b, by simp, hab⟩
    · obtain ⟨y, hy, hr⟩ := ih hx
      exact ⟨y, by simp [hy], hr⟩

theorem forall₂_split {α β : Type} {R : α → β → Prop} : ∀ {xs ys : List α} {zs : List β}, List.Forall₂ R (xs ++ ys) zs →
    ∃ z1 z2, List.Forall₂ R xs z1 ∧ List.Forall₂ R ys z2 ∧ zs = z1 ++ z2
  | [], _, zs, h => ⟨[], zs, .nil, h, rfl⟩
  | _ :: _, _, _, .cons h hs => by
    obtain ⟨z1, z2, h1, h2, e⟩ := forall₂_split hs
    exact ⟨_ :: z1, z2, .cons h h1, h2, by rw [e]; rfl⟩

/-- Same binding function, same results. -/
theorem bound_values {c : Cls} {f : Field} (hf : c.findElem f.xmlName = some f) {ks : List XTree} {bs : List (Str × Val)} {vs : List Val}
    (ht : ∀ k ∈ ks, k.tag = f.xmlName) (h1 : List.Forall₂ (KidBound c) ks bs)
    (h2 : List.Forall₂ (fun t' v => bindElem f.ty t' = .ok v) ks vs) : bs.map (·.2) = vs := by
  induction h1 generalizing vs with
  | nil => cases h2; rfl
  | @cons k b ks bs hkb _ ih =>
    cases h2 with
    | @cons _ v _ vs hv hvs =>
      obtain ⟨-, g, hg, hb⟩ := hkb
      rw [ht k (by simp), hf] at hg
      cases hg
      rw [List.map_cons, ih (fun k hk => ht k (by simp [hk])) hvs]
      congr 1
      rw [hv] at hb
      exact (Except.ok.inj hb).symm

/-- An object whose fields are read back is read back, whatever fixed attributes stand before its own. -/
theorem object_reads {c : Cls} {vs : List (Str × Val)} (hm : c.members = none) (hr : List.Forall₂ FieldReads c.attrs vs)
    {tag : Str} {pre : List (Str × Str)} (hpre : ∀ f ∈ c.attrs, f.kind = .attr → ∀ a ∈ pre, a.1 ≠ f.xmlName) {t' : XTree}
    (h : SameDoc (.node tag (pre ++ attrsOf c.attrs vs) (textOf c.attrs vs) (toKids c.attrs vs)) t') :
    bindElem (.cls c) t' = .ok (.obj c (plainVars vs)) := by
  cases h with
  | @node _ _ more _ text' _ kids' hmore htext hkids =>
  have hobj : (FTy.cls c).object? = some c := by simp [FTy.object?, hm]
  have hnod : ((c.attrs.filter (·.kind = .elem)).map (·.xmlName)).Nodup := by
    have h1 : (c.elemFields.map (·.xmlName)).Nodup := by simpa using all_classes schema_elem_names c
    refine h1.sublist (List.Sublist.map _ ?_)
    show ((c.fields.filter (·.init)).filter _).Sublist (c.fields.filter _)
    exact (List.filter_sublist).filter _
  have htags : ∀ g q, (g, q) ∈ c.attrs.zip vs → g.kind = .elem → ∀ t ∈ toElems g.xmlName q.2, t.tag = g.xmlName :=
    fun g q hg hk => ((reads_of_mem hr hg).2.2.1 hk).1
  have hfield : ∀ f p, (f, p) ∈ c.attrs.zip vs → f.kind = .elem →
      List.Forall₂ (fun t' v => bindElem f.ty t' = .ok v) (kids'.filter (·.tag == f.xmlName)) (items p.2) := by
    intro f p hfp hk
    have h1 := hkids f.xmlName
    rw [toKids_filter htags hnod hfp hk] at h1
    exact ((reads_of_mem hr hfp).2.2.1 hk).2 _ h1
  have hknown : ∀ k ∈ kids', ∃ f p, (f, p) ∈ c.attrs.zip vs ∧ f.kind = .elem ∧ k.tag = f.xmlName := by
    intro k hk
    obtain ⟨k0, hk0, -⟩ := forall₂_left (List.Forall₂.flip (hkids k.tag)) (List.mem_filter.mpr ⟨hk, by simp⟩)
    obtain ⟨hk0, e⟩ := List.mem_filter.mp hk0
    obtain ⟨f, p, hfp, hkind, hin⟩ := toKids_mem hk0
    exact ⟨f, p, hfp, hkind, by rw [← htags f p hfp hkind k0 hin]; simpa using Eq.symm (by simpa using e)⟩
  obtain ⟨bs, hbs, hbr⟩ := bindKids_ok (c := c) (kids := kids') (seen := []) (by
      intro k hk
      obtain ⟨f, p, hfp, hkind, e⟩ := hknown k hk
      obtain ⟨v, -, hv⟩ := forall₂_left (hfield f p hfp hkind) (List.mem_filter.mpr ⟨hk, by simpa using e⟩)
      exact ⟨f, v, by rw [e]; exact findElem_attr (List.of_mem_zip hfp).1 hkind, hv⟩) (by
      intro k hk g hg hl
      obtain ⟨f, p, hfp, hkind, e⟩ := hknown k hk
      rw [e, findElem_attr (List.of_mem_zip hfp).1 hkind] at hg
      cases hg
      refine ⟨by simp, ?_⟩
      rw [e, (hfield _ p hfp hkind).length_eq]
      exact fieldOk_items_length (reads_of_mem hr hfp).2.1 hl)
  rw [bindElem, hobj]
  simp only [hbs, bind, Except.bind, pure, Except.pure]
  congr 2
  refine plainVars_map (fs := c.attrs) hr ?_
  rintro f ⟨n, v⟩ hfp
  have hfa := (List.of_mem_zip hfp).1
  have hread := reads_of_mem hr hfp
  cases hk : f.kind with
  | attr =>
    simp only [bindAttr, List.append_assoc, attrLookup_append]
    have hnoda : ((c.attrs.filter (·.kind = .attr)).map (·.xmlName)).Nodup := by simpa using all_classes schema_attr_names c
    have hbr : '{' ∉ f.xmlName := by
      have := List.all_eq_true.mp (all_classes schema_braces c) f hfa
      simpa [hk] using this
    rw [attrLookup_none (as := pre) (hpre f hfa hk), attrsOf_lookup hfp hk hnoda,
      attrLookup_none (as := more) fun a ha e => hbr (by
        have := hmore a ha
        rwa [e] at this)]
    obtain ⟨hb, hl⟩ := leaf_field (attrs_sub hfa) (by rw [hk]; decide)
    have hty : f.ty.object? = none := by
      rw [object?_isBlock] at hb
      simpa using hb
    obtain ⟨-, hok, -, -⟩ := hread
    simp only at hok
    cases hok with
    | list hl' => rw [hl] at hl'; cases hl'
    | none hl => rfl
    | one hl ht =>
      obtain ⟨s, hs, hc, -, -⟩ := simple_conv ht hty
      simp [hs, hc]
  | text =>
    have hsch := all_classes schema_text_fields c
    rw [Bool.and_eq_true] at hsch
    have hnil : toKids c.attrs vs = [] := by
      rw [List.eq_nil_iff_forall_not_mem]
      intro k hkk
      obtain ⟨g, q, hgq, hgk, -⟩ := toKids_mem hkk
      have h1 : (c.attrs.any fun f => decide (f.kind = .text)) = true := List.any_eq_true.mpr ⟨f, hfa, by simpa using hk⟩
      have h2 := hsch.2
      rw [h1] at h2
      have h3 : g ∈ c.elemFields := List.mem_filter.mpr ⟨attrs_sub (List.of_mem_zip hgq).1, by simpa using hgk⟩
      have h4 : c.elemFields = [] := by simpa using h2
      rw [h4] at h3
      cases h3
    have ht := htext hnil
    rw [textOf_eq hfp hk (by simpa using hsch.1)] at ht
    obtain ⟨hb, hl⟩ := leaf_field (attrs_sub hfa) (by rw [hk]; decide)
    have hty : f.ty.object? = none := by
      rw [object?_isBlock] at hb
      simpa using hb
    obtain ⟨-, hok, -, hne⟩ := hread
    simp only at hok
    cases hok with
    | list hl' => rw [hl] at hl'; cases hl'
    | none hl => rw [ht]; rfl
    | one hl hT =>
      obtain ⟨s, hs, hc, he, -⟩ := simple_conv hT hty
      rw [ht, hs]
      cases s with
      | nil => exact absurd (he rfl) (hne hk)
      | cons a s => simpa [bindText] using hc
  | elem =>
    have hfe := findElem_attr hfa hk
    have h1 := forall₂_filter_tag (fun k b h => h.1) hbr f.xmlName
    have h2 := bound_values hfe (ks := kids'.filter (·.tag == f.xmlName)) (fun k hk => by simpa using (List.mem_filter.mp hk).2) h1
      (hfield f (n, v) hfp hk)
    simp only [h2]
    exact (fieldOk_items hread.2.1).symm

/-! ## The induction -/

theorem leaf_binds {ty : FTy} (hty : ty.object? = none) {tag s : Str} {v : Val} (h : leafVal ty s = v) :
    Binds ty tag [.node tag [] s []] [v] := by
  refine ⟨by simp [XTree.tag], fun ts' hs => ?_⟩
  cases hs with
  | @cons _ t' _ ts' hd htl =>
    cases htl
    refine .cons ?_ .nil
    cases hd with
    | @node _ _ more _ text' _ kids' hmore htext hkids =>
      have hk : kids' = [] := by
        cases kids' with
        | nil => rfl
        | cons k ks =>
          have := hkids k.tag
          rw [List.filter_cons_of_pos (by simp)] at this
          cases this
      rw [bindElem, hty, hk, htext rfl]
      simp [h]

theorem fixed_names (c : Cls) : ∀ f ∈ c.attrs, f.kind = .attr → ∀ a ∈ fixedAttrs c, a.1 ≠ f.xmlName := by
  intro f hf hk a ha
  have := all_classes schema_fixed c
  unfold fixedAttrs at ha
  cases h : c.idVersion with
  | none => rw [h] at ha; cases ha
  | some p =>
    rw [h] at this
    have := List.all_eq_true.mp (by simpa using this : c.attrs.all (·.kind = .elem) = true) f hf
    simp [hk] at this

mutual
theorem type_binds {ty : FTy} {v : Val} : HasType ty v → ∀ tag, Binds ty tag (toElems tag v) [v.plain]
  | .obj (c := c) (vs := vs) hm hf, tag => by
    have hr := fields_read hf
    refine ⟨by simp [toElems, XTree.tag], fun ts' hs => ?_⟩
    rw [toElems] at hs
    cases hs with
    | cons hd htl =>
      cases htl
      exact .cons (object_reads hm hr (fixed_names c) hd) .nil
  | .str s, tag => by
    obtain ⟨s, hs, hv⟩ := simple_leaf (.str s) rfl
    rw [hs]; exact leaf_binds rfl hv
  | .int i, tag => by
    obtain ⟨s, hs, hv⟩ := simple_leaf (.int i) rfl
    rw [hs]; exact leaf_binds rfl hv
  | .intText s h, tag => by
    obtain ⟨s, hs, hv⟩ := simple_leaf (.intText s h) rfl
    rw [hs]; exact leaf_binds rfl hv
  | .dec d, tag => by
    obtain ⟨s, hs, hv⟩ := simple_leaf (.dec d) rfl
    rw [hs]; exact leaf_binds rfl hv
  | .decText s h, tag => by
    obtain ⟨s, hs, hv⟩ := simple_leaf (.decText s h) rfl
    rw [hs]; exact leaf_binds rfl hv
  | .enum (c := c) s hm h, tag => by
    have e : (FTy.cls c).object? = none := by simp [FTy.object?, hm]
    obtain ⟨s, hs, hv⟩ := simple_leaf (.enum s hm h) e
    rw [hs]; exact leaf_binds e hv
  | .enumText (c := c) s hm h, tag => by
    have e : (FTy.cls c).object? = none := by simp [FTy.object?, hm]
    obtain ⟨s, hs, hv⟩ := simple_leaf (.enumText s hm h) e
    rw [hs]; exact leaf_binds e hv

theorem fields_read {fs : List Field} {vs : List (Str × Val)} : HasFields fs vs → List.Forall₂ FieldReads fs vs
  | .nil => .nil
  | .cons hv hvs => .cons ⟨rfl, hv, fun _ => field_binds hv, fieldOk_text hv⟩ (fields_read hvs)

theorem field_binds {f : Field} {v : Val} : FieldOk f v →
    Binds f.ty f.xmlName (toElems f.xmlName v) (items v)
  | .list hl hx => by
    have := list_binds hx f.xmlName
    simpa [toElems, items] using this
  | .none hl => ⟨by simp [toElems], fun ts' hs => by
      rw [toElems] at hs
      cases hs
      exact .nil⟩
  | .one hl ht _ => by
    rw [items_of_type ht]
    exact type_binds ht f.xmlName

theorem list_binds {ty : FTy} {xs : List Val} : AllHaveType ty xs → ∀ tag,
    Binds ty tag (toList tag xs) (plainList xs)
  | .nil, tag => ⟨by simp [toList], fun ts' hs => by
      rw [toList] at hs
      cases hs
      exact .nil⟩
  | .cons (v := v) (vs := vs) hv hvs, tag => by
    obtain ⟨h1, h2⟩ := type_binds hv tag
    obtain ⟨h3, h4⟩ := list_binds hvs tag
    refine ⟨fun t ht => ?_, fun ts' hs => ?_⟩
    · rw [toList, List.mem_append] at ht
      exact ht.elim (h1 t) (h3 t)
    · rw [toList] at hs
      rw [plainList]
      obtain ⟨t1, t2, hs1, hs2, rfl⟩ : ∃ t1 t2, List.Forall₂ SameDoc (toElems tag v) t1 ∧ List.Forall₂ SameDoc (toList tag vs) t2 ∧
          ts' = t1 ++ t2 := forall₂_split hs
      exact List.rel_append (h2 t1 hs1) (h4 t2 hs2)
end

end Ndm
