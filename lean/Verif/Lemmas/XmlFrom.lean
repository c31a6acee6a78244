import Verif.SpecXmlFrom
import Verif.Lemmas.Missing

namespace Ndm

theorem simple_types : (Cls.all.all fun c => c.attrs.all fun f => f.kind == .elem || f.ty.object?.isNone) = true := by decide +kernel

theorem no_empty_member : (Cls.all.all fun c => match c.members with | some ms => ms.all (·.2 != []) | none => true) = true := by
  decide +kernel

theorem simple_type {c : Cls} {f : Field} (hf : f ∈ c.attrs) (hk : f.kind ≠ .elem) : f.ty.object? = none := by
  have := List.all_eq_true.mp (all_classes simple_types c) f hf
  rcases Bool.or_eq_true_iff.mp this with h | h
  · exact absurd (by simpa using h) hk
  · simpa using h

theorem convText_says {ty : FTy} (ho : ty.object? = none) (s : Str) : TextSays ty s (convText ty s) := by
  unfold convText
  cases ty with
  | str => exact .text s
  | int =>
    dsimp only
    cases h : parseInt s with
    | some i => exact .int h
    | none => exact .notInt h
  | dec =>
    dsimp only
    cases h : Dec.parse s with
    | some i => exact .number h
    | none => exact .notNumber h
  | cls c =>
    dsimp only
    cases hm : c.members with
    | none => simp [FTy.object?, hm] at ho
    | some ms =>
      dsimp only
      unfold convEnum
      split
      · next h =>
        obtain ⟨⟨n, s'⟩, hx, e⟩ := List.any_eq_true.mp h
        have e : s' = s := by simpa using e
        subst e
        exact .member hm hx
      · next h =>
        refine .notMember hm fun n hx => h (List.any_eq_true.mpr ⟨_, hx, by simp⟩)

theorem leafVal_says {ty : FTy} (ho : ty.object? = none) (s : Str) : TextSays ty s (leafVal ty s) := by
  unfold leafVal
  split
  · next h =>
    have h : s = [] := by simpa using h
    subst h
    cases ty with
    | str => exact .text []
    | int => exact .notInt (by decide +kernel)
    | dec => exact .notNumber (by decide +kernel)
    | cls c =>
      cases hm : c.members with
      | none => simp [FTy.object?, hm] at ho
      | some ms =>
        refine .notMember hm fun n hx => ?_
        have := all_classes no_empty_member c
        rw [hm] at this
        have := List.all_eq_true.mp this _ hx
        simp at this
  · exact convText_says ho s

/-- What is read from the children with the tag of a field. -/
theorem children_bound {c : Cls} {kids : List XTree} {bs : List (Str × Val)} (h : bindKids c [] kids = .ok bs) {f : Field} (hf : f ∈ c.attrs)
    (hk : f.kind = .elem) : List.Forall₂ (fun k x => bindElem f.ty k = .ok x) (kids.filter (·.tag == f.xmlName))
      ((bs.filter (·.1 == f.xmlName)).map (·.2)) := by
  obtain ⟨hkb, hone⟩ := bindKids_inv h
  have hfe := findElem_attr hf hk
  have hfil := forall₂_filter_tag (fun k b h => h.1) hkb f.xmlName
  have htag : ∀ k ∈ kids.filter (·.tag == f.xmlName), k.tag = f.xmlName := fun k hk => by simpa using (List.mem_filter.mp hk).2
  generalize kids.filter (·.tag == f.xmlName) = ks at hfil htag
  generalize bs.filter (·.1 == f.xmlName) = cs at hfil
  induction hfil with
  | nil => exact .nil
  | @cons k b ks cs hkb _ ih =>
    obtain ⟨-, g, hg, hb⟩ := hkb
    rw [htag k List.mem_cons_self, hfe] at hg
    cases hg
    exact .cons hb (ih fun k hk => htag k (List.mem_cons_of_mem _ hk))

theorem items_say {ty : FTy} {ks : List XTree} {xs : List Val} (h : List.Forall₂ (fun k x => bindElem ty k = .ok x) ks xs)
    (hin : ∀ k ∈ ks, ∀ {v : Val}, bindElem ty k = .ok v → XmlSays ty k v) : ItemsSay ty ks xs := by
  induction h with
  | nil => exact .nil
  | @cons k x ks xs hb _ ih =>
    exact .cons (hin k List.mem_cons_self hb) (ih fun k hk => hin k (List.mem_cons_of_mem _ hk))

theorem fields_say {t : XTree} {g : Field → Val} : ∀ {fs : List Field}, (∀ f ∈ fs, FieldSays t f (g f)) →
    FieldsSay t fs (fs.map fun f => (f.name, g f))
  | [], _ => .nil
  | f :: fs, h => .cons (h f List.mem_cons_self) (fields_say fun f hf => h f (List.mem_cons_of_mem _ hf))

mutual
/-- What is read is what the document says. -/
theorem bindElem_says : ∀ (t : XTree) {ty : FTy} {v : Val}, bindElem ty t = .ok v → XmlSays ty t v
  | .node tag attrs text kids, ty, v, h => by
    rcases bindElem_cases h with ⟨ho, rfl, rfl⟩ | ⟨c, bs, rfl, hm, hb, rfl⟩
    · exact .simple ho rfl (leafVal_says ho text)
    · have hin := bindElems_say kids
      refine .object hm (fields_say fun f hf => ?_)
      cases hk : f.kind with
      | attr =>
        unfold boundField
        simp only [hk, bindAttr]
        cases ha : attrLookup f.xmlName attrs with
        | none => exact .noAttr hk ha
        | some s => exact .attr hk ha (convText_says (simple_type hf (by rw [hk]; decide)) s)
      | text =>
        unfold boundField
        simp only [hk, bindText]
        split
        · next he => exact .noText hk (show text = [] by simpa using he)
        · next he => exact .text hk (show text ≠ [] by simpa using he) (convText_says (simple_type hf (by rw [hk]; decide)) text)
      | elem =>
        have hbd := children_bound hb hf hk
        cases hl : f.isList with
        | true =>
          unfold boundField
          simp only [hk, hl, if_true]
          exact .children hk hl (items_say hbd fun k hkm => fun hbk => hin k (List.mem_filter.mp hkm).1 hbk)
        | false =>
          unfold boundField
          simp only [hk, hl, Bool.false_eq_true, if_false]
          generalize (bs.filter (·.1 == f.xmlName)).map (·.2) = xs at hbd
          cases hx : kids.filter (·.tag == f.xmlName) with
          | nil =>
            rw [hx] at hbd
            cases hbd
            exact .noChild hk hl hx
          | cons k ks =>
            have hkm : k ∈ kids.filter (·.tag == f.xmlName) := by rw [hx]; exact List.mem_cons_self
            obtain ⟨hkm, ht⟩ := List.mem_filter.mp hkm
            have ht : k.tag = f.xmlName := by simpa using ht
            have hlen := ((bindKids_inv hb).2 k hkm f (by rw [ht]; exact findElem_attr hf hk) hl).2
            rw [ht, hx] at hlen
            have hks : ks = [] := by
              cases ks with
              | nil => rfl
              | cons _ _ => simp at hlen
            subst hks
            rw [hx] at hbd
            cases hbd with
            | cons hbk hr =>
              cases hr
              exact .child hk hl hx (hin k hkm hbk)

theorem bindElems_say : ∀ (ts : List XTree), ∀ t ∈ ts, ∀ {ty : FTy} {v : Val}, bindElem ty t = .ok v → XmlSays ty t v
  | [], _, h => nomatch h
  | u :: us, t, h => fun hb => by
    rcases List.mem_cons.mp h with e | h
    · rw [e] at hb ⊢
      exact bindElem_says u hb
    · exact bindElems_say us t h hb
end

theorem textSays_unique {ty : FTy} {s : Str} {v w : Val} (h : TextSays ty s v) (h' : TextSays ty s w) : v = w := by
  cases h <;> cases h' <;> simp_all

theorem textSays_one {ty : FTy} {s : Str} {v : Val} (h : TextSays ty s v) : v ≠ .none := by
  cases h <;> simp

mutual
/-- A document says one thing. -/
theorem xmlSays_unique {ty : FTy} {t : XTree} {v w : Val} (h : XmlSays ty t v) (h' : XmlSays ty t w) : v = w := by
  cases h with
  | simple ho hk hs =>
    cases h' with
    | simple _ _ hs' => exact textSays_unique hs hs'
    | object hm _ => simp [FTy.object?, hm] at ho
  | object hm hf =>
    cases h' with
    | simple ho _ _ => simp [FTy.object?, hm] at ho
    | object _ hf' => rw [fieldsSay_unique hf hf']

theorem fieldsSay_unique {t : XTree} {fs : List Field} {vs ws : List (Str × Val)} (h : FieldsSay t fs vs) (h' : FieldsSay t fs ws) :
    vs = ws := by
  cases h with
  | nil => cases h'; rfl
  | cons hf hr =>
    cases h' with
    | cons hf' hr' => rw [fieldSays_unique hf hf', fieldsSay_unique hr hr']

theorem fieldSays_unique {t : XTree} {f : Field} {v w : Val} (h : FieldSays t f v) (h' : FieldSays t f w) : v = w := by
  cases h with
  | attr hk ha hs => cases h' <;> simp_all; exact textSays_unique hs (by assumption)
  | noAttr hk ha => cases h' <;> simp_all
  | text hk ha hs => cases h' <;> simp_all; exact textSays_unique hs (by assumption)
  | noText hk ha => cases h' <;> simp_all
  | child hk hl hx hs =>
    cases h' with
    | child _ _ hx' hs' =>
      rw [hx] at hx'
      cases hx'
      exact xmlSays_unique hs hs'
    | _ => simp_all
  | noChild hk hl hx => cases h' <;> simp_all
  | children hk hl hs =>
    cases h' with
    | children _ _ hs' => rw [itemsSay_unique hs hs']
    | _ => simp_all

theorem itemsSay_unique {ty : FTy} {ts : List XTree} {vs ws : List Val} (h : ItemsSay ty ts vs) (h' : ItemsSay ty ts ws) : vs = ws := by
  cases h with
  | nil => cases h'; rfl
  | cons hx hr =>
    cases h' with
    | cons hx' hr' => rw [xmlSays_unique hx hx', itemsSay_unique hr hr']
end

end Ndm
