import Verif.Lemmas.XmlBind
import Verif.Lemmas.XmlRead
import Verif.SpecXmlOrder

/-! Documents with the same content are read alike. -/

namespace Ndm

theorem schema_plain_names : (Cls.all.all fun c => c.attrs.all fun f => !f.xmlName.contains '{') = true := by decide +kernel

theorem attrLookup_some {as : List (Str × Str)} (hn : (as.map (·.1)).Nodup) {n s : Str} : attrLookup n as = some s ↔ (n, s) ∈ as := by
  unfold attrLookup
  induction as with
  | nil => simp
  | cons a as ih =>
    simp only [List.map_cons, List.nodup_cons] at hn
    rw [List.find?_cons]
    cases h : a.1 == n with
    | true =>
      have h : a.1 = n := by simpa using h
      simp only [Option.map_some, Option.some.injEq, List.mem_cons]
      constructor
      · rintro rfl; exact .inl (by rw [← h])
      · rintro (e | hm)
        · rw [← e]
        · exact absurd (List.mem_map.mpr ⟨_, hm, h.symm⟩) hn.1
    | false =>
      have h : a.1 ≠ n := by simpa using h
      rw [ih hn.2, List.mem_cons]
      constructor
      · exact .inr
      · rintro (e | hm)
        · exact absurd (by rw [← e]) h
        · exact hm

theorem attrLookup_same {as bs : List (Str × Str)} (ha : (as.map (·.1)).Nodup) (hb : (bs.map (·.1)).Nodup)
    (h : ∀ n s, '{' ∉ n → ((n, s) ∈ as ↔ (n, s) ∈ bs)) {n : Str} (hn : '{' ∉ n) : attrLookup n as = attrLookup n bs := by
  apply Option.ext
  intro s
  rw [attrLookup_some ha, attrLookup_some hb, h n s hn]

theorem kids_filter {c : Cls} {kids : List XTree} {bs : List (Str × Val)} (h : List.Forall₂ (KidBound c) kids bs) (t : Str) :
    List.Forall₂ (KidBound c) (kids.filter (·.tag == t)) (bs.filter (·.1 == t)) := by
  induction h with
  | nil => exact .nil
  | @cons k b ks bs hk _ ih =>
    rw [List.filter_cons, List.filter_cons, hk.1]
    split
    · exact .cons hk ih
    · exact ih

/-- Bound in the same way. -/
def SameBind (x y : XTree) : Prop := x.tag = y.tag ∧ ∀ ty, bindElem ty x = bindElem ty y

theorem kidBound_unique {c : Cls} {ks ks' : List XTree} {bs bs' : List (Str × Val)} (h : List.Forall₂ SameBind ks ks')
    (hb : List.Forall₂ (KidBound c) ks bs) (hb' : List.Forall₂ (KidBound c) ks' bs') : bs = bs' := by
  induction h generalizing bs bs' with
  | nil => cases hb; cases hb'; rfl
  | cons hk _ ih =>
    cases hb with
    | cons h1 h2 =>
      cases hb' with
      | cons h1' h2' =>
        rw [ih h2 h2']
        obtain ⟨e, f, hf, hv⟩ := h1
        obtain ⟨e', f', hf', hv'⟩ := h1'
        rw [← hk.1] at hf' e'
        rw [hf] at hf'
        cases hf'
        rw [hk.2, hv'] at hv
        congr 1
        exact Prod.ext (e.trans e'.symm) (Except.ok.inj hv).symm

theorem sameBind_mem {ks ks' : List XTree} (h : List.Forall₂ SameBind ks ks') {k' : XTree} (hk : k' ∈ ks') : ∃ k ∈ ks, SameBind k k' := by
  induction h with
  | nil => cases hk
  | cons h _ ih =>
    rcases List.mem_cons.mp hk with rfl | hk
    · exact ⟨_, List.mem_cons_self, h⟩
    · obtain ⟨k, hm, h⟩ := ih hk
      exact ⟨k, List.mem_cons_of_mem _ hm, h⟩

theorem sameBind_symm {ks ks' : List XTree} (h : List.Forall₂ SameBind ks ks') : List.Forall₂ SameBind ks' ks := by
  induction h with
  | nil => exact .nil
  | cons h _ ih => exact .cons ⟨h.1.symm, fun ty => (h.2 ty).symm⟩ ih

theorem kidBound_mem {c : Cls} {ks : List XTree} {bs : List (Str × Val)} (h : List.Forall₂ (KidBound c) ks bs) {k : XTree} (hk : k ∈ ks) :
    ∃ f v, c.findElem k.tag = some f ∧ bindElem f.ty k = .ok v := by
  induction h with
  | nil => cases hk
  | cons h _ ih =>
    rcases List.mem_cons.mp hk with rfl | hk
    · obtain ⟨-, f, hf, hv⟩ := h
      exact ⟨f, _, hf, hv⟩
    · exact ih hk

theorem kids_ok {c : Cls} {kids kids' : List XTree} (h : ∀ t, List.Forall₂ SameBind (kids.filter (·.tag == t)) (kids'.filter (·.tag == t)))
    {bs : List (Str × Val)} (hb : bindKids c [] kids = .ok bs) : ∃ bs', bindKids c [] kids' = .ok bs' ∧ ∀ t, bs.filter (·.1 == t) = bs'.filter (·.1 == t) := by
  obtain ⟨h1, h2⟩ := bindKids_inv hb
  have hex : ∀ k' ∈ kids', ∃ k ∈ kids, SameBind k k' := by
    intro k' hk'
    obtain ⟨k, hk, hs⟩ := sameBind_mem (h k'.tag) (List.mem_filter.mpr ⟨hk', by simp⟩)
    exact ⟨k, (List.mem_filter.mp hk).1, hs⟩
  obtain ⟨bs', hb', h3⟩ := bindKids_ok (c := c) (kids := kids') (seen := []) (by
    intro k' hk'
    obtain ⟨k, hk, hs⟩ := hex k' hk'
    obtain ⟨f, v, hf, hv⟩ := kidBound_mem h1 hk
    exact ⟨f, v, by rw [← hs.1]; exact hf, by rw [← hs.2]; exact hv⟩) (by
    intro k' hk' f hf hl
    obtain ⟨k, hk, hs⟩ := hex k' hk'
    have := (h2 k hk f (by rw [hs.1]; exact hf) hl).2
    rw [(h k.tag).length_eq, hs.1] at this
    exact ⟨by simp, this⟩)
  exact ⟨bs', hb', fun t => kidBound_unique (h t) (kids_filter h1 t) (kids_filter h3 t)⟩

theorem nil_of_filters {kids kids' : List XTree} (h : ∀ t, List.Forall₂ SameBind (kids.filter (·.tag == t)) (kids'.filter (·.tag == t))) :
    kids.isEmpty = kids'.isEmpty := by
  cases kids with
  | nil =>
    cases kids' with
    | nil => rfl
    | cons k ks => have := (h k.tag).length_eq; simp at this
  | cons k ks =>
    cases kids' with
    | nil => have := (h k.tag).length_eq; simp at this
    | cons => rfl

theorem node_same {tag : Str} {attrs attrs' : List (Str × Str)} {text text' : Str} {kids kids' : List XTree}
    (ha : (attrs.map (·.1)).Nodup) (hb : (attrs'.map (·.1)).Nodup) (hs : ∀ n s, '{' ∉ n → ((n, s) ∈ attrs ↔ (n, s) ∈ attrs'))
    (ht : kids = [] → text' = text) (h : ∀ t, List.Forall₂ SameBind (kids.filter (·.tag == t)) (kids'.filter (·.tag == t))) (ty : FTy) :
    bindElem ty (.node tag attrs text kids) = bindElem ty (.node tag attrs' text' kids') := by
  rw [bindElem, bindElem]
  cases ho : ty.object? with
  | none =>
    simp only
    rw [← nil_of_filters h]
    split
    · next he => rw [ht (by simpa using he)]
    · rfl
  | some c =>
    simp only
    cases hk : bindKids c [] kids with
    | error e =>
      cases hk' : bindKids c [] kids' with
      | error e' => rw [bindKids_error _ hk, bindKids_error _ hk']; rfl
      | ok bs' =>
        obtain ⟨bs, hbs, -⟩ := kids_ok (fun t => sameBind_symm (h t)) hk'
        rw [hk] at hbs
        cases hbs
    | ok bs =>
      obtain ⟨bs', hbs, he⟩ := kids_ok h hk
      rw [hbs]
      show Except.ok _ = Except.ok _
      congr 2
      apply List.map_congr_left
      intro f hf
      have hname : '{' ∉ f.xmlName := by
        have := List.all_eq_true.mp (all_classes schema_plain_names c) f hf
        simpa using this
      congr 1
      split
      · simp only [bindAttr, attrLookup_same ha hb hs hname]
      · next hkind =>
        cases kids with
        | nil => rw [ht rfl]
        | cons k ks =>
          exfalso
          obtain ⟨h1, -⟩ := bindKids_inv hk
          cases h1 with
          | cons h1 _ =>
            obtain ⟨-, g, hg, -⟩ := h1
            have htab := all_classes schema_text_fields c
            simp only [Bool.and_eq_true, Bool.or_eq_true, Bool.not_eq_true'] at htab
            rcases htab.2 with h' | h'
            · rw [List.any_eq_false] at h'
              exact h' f hf (by simpa using hkind)
            · unfold Cls.findElem at hg
              rw [show c.elemFields = [] by simpa using h'] at hg
              cases hg
      · rw [he]

theorem forall₂_on {R S : XTree → XTree → Prop} : ∀ {ks ks' : List XTree}, List.Forall₂ R ks ks' → (∀ k ∈ ks, ∀ k', R k k' → S k k') →
    List.Forall₂ S ks ks'
  | _, _, .nil, _ => .nil
  | _, _, .cons h hr, hall => .cons (hall _ (by simp) _ h) (forall₂_on hr fun k hk => hall k (by simp [hk]))

theorem sameContent_bind : ∀ (n : Nat) {t t' : XTree}, sizeOf t < n → SameContent t t' → SameBind t t'
  | n + 1, .node tag attrs text kids, t', hn, h => by
    cases h with | node ha hb hs ht hk => ?_
    refine ⟨rfl, node_same ha hb hs ht fun t => ?_⟩
    have hall : ∀ k ∈ kids.filter (·.tag == t), ∀ k', SameContent k k' → SameBind k k' := by
      intro k hm k' h
      have := List.sizeOf_lt_of_mem (List.mem_filter.mp hm).1
      simp only [XTree.node.sizeOf_spec] at hn
      exact sameContent_bind n (by omega) h
    exact forall₂_on (hk t) hall

end Ndm
