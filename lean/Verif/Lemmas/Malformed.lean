import Verif.SpecMalformed
import Verif.Lemmas.Missing
import Verif.Lemmas.AbsentRead

/-! Values that are not of the type the schema gives are kept as texts. -/

namespace Ndm

theorem convText_str (ty : FTy) (s : Str) : (ty ≠ .str ∧ ∃ t, convText ty s = .str t) ↔ ¬ LiteralOf ty s := by
  cases ty with
  | str => exact ⟨fun h => absurd rfl h.1, fun h => absurd (.str s) h⟩
  | int =>
    unfold convText
    cases h : parseInt s with
    | some i => exact ⟨fun ⟨_, t, e⟩ => (nomatch e), fun hn => absurd (.int h) hn⟩
    | none =>
      refine ⟨fun _ hs => ?_, fun _ => ⟨by simp, s, rfl⟩⟩
      cases hs with
      | int h' => rw [h] at h'; cases h'
  | dec =>
    unfold convText
    cases h : Dec.parse s with
    | some i => exact ⟨fun ⟨_, t, e⟩ => (nomatch e), fun hn => absurd (.dec h) hn⟩
    | none =>
      refine ⟨fun _ hs => ?_, fun _ => ⟨by simp, s, rfl⟩⟩
      cases hs with
      | dec h' => rw [h] at h'; cases h'
  | cls c =>
    unfold convText
    cases h : c.members with
    | none =>
      refine ⟨fun _ hs => ?_, fun _ => ⟨by simp, s, by simp only [h]⟩⟩
      cases hs with
      | enum h' => rw [h] at h'; cases h'
    | some ms =>
      simp only [h, convEnum]
      by_cases ha : ms.any (·.2 == s) = true
      · rw [if_pos ha]
        obtain ⟨⟨m, s'⟩, hm, e⟩ := List.any_eq_true.mp ha
        have e : s' = s := by simpa using e
        subst e
        exact ⟨fun ⟨_, t, e⟩ => (nomatch e), fun hn => absurd (.enum h hm) hn⟩
      · rw [if_neg ha]
        refine ⟨fun _ hs => ?_, fun _ => ⟨by simp, s, rfl⟩⟩
        cases hs with
        | enum h' hm =>
          rw [h] at h'
          cases h'
          exact ha (List.any_eq_true.mpr ⟨_, hm, by simp⟩)

theorem literal_empty {ty : FTy} (h : LiteralOf ty []) : ty = .str := by
  cases h with
  | str => rfl
  | int h => exact absurd rfl (parseInt_ne h)
  | dec h => exact absurd rfl (dec_parse_ne h)
  | @enum c _ _ _ hm hs =>
    have := all_classes schema_enum_values c
    rw [hm] at this
    have := List.all_eq_true.mp this _ hs
    simp at this

theorem leafVal_str (ty : FTy) (s : Str) : (ty ≠ .str ∧ ∃ t, leafVal ty s = .str t) ↔ ¬ LiteralOf ty s := by
  unfold leafVal
  cases s with
  | nil =>
    constructor
    · exact fun h hs => h.1 (literal_empty hs)
    · exact fun h => ⟨fun e => h (by rw [e]; exact .str []), [], rfl⟩
  | cons a s => exact convText_str ty (a :: s)

theorem malformed_obj {v : Val} (h : Malformed v) : ∃ c vs, v = .obj c vs := by
  cases h with
  | here => exact ⟨_, _, rfl⟩
  | inside => exact ⟨_, _, rfl⟩

theorem convText_no_obj (ty : FTy) (s : Str) (c : Cls) (vs : List (Str × Val)) : convText ty s ≠ .obj c vs := by
  unfold convText convEnum
  cases ty with
  | str => simp
  | int => dsimp only; split <;> simp
  | dec => dsimp only; split <;> simp
  | cls c => dsimp only; split <;> (try split) <;> simp

theorem leafVal_no_obj (ty : FTy) (s : Str) (c : Cls) (vs : List (Str × Val)) : leafVal ty s ≠ .obj c vs := by
  unfold leafVal
  split
  · simp
  · exact convText_no_obj ty s c vs

theorem simple_malformed {f : Field} (hk : f.kind ≠ .elem) (attrs : List (Str × Str)) (text : Str) (bs : List (Str × Val)) :
    (f.ty ≠ .str ∧ ∃ s, .str s ∈ (boundField attrs text bs f).items) ↔
      (f.kind = .attr ∧ ∃ s, attrLookup f.xmlName attrs = some s ∧ ¬ LiteralOf f.ty s) ∨ (f.kind = .text ∧ text ≠ [] ∧ ¬ LiteralOf f.ty text) := by
  have key : ∀ s, (f.ty ≠ .str ∧ ∃ t, .str t ∈ (convText f.ty s).items) ↔ ¬ LiteralOf f.ty s := by
    intro s
    rw [← convText_str, items_one (convText_form _ _).1 (convText_form _ _).2]
    simp only [List.mem_singleton, eq_comm]
  unfold boundField
  cases hk' : f.kind with
  | elem => exact absurd hk' hk
  | attr =>
    simp only [bindAttr, reduceCtorEq, false_and, or_false, true_and]
    cases ha : attrLookup f.xmlName attrs with
    | none => simp [Val.items]
    | some s => simp only [key, Option.some.injEq, exists_eq_left']
  | text =>
    simp only [bindText, reduceCtorEq, false_and, false_or, true_and]
    cases text with
    | nil => simp [Val.items]
    | cons a s =>
      simp only [List.isEmpty_cons, Bool.false_eq_true, if_false, key, ne_eq, reduceCtorEq, not_false_eq_true, true_and]

mutual
/-- Texts in the wrong places come from the document, and stay. -/
theorem malformed_read : ∀ (t : XTree) {ty : FTy} {v : Val}, bindElem ty t = .ok v →
    (((ty ≠ .str ∧ ∃ s, v = .str s) ∨ Malformed v) ↔ MalformedXml ty t)
  | .node tag attrs text kids, ty, v, h => by
    rcases bindElem_cases h with ⟨ho, rfl, rfl⟩ | ⟨c, bs, rfl, hm, hb, rfl⟩
    · constructor
      · rintro (h' | h')
        · exact .value ho ((leafVal_str ty text).mp h')
        · obtain ⟨c, vs, e⟩ := malformed_obj h'
          exact absurd e (leafVal_no_obj ty text c vs)
      · intro hi
        cases hi with
        | value _ h' => exact .inl ((leafVal_str ty text).mpr h')
        | attr h' => rw [ho] at h'; cases h'
        | text h' => rw [ho] at h'; cases h'
        | inside h' => rw [ho] at h'; cases h'
    · have hobj : (FTy.cls c).object? = some c := by simp [FTy.object?, hm]
      have hin := malformeds_read kids
      have hmem : ∀ {f}, f ∈ c.attrs → (f.name, boundField attrs text bs f) ∈ c.attrs.map fun f => (f.name, boundField attrs text bs f) :=
        fun hf => List.mem_map.mpr ⟨_, hf, rfl⟩
      constructor
      · rintro (⟨-, s, e⟩ | hi)
        · cases e
        cases hi with
        | @here _ _ f v s hv hf hty hs =>
          obtain ⟨g, hg, e⟩ := List.mem_map.mp hv
          have hname : g = f := eq_of_name (attrs_nodup c) hg hf (congrArg Prod.fst e)
          subst hname
          cases e
          by_cases hk : g.kind = .elem
          · obtain ⟨k, hkm, hbk⟩ := forall₂_right (field_items hb hg hk attrs text) hs
            obtain ⟨hkm, ht⟩ := List.mem_filter.mp hkm
            exact .inside hobj hg hk hkm (by simpa using ht) ((hin k hkm hbk).mp (.inl ⟨hty, s, rfl⟩))
          · rcases (simple_malformed hk attrs text bs).mp ⟨hty, s, hs⟩ with ⟨h1, s', h2, h3⟩ | ⟨h1, h2, h3⟩
            · exact .attr hobj hg h1 h2 h3
            · exact .text hobj hg h1 h2 h3
        | @inside _ _ n v x hv hx hi =>
          obtain ⟨f, hf, e⟩ := List.mem_map.mp hv
          cases e
          by_cases hk : f.kind = .elem
          · obtain ⟨k, hkm, hbk⟩ := forall₂_right (field_items hb hf hk attrs text) hx
            obtain ⟨hkm, ht⟩ := List.mem_filter.mp hkm
            exact .inside hobj hf hk hkm (by simpa using ht) ((hin k hkm hbk).mp (.inr hi))
          · obtain ⟨d, vs, rfl⟩ := malformed_obj hi
            exact absurd rfl (simple_items hk attrs text bs _ hx d vs)
      · intro hi
        right
        cases hi with
        | value h' => rw [hobj] at h'; cases h'
        | @attr _ c' f _ s h' hf hk ha hs =>
          rw [hobj] at h'
          cases h'
          obtain ⟨hty, s', hs'⟩ := (simple_malformed (by rw [hk]; decide) attrs text bs).mpr (.inl ⟨hk, s, ha, hs⟩)
          exact .here (hmem hf) hf hty hs'
        | @text _ c' f _ h' hf hk ht hs =>
          rw [hobj] at h'
          cases h'
          obtain ⟨hty, s', hs'⟩ := (simple_malformed (by rw [hk]; decide) attrs text bs).mpr (.inr ⟨hk, ht, hs⟩)
          exact .here (hmem hf) hf hty hs'
        | @inside _ c' f _ k h' hf hk hkm ht hi =>
          rw [hobj] at h'
          cases h'
          obtain ⟨x, hx, hbx⟩ := forall₂_left (field_items hb hf hk attrs text) (List.mem_filter.mpr ⟨hkm, by simpa using ht⟩)
          rcases (hin k hkm hbx).mpr hi with ⟨hty, s, rfl⟩ | hi
          · exact .here (hmem hf) hf hty hx
          · exact .inside (hmem hf) hx hi

theorem malformeds_read : ∀ (ts : List XTree), ∀ t ∈ ts, ∀ {ty : FTy} {v : Val}, bindElem ty t = .ok v →
    (((ty ≠ .str ∧ ∃ s, v = .str s) ∨ Malformed v) ↔ MalformedXml ty t)
  | [], _, h => nomatch h
  | u :: us, t, h => fun hb => by
    rcases List.mem_cons.mp h with e | h
    · rw [e] at hb ⊢
      exact malformed_read u hb
    · exact malformeds_read us t h hb
end

/-- A text in a field that is not for texts is not a value of its type. -/
theorem text_not_literal {f : Field} {v : Val} (hv : FieldOk f v) (hty : f.ty ≠ .str) {s : Str} (hs : .str s ∈ v.items) : ¬ LiteralOf f.ty s := by
  have key : ∀ {ty : FTy}, ty ≠ .str → HasType ty (.str s) → ¬ LiteralOf ty s := by
    intro ty hty h hsp
    cases h with
    | str => exact hty rfl
    | intText _ h => cases hsp with | int h' => rw [h] at h'; cases h'
    | decText _ h => cases hsp with | dec h' => rw [h] at h'; cases h'
    | enumText _ h hn =>
      cases hsp with
      | enum h' hm =>
        rw [h] at h'
        cases h'
        exact hn ⟨_, hm⟩
  cases hv with
  | none => cases hs
  | list _ ha => exact key hty (allHaveType_mem ha hs)
  | one _ h _ =>
    have hx : v = .str s := by
      cases v with
      | none => cases hs
      | list xs => generalize f.ty = ty at h; cases h
      | _ => exact (List.mem_singleton.mp hs).symm
    rw [hx] at h
    exact key hty h

theorem SameElements.tag_eq {t t' : XTree} (h : SameElements t t') : t'.tag = t.tag := by
  cases h
  rfl

theorem SameElements.kids_rel {t t' : XTree} (h : SameElements t t') : List.Forall₂ SameElements t.kids t'.kids := by
  cases h with
  | node h => exact h

theorem sameElements_filter {ks ks' : List XTree} (h : List.Forall₂ SameElements ks ks') (n : Str) :
    (ks'.filter (·.tag == n)).length = (ks.filter (·.tag == n)).length := by
  induction h with
  | nil => rfl
  | cons h _ ih =>
    rw [List.filter_cons, List.filter_cons, h.tag_eq]
    split
    · rw [List.length_cons, List.length_cons, ih]
    · exact ih

theorem foreign_same {ty : FTy} {t : XTree} (hF : ForeignXml ty t) : ∀ {t' : XTree}, SameElements t t' → ForeignXml ty t' := by
  induction hF with
  | unknown ho hk hn =>
    intro t' h
    obtain ⟨k', hk', hs⟩ := forall₂_left h.kids_rel hk
    exact .unknown ho hk' (by rw [hs.tag_eq]; exact hn)
  | twice ho hf hkind hl hlen =>
    intro t' h
    exact .twice ho hf hkind hl (by rw [sameElements_filter h.kids_rel]; exact hlen)
  | inside ho hk =>
    intro t' h
    obtain ⟨k', hk', -⟩ := forall₂_left h.kids_rel hk
    exact .inside ho hk'
  | deeper ho hf hkind hk ht _ ih =>
    intro t' h
    obtain ⟨k', hk', hs⟩ := forall₂_left h.kids_rel hk
    exact .deeper ho hf hkind hk' (by rw [hs.tag_eq]; exact ht) (ih hs)

theorem sameElements_symm : ∀ (n : Nat) {t t' : XTree}, sizeOf t < n → SameElements t t' → SameElements t' t
  | n + 1, .node tag attrs text kids, _, hn, .node h => by
    refine .node ?_
    have hall : ∀ k ∈ kids, ∀ k', SameElements k k' → SameElements k' k := by
      intro k hm k' h
      have := List.sizeOf_lt_of_mem hm
      simp only [XTree.node.sizeOf_spec] at hn
      exact sameElements_symm n (by omega) h
    induction h with
    | nil => exact .nil
    | cons h _ ih => exact .cons (hall _ (by simp) _ h) (ih (by simp at hn ⊢; omega) fun k hk => hall k (by simp [hk]))

end Ndm
