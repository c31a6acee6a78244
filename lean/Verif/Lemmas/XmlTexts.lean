import Verif.Lemmas.XmlBind
import Mathlib.Logic.Equiv.List
import Mathlib.Data.Countable.Basic

/-! # The texts of documents; numbers that are written in plain form -/

namespace Ndm

/-! ## Numbers -/

theorem number_plain (d : Dec) : d.plain.number = d.number := by
  cases d with
  | fin neg coef exp =>
    by_cases h : exp > 0
    · simp only [Dec.plain, h, if_true, Dec.number]
      congr 1
      obtain ⟨k, rfl⟩ : ∃ k : Nat, exp = k := ⟨exp.toNat, by omega⟩
      rw [Rat.zpow_natCast, Rat.zpow_zero, Rat.mul_one, Rat.mul_assoc]
      congr 1
      simp [Rat.natCast_mul, Rat.natCast_pow]
    · simp [Dec.plain, h]
  | inf => rfl
  | nan => rfl

mutual
theorem same_plain : (v : Val) → SameVal v v.plain
  | .none => .none
  | .str s => .str s
  | .int i => .int i
  | .enum c s => .enum c s
  | .dec d => by
    rw [Val.plain]
    cases hd : d.number with
    | none =>
      have : d.plain = d := by
        cases d with
        | fin => cases hd
        | inf => rfl
        | nan => rfl
      rw [this]
      exact .same d
    | some x => exact .number hd (by rw [number_plain, hd])
  | .obj c vs => by rw [Val.plain]; exact .obj (same_plainVars vs)
  | .list xs => by rw [Val.plain]; exact .list (same_plainList xs)

theorem same_plainVars : (vs : List (Str × Val)) → SameVars vs (plainVars vs)
  | [] => .nil
  | (n, v) :: vs => .cons (same_plain v) (same_plainVars vs)

theorem same_plainList : (vs : List Val) → SameVals vs (plainList vs)
  | [] => .nil
  | v :: vs => .cons (same_plain v) (same_plainList vs)
end

/-! ## Texts -/

theorem goodText_num {s : Str} (h : ∀ c ∈ s, NumC c ∨ c = 'F') : goodText s = true := by
  have hc : ∀ c ∈ s, xmlChar c = true ∧ c ≠ '\r' := by
    intro c hc
    rcases h c hc with (h | h | h) | rfl
    · obtain ⟨h1, h2⟩ := h
      refine ⟨?_, fun e => by subst e; simp at h1⟩
      unfold xmlChar
      have : 32 ≤ c.toNat ∧ c.toNat ≠ 0xFFFE ∧ c.toNat ≠ 0xFFFF := by omega
      simp [this]
    · simp only [List.mem_cons, List.not_mem_nil, or_false] at h
      rcases h with rfl | rfl | rfl | rfl <;> decide
    · simp only [List.mem_cons, List.not_mem_nil, or_false] at h
      rcases h with rfl | rfl | rfl | rfl | rfl | rfl | rfl | rfl | rfl <;> decide
    · decide
  unfold goodText xmlText
  rw [Bool.and_eq_true]
  refine ⟨List.all_eq_true.mpr fun c h => (hc c h).1, ?_⟩
  simp only [List.contains_eq_mem, Bool.not_eq_true', decide_eq_false_iff_not]
  exact fun h => (hc _ h).2 rfl

theorem goodText_int (i : Int) : goodText (intStr i) = true := goodText_num fun c hc => Or.inl (intStr_num i c hc)

theorem goodText_dec (d : Dec) : goodText d.xmlStr = true := goodText_num (xmlStr_num d)

/-- The values of enumerations, and the fixed attributes, are texts XML can hold. -/
theorem schema_good : (Cls.all.all fun c => (match c.members with
    | some ms => ms.all fun m => goodText m.2
    | none => true) && (fixedAttrs c).all fun a => goodText a.2) = true := by decide +kernel

theorem goodText_enum {c : Cls} {ms : List (Str × Str)} (hm : c.members = some ms) {s : Str} (h : ∃ m, (m, s) ∈ ms) :
    goodText s = true := by
  have := all_classes schema_good c
  rw [Bool.and_eq_true, hm] at this
  obtain ⟨m, h⟩ := h
  exact List.all_eq_true.mp this.1 _ h

theorem goodTrees_append {xs ys : List XTree} (h1 : goodTrees xs = true) (h2 : goodTrees ys = true) : goodTrees (xs ++ ys) = true := by
  induction xs with
  | nil => exact h2
  | cons x xs ih =>
    rw [goodTrees, Bool.and_eq_true] at h1
    rw [List.cons_append, goodTrees, h1.1, ih h1.2]
    rfl

theorem xmlStr_good {ty : FTy} {v : Val} (h : HasType ty v) (hg : v.goodTexts = true) {s : Str} (hs : xmlStr v = some s) :
    goodText s = true := by
  cases h with
  | str => cases hs; exact hg
  | int i => cases hs; exact goodText_int i
  | intText => cases hs; exact hg
  | dec d => cases hs; exact goodText_dec d
  | decText => cases hs; exact hg
  | enum _ hm h => cases hs; exact goodText_enum hm h
  | enumText => cases hs; exact hg
  | obj => cases hs

theorem field_xmlStr_good {f : Field} {v : Val} (h : FieldOk f v) (hg : v.goodTexts = true) {s : Str} (hs : xmlStr v = some s) :
    goodText s = true := by
  cases h with
  | list => cases hs
  | none => cases hs
  | one _ ht => exact xmlStr_good ht hg hs

theorem attrsOf_good : ∀ {fs : List Field} {vs : List (Str × Val)}, HasFields fs vs → goodVars vs = true →
    (attrsOf fs vs).all (fun a => goodText a.2) = true
  | _, _, .nil, _ => rfl
  | f :: fs, (_, v) :: vs, .cons hv hvs, hg => by
    rw [goodVars, Bool.and_eq_true] at hg
    rw [attrsOf, List.all_append, attrsOf_good hvs hg.2, Bool.and_true]
    split
    · cases hx : xmlStr v with
      | none => rfl
      | some s => simpa using field_xmlStr_good hv hg.1 hx
    · rfl

theorem textOf_good : ∀ {fs : List Field} {vs : List (Str × Val)}, HasFields fs vs → goodVars vs = true → goodText (textOf fs vs) = true
  | _, _, .nil, _ => rfl
  | f :: fs, (_, v) :: vs, .cons hv hvs, hg => by
    rw [goodVars, Bool.and_eq_true] at hg
    rw [textOf]
    split
    · cases hx : xmlStr v with
      | none => rfl
      | some s => simpa using field_xmlStr_good hv hg.1 hx
    · exact textOf_good hvs hg.2

theorem fixed_good (c : Cls) : (fixedAttrs c).all (fun a => goodText a.2) = true :=
  ((Bool.and_eq_true _ _).mp (all_classes schema_good c)).2

theorem leaf_good {tag s : Str} (h : goodText s = true) : goodTrees [.node tag [] s []] = true := by
  simp [goodTrees, XTree.good, h]

mutual
theorem elems_good {ty : FTy} {v : Val} : HasType ty v → v.goodTexts = true → ∀ tag, goodTrees (toElems tag v) = true
  | .obj (c := c) (vs := vs) hm hf, hg, tag => by
    have hg' : goodVars vs = true := by simpa [Val.goodTexts] using hg
    have h1 := attrsOf_good hf hg'
    have h2 := textOf_good hf hg'
    have h3 := kids_good hf hg'
    simp only [Cls.attrs] at h1 h2 h3
    simp only [toElems, goodTrees, XTree.good, List.all_append, fixed_good, h1, h2, h3, Bool.and_self]
  | .str s, hg, tag => leaf_good hg
  | .int i, _, tag => leaf_good (goodText_int i)
  | .intText s h, hg, tag => leaf_good hg
  | .dec d, _, tag => leaf_good (goodText_dec d)
  | .decText s h, hg, tag => leaf_good hg
  | .enum s hm h, _, tag => leaf_good (goodText_enum hm h)
  | .enumText s hm h, hg, tag => leaf_good hg

theorem kids_good {fs : List Field} {vs : List (Str × Val)} : HasFields fs vs → goodVars vs = true → goodTrees (toKids fs vs) = true
  | .nil, _ => rfl
  | .cons (f := f) hv hvs, hg => by
    rw [goodVars, Bool.and_eq_true] at hg
    rw [toKids]
    refine goodTrees_append ?_ (kids_good hvs hg.2)
    split
    · exact field_good hv hg.1
    · rfl

theorem field_good {f : Field} {v : Val} : FieldOk f v → v.goodTexts = true → goodTrees (toElems f.xmlName v) = true
  | .list hl hx, hg => by
    rw [toElems]
    exact list_good hx (by simpa [Val.goodTexts] using hg) f.xmlName
  | .none hl, _ => rfl
  | .one hl ht _, hg => elems_good ht hg f.xmlName

theorem list_good {ty : FTy} {xs : List Val} : AllHaveType ty xs → goodList xs = true → ∀ tag, goodTrees (toList tag xs) = true
  | .nil, _, _ => rfl
  | .cons hv hvs, hg, tag => by
    rw [goodList, Bool.and_eq_true] at hg
    rw [toList]
    exact goodTrees_append (elems_good hv hg.1 tag) (list_good hvs hg.2 tag)
end

/-! ## There are faithful readers and writers -/

/-- Tokens of a document. -/
abbrev Tok := Str ⊕ Nat

mutual
/-- A document as a sequence of tokens. -/
def toks : XTree → List Tok
  | .node tag attrs text kids =>
    .inl tag :: .inr attrs.length :: (attrs.flatMap fun a => [.inl a.1, .inl a.2]) ++ .inl text :: .inr kids.length :: toksList kids

def toksList : List XTree → List Tok
  | [] => []
  | t :: ts => toks t ++ toksList ts
end

theorem attrToks_inj : ∀ {as bs : List (Str × Str)} {r s : List Tok}, as.length = bs.length →
    (as.flatMap fun a => [Sum.inl a.1, Sum.inl a.2]) ++ r = (bs.flatMap fun a => [Sum.inl a.1, Sum.inl a.2]) ++ s → as = bs ∧ r = s
  | [], [], _, _, _, h => ⟨rfl, h⟩
  | [], _ :: _, _, _, hl, _ => by simp at hl
  | _ :: _, [], _, _, hl, _ => by simp at hl
  | (a, b) :: as, (c, d) :: bs, r, s, hl, h => by
    simp only [List.flatMap_cons, List.cons_append, List.nil_append, List.append_assoc, List.cons.injEq, Sum.inl.injEq] at h
    obtain ⟨e1, e2⟩ := attrToks_inj (by simpa using hl) h.2.2
    exact ⟨by rw [e1, h.1, h.2.1], e2⟩

mutual
theorem toks_inj : ∀ {t u : XTree} {r s : List Tok}, toks t ++ r = toks u ++ s → t = u ∧ r = s
  | .node t1 a1 x1 k1, .node t2 a2 x2 k2, r, s, h => by
    simp only [toks, List.cons_append, List.append_assoc, List.cons.injEq, Sum.inl.injEq, Sum.inr.injEq] at h
    obtain ⟨e1, h2⟩ := attrToks_inj h.2.1 h.2.2
    simp only [List.cons.injEq, Sum.inl.injEq, Sum.inr.injEq] at h2
    obtain ⟨e3, e4⟩ := toksList_inj h2.2.1 h2.2.2
    exact ⟨by rw [h.1, e1, h2.1, e3], e4⟩

theorem toksList_inj : ∀ {ts us : List XTree} {r s : List Tok}, ts.length = us.length → toksList ts ++ r = toksList us ++ s →
    ts = us ∧ r = s
  | [], [], _, _, _, h => ⟨rfl, h⟩
  | [], _ :: _, _, _, hl, _ => by simp at hl
  | _ :: _, [], _, _, hl, _ => by simp at hl
  | t :: ts, u :: us, r, s, hl, h => by
    simp only [toksList, List.append_assoc] at h
    obtain ⟨e1, e2⟩ := toks_inj h
    obtain ⟨e3, e4⟩ := toksList_inj (by simpa using hl) e2
    exact ⟨by rw [e1, e3], e4⟩
end

theorem forall₂_same {R : XTree → XTree → Prop} : ∀ {ts : List XTree}, (∀ t ∈ ts, R t t) → List.Forall₂ R ts ts
  | [], _ => .nil
  | t :: _, h => .cons (h t (by simp)) (forall₂_same fun u hu => h u (by simp [hu]))

mutual
theorem sameDoc_refl : (t : XTree) → SameDoc t t
  | .node tag attrs text kids => by
    have h := sameDocs_refl kids
    have := SameDoc.node (tag := tag) (attrs := attrs) (more := []) (text := text) (text' := text) (kids := kids) (kids' := kids)
      (fun a ha => nomatch ha) (fun _ => rfl) fun t => forall₂_same fun u hu => h u (List.mem_filter.mp hu).1
    rwa [List.append_nil] at this

theorem sameDocs_refl : (ts : List XTree) → ∀ t ∈ ts, SameDoc t t
  | [], _, h => nomatch h
  | u :: us, t, h => by
    rcases List.mem_cons.mp h with h | h
    · rw [h]
      exact sameDoc_refl u
    · exact sameDocs_refl us t h
end

theorem countable_xtree : Countable XTree := by
  have h1 : Countable Char := Function.Injective.countable (f := Char.toNat) fun a b h => Char.toNat_inj.mp h
  have h2 : Countable Tok := inferInstance
  exact Function.Injective.countable (f := toks) fun t u h => (toks_inj (r := []) (s := []) (by simpa using h)).1

theorem natDigits_inj {m n : Nat} (h : natDigits m = natDigits n) : m = n := by
  rw [← digitsVal_natDigits m, h, digitsVal_natDigits]

/-- There is a faithful reader and writer, even one that keeps the layout. -/
theorem faithful_exact : ∃ X : XmlChars, X.Faithful ∧ ∀ t, ∃ text, X.read text = some t := by
  classical
  obtain ⟨f, hf⟩ := countable_xtree.exists_injective_nat
  let w : XTree → Str := fun t => '<' :: (natDigits (f t) ++ ['>'])
  have hw : ∀ t u, w t = w u → t = u := by
    intro t u h
    have := (List.cons.inj h).2
    exact hf (natDigits_inj (List.append_cancel_right this))
  have key : ∀ t, (if h : ∃ u, w u = w t then some h.choose else none) = some t := by
    intro t
    have h : ∃ u, w u = w t := ⟨t, rfl⟩
    rw [dif_pos h]
    exact congrArg some (hw _ _ h.choose_spec)
  refine ⟨⟨fun _ _ t => .ok (w t), fun s => if h : ∃ t, w t = s then some h.choose else none, fun _ => none⟩, ?_, fun t => ⟨w t, key t⟩⟩
  intro loc noNsLoc t _
  refine ⟨w t, rfl, ⟨w t, ⟨⟨?_, ?_⟩, [], [], ?_, ?_, by simp⟩, ⟨_, rfl⟩, ⟨'<' :: natDigits (f t), rfl⟩⟩, t, ?_, sameDoc_refl t⟩
  · intro c hc
    cases hc
    decide
  · intro c hc
    have : (w t).getLast? = some '>' := by
      show ('<' :: (natDigits (f t) ++ ['>'])).getLast? = _
      rw [← List.cons_append, List.getLast?_append]
      rfl
    rw [this] at hc
    cases hc
    decide
  · intro c hc; cases hc
  · intro c hc; cases hc
  · exact key t

/-- There is a faithful reader and writer. -/
theorem faithful_exists : ∃ X : XmlChars, X.Faithful := faithful_exact.imp fun _ h => h.1

end Ndm
