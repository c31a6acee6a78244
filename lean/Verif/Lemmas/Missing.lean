import Verif.SpecMissing
import Verif.Lemmas.XmlRead
import Verif.Lemmas.Change

namespace Ndm

theorem least_table : (Cls.all.all fun c => c.least.all fun p => 1 ≤ p.2 && c.attrs.any (·.name == p.1) &&
    c.attrs.all fun f => f.name != p.1 || p.2 == 1 || f.isList && f.kind == .elem) = true := by decide +kernel

theorem attr_names : (Cls.all.all fun c => decide (c.attrs.map (·.name)).Nodup) = true := by decide +kernel

theorem least_pos {c : Cls} {n : Str} {k : Nat} (h : (n, k) ∈ c.least) : 1 ≤ k := by
  have := List.all_eq_true.mp (all_classes least_table c) _ h
  simp only [Bool.and_eq_true, decide_eq_true_eq] at this
  exact this.1.1

theorem least_one {c : Cls} {f : Field} {k : Nat} (h : (f.name, k) ∈ c.least) (hf : f ∈ c.attrs) (hs : f.isList = false ∨ f.kind ≠ .elem) :
    k = 1 := by
  have := List.all_eq_true.mp (all_classes least_table c) _ h
  simp only [Bool.and_eq_true] at this
  have := List.all_eq_true.mp this.2 f hf
  simp only [bne_self_eq_false, Bool.false_or, Bool.or_eq_true, Bool.and_eq_true, beq_iff_eq] at this
  rcases this with h | ⟨h1, h2⟩
  · exact h
  · rcases hs with hs | hs
    · rw [hs] at h1; cases h1
    · exact absurd h2 hs

theorem items_one {v : Val} (h1 : v ≠ .none) (h2 : ∀ xs, v ≠ .list xs) : v.items = [v] := by
  cases v with
  | none => exact absurd rfl h1
  | list xs => exact absurd rfl (h2 xs)
  | _ => rfl

/-- What is read from an element is one value. -/
theorem bound_items {ty : FTy} {t : XTree} {v : Val} (h : bindElem ty t = .ok v) : v.items = [v] := by
  cases t with
  | node tag attrs text kids =>
    rcases bindElem_cases h with ⟨-, -, rfl⟩ | ⟨c, bs, rfl, -, -, rfl⟩
    · unfold leafVal
      split
      · rfl
      · exact items_one (convText_form ty text).1 (convText_form ty text).2
    · rfl

/-- The values in a field and the elements with its tag. -/
theorem field_items {c : Cls} {kids : List XTree} {bs : List (Str × Val)} (h : bindKids c [] kids = .ok bs) {f : Field} (hf : f ∈ c.attrs)
    (hk : f.kind = .elem) (attrs : List (Str × Str)) (text : Str) :
    List.Forall₂ (fun k x => bindElem f.ty k = .ok x) (kids.filter (·.tag == f.xmlName)) (boundField attrs text bs f).items := by
  obtain ⟨hkb, hone⟩ := bindKids_inv h
  have hfe := findElem_attr hf hk
  have hfil := forall₂_filter_tag (fun k b h => h.1) hkb f.xmlName
  have hmap : List.Forall₂ (fun k x => bindElem f.ty k = .ok x) (kids.filter (·.tag == f.xmlName))
      ((bs.filter (·.1 == f.xmlName)).map (·.2)) := by
    have htag : ∀ k ∈ kids.filter (·.tag == f.xmlName), k.tag = f.xmlName := fun k hk => by simpa using (List.mem_filter.mp hk).2
    generalize kids.filter (·.tag == f.xmlName) = ks at hfil htag
    generalize bs.filter (·.1 == f.xmlName) = cs at hfil
    induction hfil with
    | nil => exact .nil
    | @cons k b ks cs hkb _ ih =>
      obtain ⟨-, g, hg, hb⟩ := hkb
      rw [htag k List.mem_cons_self, hfe] at hg
      cases hg
      exact .cons hb (ih fun k hk => htag k (List.mem_cons_of_mem _ hk))
  unfold boundField
  simp only [hk]
  split
  · exact hmap
  · next hl =>
    have hl : f.isList = false := by simpa using hl
    cases hx : kids.filter (·.tag == f.xmlName) with
    | nil =>
      rw [hx] at hmap
      cases hm : (bs.filter (·.1 == f.xmlName)).map (·.2) with
      | nil => exact .nil
      | cons _ _ => rw [hm] at hmap; cases hmap
    | cons k ks =>
      have hkm : k ∈ kids.filter (·.tag == f.xmlName) := by rw [hx]; exact List.mem_cons_self
      obtain ⟨hkm, ht⟩ := List.mem_filter.mp hkm
      have ht : k.tag = f.xmlName := by simpa using ht
      have hlen := (hone k hkm f (by rw [ht]; exact hfe) hl).2
      rw [ht, hx] at hlen
      have hks : ks = [] := by
        cases ks with
        | nil => rfl
        | cons _ _ => simp at hlen
      subst hks
      rw [hx] at hmap
      cases hm : (bs.filter (·.1 == f.xmlName)).map (·.2) with
      | nil => rw [hm] at hmap; cases hmap
      | cons x xs =>
        rw [hm] at hmap
        cases hmap with
        | cons hb hr =>
          cases hr
          simp only [List.headD_cons]
          rw [bound_items hb]
          exact .cons hb .nil

theorem forall₂_right {α β : Type} {R : α → β → Prop} {xs : List α} {ys : List β} (h : List.Forall₂ R xs ys) {y : β} (hy : y ∈ ys) :
    ∃ x ∈ xs, R x y := by
  induction h with
  | nil => cases hy
  | @cons a b as bs hab _ ih =>
    rcases List.mem_cons.mp hy with rfl | hy
    · exact ⟨a, by simp, hab⟩
    · obtain ⟨x, hx, h⟩ := ih hy
      exact ⟨x, by simp [hx], h⟩

/-- The values in the fields that are attributes or texts. -/
theorem simple_items {f : Field} (hk : f.kind ≠ .elem) (attrs : List (Str × Str)) (text : Str) (bs : List (Str × Val)) :
    ∀ x ∈ (boundField attrs text bs f).items, ∀ c vs, x ≠ .obj c vs := by
  have key : ∀ s, ∀ x ∈ (convText f.ty s).items, ∀ c vs, x ≠ .obj c vs := by
    intro s x hx c vs e
    rw [items_one (convText_form _ _).1 (convText_form _ _).2, List.mem_singleton] at hx
    rw [e] at hx
    revert hx
    unfold convText convEnum
    cases f.ty with
    | str => simp
    | int => dsimp only; split <;> simp
    | dec => dsimp only; split <;> simp
    | cls c => dsimp only; split <;> (try split) <;> simp
  unfold boundField
  cases hk' : f.kind with
  | elem => exact absurd hk' hk
  | attr =>
    simp only [bindAttr]
    split
    · exact key _
    · exact fun x hx => nomatch hx
  | text =>
    simp only [bindText]
    split
    · exact fun x hx => nomatch hx
    · exact key _

mutual
/-- What is read lacks what the document lacks, and nothing else. -/
theorem incomplete_read : ∀ (t : XTree) {ty : FTy} {v : Val}, bindElem ty t = .ok v → (Incomplete v ↔ IncompleteXml ty t)
  | .node tag attrs text kids, ty, v, h => by
    rcases bindElem_cases h with ⟨ho, rfl, rfl⟩ | ⟨c, bs, rfl, hm, hb, rfl⟩
    · constructor
      · intro hi
        exfalso
        have : ∀ c vs, leafVal ty text ≠ .obj c vs := by
          intro c vs
          unfold leafVal
          split
          · exact fun e => nomatch e
          · unfold convText convEnum
            cases ty with
            | str => simp
            | int => dsimp only; split <;> simp
            | dec => dsimp only; split <;> simp
            | cls c => dsimp only; split <;> (try split) <;> simp
        generalize leafVal ty text = w at hi this
        cases hi with
        | here => exact this _ _ rfl
        | inside => exact this _ _ rfl
      · intro hi
        cases hi with
        | element h' => rw [ho] at h'; cases h'
        | attr h' => rw [ho] at h'; cases h'
        | text h' => rw [ho] at h'; cases h'
        | inside h' => rw [ho] at h'; cases h'
    · have hobj : (FTy.cls c).object? = some c := by simp [FTy.object?, hm]
      have hin := incompletes_read kids
      constructor
      · intro hi
        cases hi with
        | @here _ _ n v k hv hl hlt =>
          obtain ⟨f, hf, e⟩ := List.mem_map.mp hv
          cases e
          cases hk : f.kind with
          | elem =>
            refine .element hobj hf hk hl ?_
            show (kids.filter (·.tag == f.xmlName)).length < k
            rw [(field_items hb hf hk attrs text).length_eq]
            exact hlt
          | attr =>
            refine .attr hobj hf hk hl ?_
            have := least_one hl hf (.inr (by rw [hk]; decide))
            subst this
            unfold boundField at hlt
            simp only [hk, bindAttr] at hlt
            show attrLookup f.xmlName attrs = none
            cases ha : attrLookup f.xmlName attrs with
            | none => rfl
            | some s =>
              rw [ha] at hlt
              simp only [items_one (convText_form f.ty s).1 (convText_form f.ty s).2, List.length_singleton] at hlt
              omega
          | text =>
            refine .text hobj hf hk hl ?_
            have := least_one hl hf (.inr (by rw [hk]; decide))
            subst this
            unfold boundField at hlt
            simp only [hk, bindText] at hlt
            show text = []
            split at hlt
            · next he => simpa using he
            · rw [items_one (convText_form f.ty text).1 (convText_form f.ty text).2, List.length_singleton] at hlt
              omega
        | @inside _ _ n v x hv hx hi =>
          obtain ⟨f, hf, e⟩ := List.mem_map.mp hv
          cases e
          by_cases hk : f.kind = .elem
          · obtain ⟨k, hkm, hbk⟩ := forall₂_right (field_items hb hf hk attrs text) hx
            obtain ⟨hkm, ht⟩ := List.mem_filter.mp hkm
            exact .inside hobj hf hk hkm (by simpa using ht) ((hin k hkm hbk).mp hi)
          · exfalso
            have := simple_items hk attrs text bs x hx
            cases hi with
            | here => exact this _ _ rfl
            | inside => exact this _ _ rfl
      · intro hi
        have hmem : ∀ {f}, f ∈ c.attrs → (f.name, boundField attrs text bs f) ∈ c.attrs.map fun f => (f.name, boundField attrs text bs f) :=
          fun hf => List.mem_map.mpr ⟨_, hf, rfl⟩
        cases hi with
        | @element _ c' f _ k h' hf hk hl hlt =>
          rw [hobj] at h'
          cases h'
          refine .here (hmem hf) hl ?_
          rw [← (field_items hb hf hk attrs text).length_eq]
          exact hlt
        | @attr _ c' f _ k h' hf hk hl ha =>
          rw [hobj] at h'
          cases h'
          refine .here (hmem hf) hl ?_
          have ha : attrLookup f.xmlName attrs = none := ha
          unfold boundField
          simp only [hk, bindAttr, ha]
          exact least_pos hl
        | @text _ c' f _ k h' hf hk hl ha =>
          rw [hobj] at h'
          cases h'
          refine .here (hmem hf) hl ?_
          have ha : text = [] := ha
          unfold boundField
          simp only [hk, bindText, ha]
          exact least_pos hl
        | @inside _ c' f _ k h' hf hk hkm ht hi =>
          rw [hobj] at h'
          cases h'
          obtain ⟨x, hx, hbx⟩ := forall₂_left (field_items hb hf hk attrs text) (List.mem_filter.mpr ⟨hkm, by simpa using ht⟩)
          exact .inside (hmem hf) hx ((hin k hkm hbx).mpr hi)

theorem incompletes_read : ∀ (ts : List XTree), ∀ t ∈ ts, ∀ {ty : FTy} {v : Val}, bindElem ty t = .ok v → (Incomplete v ↔ IncompleteXml ty t)
  | [], _, h => nomatch h
  | u :: us, t, h => fun hb => by
    rcases List.mem_cons.mp h with e | h
    · rw [e] at hb ⊢
      exact incomplete_read u hb
    · exact incompletes_read us t h hb
end

end Ndm
