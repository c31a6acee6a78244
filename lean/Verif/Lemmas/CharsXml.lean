import Verif.Lemmas.XmlFrom
import Verif.Lemmas.CharsRead

namespace Ndm

variable {P : Char → Prop}

theorem textSays_in {ty : FTy} {s : Str} {v : Val} (hs : ∀ c ∈ s, P c) (h : TextSays ty s v) : TextsIn P v := by
  intro x hx
  cases h <;> cases hx <;> exact hs

theorem docIn_kid {t k : XTree} (h : DocIn P t) (hk : k ∈ t.kids) : DocIn P k := fun u hu => h u (.inside hk hu)

mutual
/-- The texts in what a document says are texts of the document. -/
theorem xmlSays_in {ty : FTy} {t : XTree} {v : Val} (hd : DocIn P t) (h : XmlSays ty t v) : TextsIn P v := by
  cases h with
  | simple _ _ hs => exact textSays_in (hd t .here).1 hs
  | object _ hf => exact textsIn_obj (fieldsSay_in hd hf)

theorem fieldsSay_in {t : XTree} {fs : List Field} {vs : List (Str × Val)} (hd : DocIn P t) (h : FieldsSay t fs vs) :
    ∀ n x, (n, x) ∈ vs → TextsIn P x := by
  cases h with
  | nil => exact fun _ _ hx => nomatch hx
  | cons hf hr =>
    intro n x hx
    rcases List.mem_cons.mp hx with e | hx
    · cases e
      exact fieldSays_in hd hf
    · exact fieldsSay_in hd hr n x hx

theorem fieldSays_in {t : XTree} {f : Field} {v : Val} (hd : DocIn P t) (h : FieldSays t f v) : TextsIn P v := by
  cases h with
  | attr _ ha hs => exact textSays_in ((hd t .here).2 _ _ ha) hs
  | noAttr => intro s hs; cases hs
  | text _ _ hs => exact textSays_in (hd t .here).1 hs
  | noText => intro s hs; cases hs
  | @child _ k _ _ _ _ hx hs =>
    have hk : k ∈ t.kids.filter (·.tag == f.xmlName) := by rw [hx]; exact List.mem_singleton.mpr rfl
    exact xmlSays_in (docIn_kid hd (List.mem_filter.mp hk).1) hs
  | noChild => intro s hs; cases hs
  | children _ _ hs =>
    have := itemsSay_in (fun k hk => docIn_kid hd (List.mem_filter.mp hk).1) hs
    intro s hw
    cases hw with
    | item hm hw => exact this _ hm s hw

theorem itemsSay_in : ∀ {ty : FTy} {ts : List XTree} {vs : List Val}, (∀ t ∈ ts, DocIn P t) → ItemsSay ty ts vs → ∀ x ∈ vs, TextsIn P x
  | _, _, _, _, .nil, _, hx => by cases hx
  | _, _, _, hd, .cons hv hr, x, hx => by
    rcases List.mem_cons.mp hx with e | hx
    · rw [e]
      exact xmlSays_in (hd _ List.mem_cons_self) hv
    · exact itemsSay_in (fun t ht => hd t (List.mem_cons_of_mem _ ht)) hr x hx
end

end Ndm
