import Verif.SpecFrom
import Verif.Lemmas.Conf

/-! Where bound data comes from: binding, attaching, and the recoding of attitude states. -/

namespace Ndm

variable {M : Cls} {L : List Line} {att : Bool}

theorem convText_reads (att : Bool) (t : FTy) (s : Str) : ReadAs att t s (convText t s) := by
  unfold convText
  split
  · exact .text s
  · split
    · exact .int (by assumption)
    · exact .text s
  · split
    · exact .dec (by assumption)
    · exact .text s
  · split
    · unfold convEnum
      split
      · exact .enum s
      · exact .text s
    · exact .text s

theorem attrLookup_mem {n s : Str} {A : List (Str × Str)} (h : attrLookup n A = some s) : (n, s) ∈ A := by
  unfold attrLookup at h
  rw [Option.map_eq_some_iff] at h
  obtain ⟨p, hp, rfl⟩ := h
  have hn : p.1 = n := by simpa using List.find?_some hp
  have := List.mem_of_find?_eq_some hp
  rw [← hn]; exact this

theorem simpleFrom_attr {c : Cls} {t : Str} {A : List (Str × Str)} {f : Field} {vs : List (Str × Val)}
    (hf : f ∈ c.fields) (hk : f.kind = .attr) (h : SimpleFrom att c t A vs) :
    SimpleFrom att c t A ((f.name, bindAttr f A) :: vs) := by
  unfold bindAttr
  split
  · rename_i s hs
    exact .attr hf hk (attrLookup_mem hs) (convText_reads _ _ _) h
  · exact .none h

theorem simpleFrom_text {c : Cls} {t : Str} {A : List (Str × Str)} {f : Field} {vs : List (Str × Val)}
    (hf : f ∈ c.fields) (hk : f.kind = .text) (h : SimpleFrom att c t A vs) :
    SimpleFrom att c t A ((f.name, bindText f t) :: vs) := by
  unfold bindText
  split
  · exact .none h
  · exact .text hf hk (convText_reads _ _ _) h

theorem simpleFrom_fields (c : Cls) (t : Str) (A : List (Str × Str)) : ∀ (fs : List Field), (∀ f ∈ fs, f ∈ c.fields) →
    SimpleFrom att c t A (fs.map fun f => (f.name, match f.kind with
      | .attr => bindAttr f A
      | .text => bindText f t
      | .elem => if f.isList then .list [] else .none))
  | [], _ => .nil
  | f :: fs, h => by
    have ih := simpleFrom_fields c t A fs fun x hx => h x (by simp [hx])
    rw [List.map_cons]
    cases hk : f.kind with
    | attr => exact simpleFrom_attr (h f (by simp)) hk ih
    | text => exact simpleFrom_text (h f (by simp)) hk ih
    | elem =>
      simp only
      split
      · exact .empty ih
      · exact .none ih

theorem bindLeaf_from {f : Field} {x : XLeaf} (hk : f.kind = .elem) (h : Stated M L f.xmlName x.text x.attrs) :
    ItemFrom M L att f (bindLeaf f x) := by
  have prim : ∀ t : FTy, f.ty = t → ItemFrom M L att f (if x.text.isEmpty then .str [] else convText t x.text) := by
    intro t ht
    subst ht
    split
    · rename_i he
      have he : x.text = [] := by simpa using he
      have := ReadAs.text (att := att) (t := f.ty) x.text
      rw [he] at this
      exact .text hk (he ▸ h) this
    · exact .text hk h (convText_reads _ _ _)
  unfold bindLeaf
  split
  · rename_i c hc
    split
    · exact prim _ rfl
    · refine .simple hk hc h ?_
      exact simpleFrom_fields c x.text x.attrs _ fun g hg => List.mem_of_mem_filter hg
  · rename_i hc
    exact prim _ rfl

theorem itemsFrom_map {f : Field} (hk : f.kind = .elem) : ∀ {xs : List XLeaf},
    (∀ x ∈ xs, Stated M L f.xmlName x.text x.attrs) → ItemsFrom M L att f (xs.map (bindLeaf f))
  | [], _ => .nil
  | x :: _, h => .cons (bindLeaf_from hk (h x (by simp))) (itemsFrom_map hk fun y hy => h y (by simp [hy]))

/-- A block bound to a document all of whose children were stated (and which has no attributes of its own). -/
theorem bindDoc_from {c : Cls} {d : XDoc} {v : Val} (hA : d.attrs = [] ∨ ∀ f ∈ c.attrs, f.kind ≠ .attr)
    (ht : d.text = []) (hc : ∀ x ∈ d.children, Stated M L x.tag x.text x.attrs) (h : bindDoc c d = .ok v) :
    ∃ vs, v = .obj c vs ∧ FieldsFrom M L att c vs := by
  unfold bindDoc at h
  obtain ⟨_, -, h⟩ := bind_ok_iff.mp h
  cases h
  refine ⟨_, rfl, ?_⟩
  have : ∀ fs : List Field, (∀ f ∈ fs, f ∈ c.attrs) →
      FieldsFrom M L att c (fs.map fun f => (f.name, bindField d f)) := by
    intro fs
    induction fs with
    | nil => intro _; exact .nil
    | cons f fs ih =>
      intro hfs
      refine .cons (mem_attrs (hfs f (by simp))) ?_ (ih fun x hx => hfs x (by simp [hx]))
      unfold bindField
      split
      · rename_i hk
        rcases hA with hA | hA
        · rw [hA]; exact .none
        · exact absurd hk (hA f (hfs f (by simp)))
      · unfold bindText
        rw [ht]; exact .none
      · rename_i hk
        have hx : ∀ x ∈ d.children.filter (·.tag == f.xmlName), Stated M L f.xmlName x.text x.attrs := by
          intro x hx
          obtain ⟨hx, he⟩ := List.mem_filter.mp hx
          have he : x.tag = f.xmlName := by simpa using he
          exact he ▸ hc x hx
        simp only
        split
        · exact .list (itemsFrom_map hk hx)
        · split
          · exact .none
          · rename_i x xs hxs
            exact .one (bindLeaf_from hk (hx x (by rw [hxs]; simp)))
  exact this _ fun f hf => hf

/-- An object of a simple class bound to a document without children. -/
theorem bindDoc_simple {c : Cls} {d : XDoc} {v : Val} (hc : d.children = []) (h : bindDoc c d = .ok v) :
    ∃ vs, v = .obj c vs ∧ SimpleFrom att c d.text d.attrs vs := by
  unfold bindDoc at h
  obtain ⟨_, -, h⟩ := bind_ok_iff.mp h
  cases h
  refine ⟨_, rfl, ?_⟩
  have := simpleFrom_fields (att := att) c d.text d.attrs c.attrs fun f hf => mem_attrs hf
  convert this using 1
  apply List.map_congr_left
  intro f _
  unfold bindField
  rw [hc]
  cases f.kind <;> rfl

theorem default_from (c : Cls) : ∃ vs, c.default = .obj c vs ∧ FieldsFrom M L att c vs := by
  refine ⟨_, rfl, ?_⟩
  have : ∀ fs : List Field, (∀ f ∈ fs, f ∈ c.fields) →
      FieldsFrom M L att c (fs.map fun f => (f.name, if f.isList then .list [] else .none)) := by
    intro fs
    induction fs with
    | nil => intro _; exact .nil
    | cons f fs ih =>
      intro hfs
      refine .cons (hfs f (by simp)) ?_ (ih fun x hx => hfs x (by simp [hx]))
      split
      · exact .list .nil
      · exact .none
  exact this _ fun f hf => List.mem_of_mem_filter hf

/-! ## Attaching -/

theorem fieldsFrom_lookup {c : Cls} {name : Str} {v : Val} : ∀ {vs : List (Str × Val)}, FieldsFrom M L att c vs →
    Val.lookupVar name vs = some v → ∃ f ∈ c.fields, f.name = name ∧ FieldFrom M L att f v
  | _, .nil, h => by cases h
  | _, .cons (f := f) (v := w) hf hw hr, h => by
    unfold Val.lookupVar at h
    rw [List.find?_cons] at h
    by_cases he : f.name = name
    · simp only [he, beq_self_eq_true, Option.map_some, Option.some.injEq] at h
      subst h
      exact ⟨f, hf, he, hw⟩
    · have : (f.name == name) = false := by simpa using he
      simp only [this] at h
      exact fieldsFrom_lookup hr h

theorem fieldsFrom_set {c : Cls} {name : Str} {v : Val} (hex : ∃ f ∈ c.fields, f.name = name)
    (hv : ∀ f ∈ c.fields, f.name = name → FieldFrom M L att f v) :
    ∀ {vs : List (Str × Val)}, FieldsFrom M L att c vs → FieldsFrom M L att c (Val.setVar name v vs)
  | _, .nil => by
    obtain ⟨f, hf, rfl⟩ := hex
    unfold Val.setVar
    exact .cons hf (hv f hf rfl) .nil
  | _, .cons (f := f) hf hw hr => by
    unfold Val.setVar
    split
    · rename_i he
      exact .cons hf (hv f hf he) hr
    · exact .cons hf hw (fieldsFrom_set hex hv hr)

theorem itemsFrom_append {f : Field} {v : Val} : ∀ {xs : List Val}, ItemsFrom M L att f xs → ItemFrom M L att f v →
    ItemsFrom M L att f (xs ++ [v])
  | _, .nil, h => .cons h .nil
  | _, .cons hx hr, h => .cons hx (itemsFrom_append hr h)

theorem reads_not_list {t : FTy} {s : Str} {v : Val} (h : ReadAs att t s v) :
    (∀ xs, v ≠ .list xs) ∧ ∀ c vs, v ≠ .obj c vs := by
  induction h with
  | untyped _ _ _ ih => exact ih
  | _ => exact ⟨by intros; simp, by intros; simp⟩

theorem not_itemFrom_list {f : Field} {xs : List Val} : ¬ ItemFrom M L att f (.list xs) := by
  intro h
  generalize hv : Val.list xs = v at h
  cases h with
  | text _ _ hr => exact (reads_not_list hr).1 _ hv.symm
  | simple => cases hv
  | block => cases hv

theorem fieldFrom_list {f : Field} {xs : List Val} (h : FieldFrom M L att f (.list xs)) : ItemsFrom M L att f xs := by
  generalize hv : Val.list xs = v at h
  cases h with
  | none => cases hv
  | list h => cases hv; exact h
  | one h => subst hv; exact absurd h not_itemFrom_list

theorem attach_from {c d : Cls} {o' sub : Val} {name : Str} {vs : List (Str × Val)} (ho : FieldsFrom M L att c vs)
    (hkind : ∀ f ∈ c.fields, f.name = name → f.kind = .elem) (hslot : HasSlot c name d)
    (hsub : sub = .none ∨ ∃ ws, sub = .obj d ws ∧ From M L att sub) (h : attach (.obj c vs) name sub = .ok o') :
    ∃ vs', o' = .obj c vs' ∧ FieldsFrom M L att c vs' := by
  obtain ⟨f, hfa, hfn, hft⟩ := hslot
  have huniq : ∀ g ∈ c.fields, g.name = name → g = f := fun g hg hn =>
    eq_of_name (names_nodup c) hg (mem_attrs hfa) (by rw [hn, hfn])
  have hex : ∃ f ∈ c.fields, f.name = name := ⟨f, mem_attrs hfa, hfn⟩
  have hkf := hkind f (mem_attrs hfa) hfn
  unfold attach at h
  simp only at h
  split at h
  · cases h
  · rename_i xs hlook
    obtain ⟨g, hga, hgn, hgo⟩ := fieldsFrom_lookup ho hlook
    have hgf := huniq g hga hgn
    subst hgf
    split at h
    · rename_i htr
      cases h
      refine ⟨_, rfl, fieldsFrom_set hex ?_ ho⟩
      intro k hk hkn
      obtain rfl := huniq k hk hkn
      rcases hsub with rfl | ⟨ws, rfl, hsub⟩
      · cases htr
      · exact .list (itemsFrom_append (fieldFrom_list hgo) (.block hkf hft hsub))
    · cases h
      exact ⟨_, rfl, ho⟩
  · cases h
    refine ⟨_, rfl, fieldsFrom_set hex ?_ ho⟩
    intro k hk hkn
    obtain rfl := huniq k hk hkn
    rcases hsub with rfl | ⟨ws, rfl, hsub⟩
    · exact .none
    · exact .one (.block hkf hft hsub)

/-! ## Recoding of attitude states -/

theorem attRecodeText_reads {f : Field} {t x : Str} (hk : f.kind ≠ .text) (h : ReadAs true f.ty t (.str x)) :
    ReadAs true f.ty t (attRecodeText (some f) x) := by
  unfold attRecodeText
  simp only
  split
  · exact .untyped h (convText_reads _ _ _)
  · rename_i h; exact absurd h hk
  · split
    · rename_i he
      have he : removeAll (py "Type") x = [] := by simpa using he
      refine .untyped h ?_
      rw [he]; exact .text []
    · exact .untyped h (convText_reads _ _ _)

/-- What recoding does to a value read from a text, other than a text. -/
theorem reads_recode {t : FTy} {s : Str} {v : Val} (h : ReadAs true t s v) (hv : ∀ x, v ≠ .str x) :
    ReadAs true t s (attRecode v) := by
  have := reads_not_list h
  cases v with
  | str x => exact absurd rfl (hv x)
  | dec d => exact .plain h
  | list xs => exact absurd rfl (this.1 xs)
  | obj c vs => exact absurd rfl (this.2 c vs)
  | _ => simp only [attRecode]; exact h

/-- The recoding of one value. -/
def recodeOne (f : Option Field) : Val → Val
  | .str s => attRecodeText f s
  | v => attRecode v

theorem recodeList_cons (f : Option Field) (v : Val) (vs : List Val) :
    attRecodeList f (v :: vs) = recodeOne f v :: attRecodeList f vs := by
  cases v <;> simp only [attRecodeList, recodeOne]

theorem recodeVars_cons {c : Cls} (k : Str) (v : Val) (vs : List (Str × Val)) (h : ∀ xs, v ≠ .list xs) :
    attRecodeVars c ((k, v) :: vs) = (k, recodeOne (c.fields.find? (·.name == k)) v) :: attRecodeVars c vs := by
  cases v with
  | list xs => exact absurd rfl (h xs)
  | _ => simp only [attRecodeVars, recodeOne]

theorem reads_recodeOne {f : Field} {s : Str} {v : Val} (hk : f.kind ≠ .text) (h : ReadAs true f.ty s v) :
    ReadAs true f.ty s (recodeOne (some f) v) := by
  by_cases hs : ∃ x, v = .str x
  · obtain ⟨x, rfl⟩ := hs
    exact attRecodeText_reads hk h
  · have hs' : ∀ x, v ≠ .str x := fun x hx => hs ⟨x, hx⟩
    have : recodeOne (some f) v = attRecode v := by
      cases v with
      | str x => exact absurd rfl (hs' x)
      | _ => rfl
    rw [this]
    exact reads_recode h hs'

theorem simple_recode {c : Cls} {t : Str} {A : List (Str × Str)} {vs : List (Str × Val)}
    (h : SimpleFrom true c t A vs) : SimpleFrom true c t A (attRecodeVars c vs) := by
  induction h with
  | nil => simp only [attRecodeVars]; exact .nil
  | none _ ih => simp only [attRecodeVars, attRecode]; exact .none ih
  | empty _ ih => simp only [attRecodeVars, attRecodeList]; exact .empty ih
  | @text f v vs hf hk hr _ ih =>
    rw [recodeVars_cons _ _ _ (reads_not_list hr).1, find_field hf]
    by_cases hs : ∃ x, v = .str x
    · obtain ⟨x, rfl⟩ := hs
      simp only [recodeOne]
      unfold attRecodeText
      simp only [hk]
      unfold bindText
      split
      · exact .none ih
      · exact .text hf hk (.untyped hr (convText_reads _ _ _)) ih
    · have hs' : ∀ x, v ≠ .str x := fun x hx => hs ⟨x, hx⟩
      have : recodeOne (some f) v = attRecode v := by
        cases v with
        | str x => exact absurd rfl (hs' x)
        | _ => rfl
      rw [this]
      exact .text hf hk (reads_recode hr hs') ih
  | @attr f s v vs hf hk hA hr _ ih =>
    rw [recodeVars_cons _ _ _ (reads_not_list hr).1, find_field hf]
    exact .attr hf hk hA (reads_recodeOne (by rw [hk]; decide) hr) ih

theorem obj_recode {c : Cls} {vs : List (Str × Val)}
    (h : FieldsFrom M L true c vs → FieldsFrom M L true c (attRecodeVars c vs)) (hf : From M L true (.obj c vs)) :
    From M L true (.obj c (attRecodeVars c vs)) := by
  cases hf with
  | block hc hb => exact .block hc (h hb)
  | rotation hc hr hs => exact .rotation hc hr (simple_recode hs)

theorem item_recode {f : Field} {v : Val}
    (h : ∀ c vs, v = .obj c vs → FieldsFrom M L true c vs → FieldsFrom M L true c (attRecodeVars c vs))
    (hf : ItemFrom M L true f v) : ItemFrom M L true f (recodeOne (some f) v) := by
  cases hf with
  | text hk hs hr => exact .text hk hs (reads_recodeOne (by rw [hk]; decide) hr)
  | simple hk ht hs hr =>
    simp only [recodeOne, attRecode]
    exact .simple hk ht hs (simple_recode hr)
  | block hk ht hb =>
    simp only [recodeOne, attRecode]
    exact .block hk ht (obj_recode (h _ _ rfl) hb)

theorem field_recode {f : Field} {v : Val} (hl : ∀ xs, v ≠ .list xs)
    (h : ∀ c vs, v = .obj c vs → FieldsFrom M L true c vs → FieldsFrom M L true c (attRecodeVars c vs))
    (hf : FieldFrom M L true f v) : FieldFrom M L true f (recodeOne (some f) v) := by
  cases hf with
  | none => exact .none
  | list _ => exact absurd rfl (hl _)
  | one hi => exact .one (item_recode h hi)

mutual
theorem fields_recode : ∀ (vs : List (Str × Val)) (c : Cls), FieldsFrom M L true c vs →
    FieldsFrom M L true c (attRecodeVars c vs)
  | [], c, _ => by simp only [attRecodeVars]; exact .nil
  | (k, .list xs) :: vs, c, h => by
    cases h with
    | cons hf hw hr =>
      simp only [attRecodeVars, find_field hf]
      exact .cons hf (.list (items_recode xs _ (fieldFrom_list hw))) (fields_recode vs c hr)
  | (k, .obj d ws) :: vs, c, h => by
    cases h with
    | cons hf hw hr =>
      rw [recodeVars_cons _ _ _ (by intro xs hx; cases hx), find_field hf]
      exact .cons hf (field_recode (by intro xs hx; cases hx) (fun c' vs' he h' => by
        cases he; exact fields_recode ws d h') hw) (fields_recode vs c hr)
  | (k, .none) :: vs, c, h => by
    cases h with
    | cons hf hw hr =>
      rw [recodeVars_cons _ _ _ (by intro xs hx; cases hx), find_field hf]
      exact .cons hf (field_recode (by intro xs hx; cases hx) (fun c' vs' he h' => by cases he) hw)
        (fields_recode vs c hr)
  | (k, .str s) :: vs, c, h => by
    cases h with
    | cons hf hw hr =>
      rw [recodeVars_cons _ _ _ (by intro xs hx; cases hx), find_field hf]
      exact .cons hf (field_recode (by intro xs hx; cases hx) (fun c' vs' he h' => by cases he) hw)
        (fields_recode vs c hr)
  | (k, .int s) :: vs, c, h => by
    cases h with
    | cons hf hw hr =>
      rw [recodeVars_cons _ _ _ (by intro xs hx; cases hx), find_field hf]
      exact .cons hf (field_recode (by intro xs hx; cases hx) (fun c' vs' he h' => by cases he) hw)
        (fields_recode vs c hr)
  | (k, .dec s) :: vs, c, h => by
    cases h with
    | cons hf hw hr =>
      rw [recodeVars_cons _ _ _ (by intro xs hx; cases hx), find_field hf]
      exact .cons hf (field_recode (by intro xs hx; cases hx) (fun c' vs' he h' => by cases he) hw)
        (fields_recode vs c hr)
  | (k, .enum d s) :: vs, c, h => by
    cases h with
    | cons hf hw hr =>
      rw [recodeVars_cons _ _ _ (by intro xs hx; cases hx), find_field hf]
      exact .cons hf (field_recode (by intro xs hx; cases hx) (fun c' vs' he h' => by cases he) hw)
        (fields_recode vs c hr)

theorem items_recode : ∀ (vs : List Val) (f : Field), ItemsFrom M L true f vs →
    ItemsFrom M L true f (attRecodeList (some f) vs)
  | [], f, _ => by simp only [attRecodeList]; exact .nil
  | .obj d ws :: vs, f, h => by
    cases h with
    | cons hv hr =>
      rw [recodeList_cons]
      exact .cons (item_recode (fun c' vs' he h' => by cases he; exact fields_recode ws d h') hv)
        (items_recode vs f hr)
  | .list _ :: vs, f, h => by
    cases h with
    | cons hv hr => exact absurd hv not_itemFrom_list
  | .none :: vs, f, h => by
    cases h with
    | cons hv hr =>
      rw [recodeList_cons]
      exact .cons (item_recode (fun c' vs' he h' => by cases he) hv) (items_recode vs f hr)
  | .str _ :: vs, f, h => by
    cases h with
    | cons hv hr =>
      rw [recodeList_cons]
      exact .cons (item_recode (fun c' vs' he h' => by cases he) hv) (items_recode vs f hr)
  | .int _ :: vs, f, h => by
    cases h with
    | cons hv hr =>
      rw [recodeList_cons]
      exact .cons (item_recode (fun c' vs' he h' => by cases he) hv) (items_recode vs f hr)
  | .dec _ :: vs, f, h => by
    cases h with
    | cons hv hr =>
      rw [recodeList_cons]
      exact .cons (item_recode (fun c' vs' he h' => by cases he) hv) (items_recode vs f hr)
  | .enum _ _ :: vs, f, h => by
    cases h with
    | cons hv hr =>
      rw [recodeList_cons]
      exact .cons (item_recode (fun c' vs' he h' => by cases he) hv) (items_recode vs f hr)
end

theorem from_recode {c : Cls} {vs : List (Str × Val)} (h : From M L true (.obj c vs)) :
    From M L true (attRecode (.obj c vs)) := by
  simp only [attRecode]
  exact obj_recode (fields_recode vs c) h

end Ndm
