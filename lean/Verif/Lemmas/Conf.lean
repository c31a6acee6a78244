import Verif.SpecConf
import Verif.Lemmas.Range

/-! Everything the reader builds conforms to the data model. -/

namespace Ndm

/-! ## Facts about the schema table -/

/-- A field of a dataclass type (as opposed to a primitive or an enumeration). -/
def FTy.isBlock : FTy → Bool
  | .cls c => c.members.isNone
  | _ => false

theorem schema_leaf_fields : (Cls.all.all fun c => c.fields.all fun f =>
    decide (f.kind = .elem) || !f.ty.isBlock && !f.isList) = true := by decide +kernel

theorem schema_block_fields : (Cls.all.all fun c => c.isValueClass || c.blockFields.all fun f =>
    match f.ty with
    | .cls d => f.init && d.members.isNone
    | _ => true) = true := by decide +kernel

theorem schema_names_distinct : (Cls.all.all fun c => decide ((c.fields.map (·.name)).Nodup)) = true := by
  decide +kernel

theorem all_classes {p : Cls → Bool} (h : Cls.all.all p = true) (c : Cls) : p c = true :=
  List.all_eq_true.mp h c (Cls.mem_all c)

theorem leaf_field {c : Cls} {f : Field} (hf : f ∈ c.fields) (hk : f.kind ≠ .elem) :
    f.ty.isBlock = false ∧ f.isList = false := by
  have := List.all_eq_true.mp (all_classes schema_leaf_fields c) f hf
  simpa [hk] using this

theorem names_nodup (c : Cls) : (c.fields.map (·.name)).Nodup := by
  simpa using all_classes schema_names_distinct c

theorem attrs_nodup (c : Cls) : (c.attrs.map (·.name)).Nodup :=
  (names_nodup c).sublist ((List.filter_sublist (p := (·.init)) (l := c.fields)).map _)

/-! ## Binding -/

theorem convText_type {t : FTy} (ht : t.isBlock = false) (s : Str) : HasType t (convText t s) := by
  unfold convText
  split
  · exact .str s
  · split
    · exact .int _
    · exact .intText s (by assumption)
  · split
    · exact .dec _
    · exact .decText s (by assumption)
  · rename_i c
    split
    · rename_i ms hm
      unfold convEnum
      split
      · rename_i h
        rw [List.any_eq_true] at h
        obtain ⟨p, hp, h⟩ := h
        refine .enum s hm ⟨p.1, ?_⟩
        have : p.2 = s := by simpa using h
        rw [← this]; exact hp
      · rename_i h
        refine .enumText s hm ?_
        rintro ⟨m, hmem⟩
        apply h
        rw [List.any_eq_true]
        exact ⟨(m, s), hmem, by simp⟩
    · rename_i hm
      simp [FTy.isBlock, hm] at ht

/-- No enumeration of the schema has an empty value. -/
theorem schema_enum_values : (Cls.all.all fun c => match c.members with
    | some ms => ms.all fun m => !m.2.isEmpty
    | none => true) = true := by decide +kernel

theorem emptyText_type {t : FTy} (ht : t.isBlock = false) : HasType t (.str []) := by
  match t with
  | .str => exact .str []
  | .int => exact .intText [] (by decide)
  | .dec => exact .decText [] (by decide)
  | .cls c =>
    cases hm : c.members with
    | none => simp [FTy.isBlock, hm] at ht
    | some ms =>
      refine .enumText [] hm ?_
      rintro ⟨m, hmem⟩
      have := all_classes schema_enum_values c
      rw [hm] at this
      have := List.all_eq_true.mp this _ hmem
      simp at this

theorem schema_text_types : (Cls.all.all fun c => c.fields.all fun f => f.kind ≠ .text || match f.ty with
    | .cls _ => false
    | _ => true) = true := by decide +kernel

/-- No text is converted to the empty text. -/
theorem convText_ne {t : FTy} {s : Str} (h : s ≠ []) : convText t s ≠ .str [] := by
  have e : Val.str s ≠ .str [] := fun e => h (by cases e; rfl)
  unfold convText
  split
  · exact e
  · split
    · exact fun e => nomatch e
    · exact e
  · split
    · exact fun e => nomatch e
    · exact e
  · split
    · unfold convEnum
      split
      · exact fun e => nomatch e
      · exact e
    · exact e

theorem bindAttr_ok {c : Cls} {f : Field} (hf : f ∈ c.fields) (hk : f.kind = .attr) (attrs : List (Str × Str)) :
    FieldOk f (bindAttr f attrs) := by
  obtain ⟨hb, hl⟩ := leaf_field hf (by rw [hk]; decide)
  unfold bindAttr
  split
  · exact .one hl (convText_type hb _) fun h => absurd (hk.symm.trans h) (by decide)
  · exact .none hl

theorem bindText_ok {c : Cls} {f : Field} (hf : f ∈ c.fields) (hk : f.kind = .text) (text : Str) :
    FieldOk f (bindText f text) := by
  obtain ⟨hb, hl⟩ := leaf_field hf (by rw [hk]; decide)
  unfold bindText
  split
  · exact .none hl
  · next he => exact .one hl (convText_type hb _) fun _ => convText_ne (by simpa using he)

theorem hasFields_map {g : Field → Val} : ∀ {fs : List Field}, (∀ f ∈ fs, FieldOk f (g f)) →
    HasFields fs (fs.map fun f => (f.name, g f))
  | [], _ => .nil
  | f :: fs, h => .cons (h f (by simp)) (hasFields_map fun x hx => h x (by simp [hx]))

theorem mem_attrs {c : Cls} {f : Field} (h : f ∈ c.attrs) : f ∈ c.fields := List.mem_of_mem_filter h

theorem bindLeafClass_type {c : Cls} (hm : c.members = none) (x : XLeaf) : HasType (.cls c) (bindLeafClass c x) := by
  unfold bindLeafClass
  refine .obj hm (hasFields_map (fs := c.attrs) (g := fun f => match f.kind with
      | .attr => bindAttr f x.attrs
      | .text => bindText f x.text
      | .elem => if f.isList then .list [] else .none) ?_)
  intro f hf
  split
  · exact bindAttr_ok (mem_attrs hf) (by assumption) _
  · exact bindText_ok (mem_attrs hf) (by assumption) _
  · split
    · exact .list (by assumption) .nil
    · exact .none (by simpa using ‹¬ f.isList = true›)

theorem bindLeaf_type (f : Field) (x : XLeaf) : HasType f.ty (bindLeaf f x) := by
  unfold bindLeaf
  have prim : ∀ t : FTy, t.isBlock = false → HasType t (if x.text.isEmpty then .str [] else convText t x.text) := by
    intro t ht
    split
    · exact emptyText_type ht
    · exact convText_type ht _
  cases hty : f.ty with
  | cls c =>
    simp only
    cases hm : c.members with
    | some ms => exact prim (.cls c) (by simp [FTy.isBlock, hm])
    | none => exact bindLeafClass_type hm x
  | str => exact prim .str rfl
  | int => exact prim .int rfl
  | dec => exact prim .dec rfl

theorem allHaveType_map {t : FTy} {g : XLeaf → Val} (h : ∀ x, HasType t (g x)) : ∀ xs : List XLeaf,
    AllHaveType t (xs.map g)
  | [] => .nil
  | x :: xs => .cons (h x) (allHaveType_map h xs)

theorem bindDoc_type {c : Cls} (hm : c.members = none) {d : XDoc} {v : Val} (h : bindDoc c d = .ok v) :
    HasType (.cls c) v := by
  unfold bindDoc at h
  obtain ⟨_, -, h⟩ := bind_ok_iff.mp h
  cases h
  refine .obj hm (hasFields_map (fs := c.attrs) ?_)
  intro f hf
  unfold bindField
  split
  · exact bindAttr_ok (mem_attrs hf) (by assumption) _
  · exact bindText_ok (mem_attrs hf) (by assumption) _
  · next hk =>
    simp only
    split
    · exact .list (by assumption) (allHaveType_map (bindLeaf_type f) _)
    · have hl : f.isList = false := by simpa using ‹¬ f.isList = true›
      split
      · exact .none hl
      · exact .one hl (bindLeaf_type f _) fun h => absurd (hk.symm.trans h) (by decide)

theorem default_type {c : Cls} (hm : c.members = none) : HasType (.cls c) c.default := by
  unfold Cls.default
  refine .obj hm (hasFields_map (fs := c.attrs) (g := fun f => if f.isList then .list [] else .none) ?_)
  intro f _
  split
  · exact .list (by assumption) .nil
  · exact .none (by simpa using ‹¬ f.isList = true›)

/-! ## Attaching sub-objects -/

theorem hasFields_lookup {name : Str} : ∀ {fs : List Field} {vs : List (Str × Val)} {v : Val}, HasFields fs vs →
    Val.lookupVar name vs = some v → ∃ f ∈ fs, f.name = name ∧ FieldOk f v
  | _, _, _, .nil, h => by cases h
  | _, _, _, .cons (f := f) (v := w) (vs := vs) hw hr, h => by
    unfold Val.lookupVar at h
    rw [List.find?_cons] at h
    by_cases he : f.name = name
    · simp only [he, beq_self_eq_true] at h
      simp only [Option.map_some, Option.some.injEq] at h
      subst h
      exact ⟨f, by simp, he, hw⟩
    · have : (f.name == name) = false := by simpa using he
      simp only [this] at h
      obtain ⟨g, hg, hn, ho⟩ := hasFields_lookup (name := name) hr h
      exact ⟨g, by simp [hg], hn, ho⟩

theorem hasFields_set {name : Str} {v : Val} : ∀ {fs : List Field} {vs : List (Str × Val)}, HasFields fs vs →
    (∃ f ∈ fs, f.name = name) → (∀ f ∈ fs, f.name = name → FieldOk f v) → HasFields fs (Val.setVar name v vs)
  | _, _, .nil, h, _ => by obtain ⟨f, hf, _⟩ := h; cases hf
  | _, _, .cons (f := f) (v := w) hw hr, h, hv => by
    unfold Val.setVar
    split
    · rename_i he
      exact .cons (hv f (by simp) he) hr
    · rename_i he
      refine .cons hw (hasFields_set hr ?_ fun g hg => hv g (by simp [hg]))
      obtain ⟨g, hg, hn⟩ := h
      rcases List.mem_cons.mp hg with rfl | hg
      · exact absurd hn he
      · exact ⟨g, hg, hn⟩

theorem eq_of_name {fs : List Field} (hn : (fs.map (·.name)).Nodup) {f g : Field} (hf : f ∈ fs) (hg : g ∈ fs)
    (h : f.name = g.name) : f = g := List.inj_on_of_nodup_map hn hf hg h

theorem allHaveType_append {t : FTy} {v : Val} : ∀ {xs : List Val}, AllHaveType t xs → HasType t v →
    AllHaveType t (xs ++ [v])
  | _, .nil, h => .cons h .nil
  | _, .cons hx hr, h => .cons hx (allHaveType_append hr h)

/-- A class has a field of that name holding objects of that class. -/
def HasSlot (c : Cls) (name : Str) (d : Cls) : Prop := ∃ f ∈ c.attrs, f.name = name ∧ f.ty = .cls d

theorem attach_type {c d : Cls} {o o' sub : Val} {name : Str} (ho : HasType (.cls c) o) (hc : c.members = none)
    (hslot : HasSlot c name d) (hsub : sub = .none ∨ HasType (.cls d) sub) (h : attach o name sub = .ok o') :
    HasType (.cls c) o' := by
  unfold attach at h
  split at h
  · rename_i c' vs
    cases ho with
    | obj hm hf =>
      obtain ⟨f, hfa, hfn, hft⟩ := hslot
      split at h
      · cases h
      · rename_i xs hlook
        obtain ⟨g, hga, hgn, hgo⟩ := hasFields_lookup hf hlook
        have hgf : g = f := eq_of_name (attrs_nodup c) hga hfa (by rw [hgn, hfn])
        subst hgf
        split at h
        · rename_i htr
          cases h
          refine .obj hm (hasFields_set hf ⟨g, hga, hfn⟩ ?_)
          intro k hk hkn
          have : k = g := eq_of_name (attrs_nodup c) hk hga (by rw [hkn, hfn])
          subst this
          rcases hsub with rfl | hsub
          · cases htr
          · cases hgo with
            | list hl hx => exact .list hl (allHaveType_append hx (hft ▸ hsub))
            | one _ ht => rw [hft] at ht; cases ht
        · cases h
          exact .obj hm hf
      · rename_i w hnl hlook
        obtain ⟨g, hga, hgn, hgo⟩ := hasFields_lookup hf hlook
        have hgf : g = f := eq_of_name (attrs_nodup c) hga hfa (by rw [hgn, hfn])
        subst hgf
        cases h
        refine .obj hm (hasFields_set hf ⟨g, hga, hfn⟩ ?_)
        intro k hk hkn
        have : k = g := eq_of_name (attrs_nodup c) hk hga (by rw [hkn, hfn])
        subst this
        have hl : k.isList = false := by
          cases hgo with
          | list hl hx => exact absurd rfl (hnl _)
          | none hl => exact hl
          | one hl _ => exact hl
        rcases hsub with rfl | hsub
        · exact .none hl
        · refine .one hl (hft ▸ hsub) fun hk' => ?_
          have := List.all_eq_true.mp (all_classes schema_text_types c) k (mem_attrs hga)
          simp [hk', hft] at this
  · cases h

/-! ## The recoding of attitude states -/

theorem find_field {c : Cls} {f : Field} (hf : f ∈ c.fields) : c.fields.find? (·.name == f.name) = some f := by
  cases h : c.fields.find? (·.name == f.name) with
  | none =>
    have := List.find?_eq_none.mp h f hf
    simp at this
  | some g =>
    have hg := List.mem_of_find?_eq_some h
    have hn : g.name = f.name := by simpa using List.find?_some h
    rw [eq_of_name (names_nodup c) hg hf hn]

theorem not_hasType_list {t : FTy} {xs : List Val} : ¬ HasType t (.list xs) := by intro h; cases h

theorem hasType_str_leaf {t : FTy} {s : Str} (h : HasType t (.str s)) : t.isBlock = false := by
  cases h with
  | str => rfl
  | intText => rfl
  | decText => rfl
  | enumText _ hm _ => simp [FTy.isBlock, hm]

theorem recodeText_ok {c : Cls} {f : Field} {s : Str} (hf : f ∈ c.fields) (h : FieldOk f (.str s)) :
    FieldOk f (attRecodeText (c.fields.find? (·.name == f.name)) s) := by
  rw [find_field hf]
  have hl : f.isList = false := by cases h; assumption
  have hb : f.ty.isBlock = false := by
    cases h with
    | one _ ht => exact hasType_str_leaf ht
  unfold attRecodeText
  simp only
  split
  · next hk => exact .one hl (convText_type hb _) fun h => absurd (hk.symm.trans h) (by decide)
  · unfold bindText
    split
    · exact .none hl
    · next he => exact .one hl (convText_type hb _) fun _ => convText_ne (by simpa using he)
  · next hk =>
    split
    · exact .one hl (emptyText_type hb) fun h => absurd (hk.symm.trans h) (by decide)
    · exact .one hl (convText_type hb _) fun h => absurd (hk.symm.trans h) (by decide)

theorem recodeItem_type {c : Cls} {f : Field} {s : Str} (hf : f ∈ c.fields) (hl : f.isList = true)
    (h : HasType f.ty (.str s)) : HasType f.ty (attRecodeText (c.fields.find? (·.name == f.name)) s) := by
  rw [find_field hf]
  have hk : f.kind = .elem := by
    by_contra hk
    have := (leaf_field hf hk).2
    rw [hl] at this; cases this
  unfold attRecodeText
  simp only [hk]
  split
  · exact emptyText_type (hasType_str_leaf h)
  · exact convText_type (hasType_str_leaf h) _

mutual
theorem attRecode_type : ∀ {t : FTy} (v : Val), (∀ s, v ≠ .str s) → HasType t v → HasType t (attRecode v)
  | _, .dec d, _, h => by simp only [attRecode]; cases h; exact .dec _
  | _, .obj c vs, _, h => by
    simp only [attRecode]
    cases h with
    | obj hm hf => exact .obj hm (attRecodeVars_ok vs c.attrs c (fun f hf => mem_attrs hf) hf)
  | _, .list xs, _, h => by cases h
  | _, .none, _, h => by cases h
  | _, .str s, hs, h => absurd rfl (hs s)
  | _, .int i, _, h => by simp only [attRecode]; exact h
  | _, .enum c s, _, h => by simp only [attRecode]; exact h

theorem attRecodeVars_ok : ∀ (vs : List (Str × Val)) (fs : List Field) (c : Cls), (∀ f ∈ fs, f ∈ c.fields) →
    HasFields fs vs → HasFields fs (attRecodeVars c vs)
  | [], fs, c, _, h => by simp only [attRecodeVars]; exact h
  | (k, .str s) :: vs, fs, c, hc, h => by
    cases h with
    | @cons f _ fs _ hv hr =>
      simp only [attRecodeVars]
      exact .cons (recodeText_ok (hc f (by simp)) hv) (attRecodeVars_ok vs _ c (fun x hx => hc x (by simp [hx])) hr)
  | (k, .list xs) :: vs, fs, c, hc, h => by
    cases h with
    | @cons f _ fs _ hv hr =>
      simp only [attRecodeVars]
      refine .cons ?_ (attRecodeVars_ok vs _ c (fun x hx => hc x (by simp [hx])) hr)
      have : f.isList = true ∧ AllHaveType f.ty xs := by
        generalize hw : Val.list xs = w at hv
        cases hv with
        | list hl hx => cases hw; exact ⟨hl, hx⟩
        | none hl => cases hw
        | one hl ht => subst hw; exact absurd ht not_hasType_list
      exact .list this.1 (attRecodeList_ok xs f c (hc f (by simp)) this.1 this.2)
  | (k, .none) :: vs, fs, c, hc, h => by
    cases h with
    | @cons f _ fs _ hv hr =>
      simp only [attRecodeVars, attRecode]
      exact .cons hv (attRecodeVars_ok vs _ c (fun x hx => hc x (by simp [hx])) hr)
  | (k, .int i) :: vs, fs, c, hc, h => by
    cases h with
    | @cons f _ fs _ hv hr =>
      simp only [attRecodeVars, attRecode]
      exact .cons hv (attRecodeVars_ok vs _ c (fun x hx => hc x (by simp [hx])) hr)
  | (k, .enum d s) :: vs, fs, c, hc, h => by
    cases h with
    | @cons f _ fs _ hv hr =>
      simp only [attRecodeVars, attRecode]
      exact .cons hv (attRecodeVars_ok vs _ c (fun x hx => hc x (by simp [hx])) hr)
  | (k, .dec d) :: vs, fs, c, hc, h => by
    cases h with
    | @cons f _ fs _ hv hr =>
      simp only [attRecodeVars]
      refine .cons ?_ (attRecodeVars_ok vs _ c (fun x hx => hc x (by simp [hx])) hr)
      generalize hw : Val.dec d = w at hv
      cases hv with
      | list hl hx => cases hw
      | none hl => cases hw
      | one hl ht => subst hw; exact .one hl (attRecode_type (.dec d) (by intro s hs; cases hs) ht) fun _ => by simp only [attRecode]; exact fun e => nomatch e
  | (k, .obj d ws) :: vs, fs, c, hc, h => by
    cases h with
    | @cons f _ fs _ hv hr =>
      simp only [attRecodeVars]
      refine .cons ?_ (attRecodeVars_ok vs _ c (fun x hx => hc x (by simp [hx])) hr)
      generalize hw : Val.obj d ws = w at hv
      cases hv with
      | list hl hx => cases hw
      | none hl => cases hw
      | one hl ht => subst hw; exact .one hl (attRecode_type (.obj d ws) (by intro s hs; cases hs) ht) fun _ => by simp only [attRecode]; exact fun e => nomatch e

theorem attRecodeList_ok : ∀ (xs : List Val) (f : Field) (c : Cls), f ∈ c.fields → f.isList = true →
    AllHaveType f.ty xs → AllHaveType f.ty (attRecodeList (c.fields.find? (·.name == f.name)) xs)
  | [], f, c, _, _, h => by simp only [attRecodeList]; exact .nil
  | .str s :: xs, f, c, hf, hl, .cons hx hr => by
    simp only [attRecodeList]
    exact .cons (recodeItem_type hf hl hx) (attRecodeList_ok xs f c hf hl hr)
  | .none :: xs, f, c, hf, hl, .cons hx hr => by
    simp only [attRecodeList, attRecode]; exact .cons hx (attRecodeList_ok xs f c hf hl hr)
  | .int i :: xs, f, c, hf, hl, .cons hx hr => by
    simp only [attRecodeList, attRecode]; exact .cons hx (attRecodeList_ok xs f c hf hl hr)
  | .enum d s :: xs, f, c, hf, hl, .cons hx hr => by
    simp only [attRecodeList, attRecode]; exact .cons hx (attRecodeList_ok xs f c hf hl hr)
  | .list ys :: xs, f, c, hf, hl, .cons hx hr => by
    simp only [attRecodeList, attRecode]; exact .cons hx (attRecodeList_ok xs f c hf hl hr)
  | .dec d :: xs, f, c, hf, hl, .cons hx hr => by
    simp only [attRecodeList]
    exact .cons (attRecode_type (.dec d) (by intro s hs; cases hs) hx) (attRecodeList_ok xs f c hf hl hr)
  | .obj d ws :: xs, f, c, hf, hl, .cons hx hr => by
    simp only [attRecodeList]
    exact .cons (attRecode_type (.obj d ws) (by intro s hs; cases hs) hx) (attRecodeList_ok xs f c hf hl hr)
end

/-! ## Trees -/

/-- Every element of the tree stands for a dataclass, and its sub-elements for fields of that class. -/
inductive Typed : Elem → Prop
  | mk {e : Elem} (hm : e.cls.members = none) (hslot : ∀ s ∈ e.subs, HasSlot e.cls s.name s.cls)
      (hs : ∀ s ∈ e.subs, Typed s) : Typed e

theorem Typed.inst {e e' : Elem} (h : Typed e) (hi : Inst e e') : Typed e' := by
  induction hi with
  | @mk e e' hname hcls hlist hsingle htmpl f hf hi ih =>
    cases h with
    | mk hm hslot hs =>
      refine .mk (by rw [hcls]; exact hm) ?_ ?_
      · intro s hs'
        have := hslot (f s) (hf s hs')
        rw [hcls, (hi s hs').name, (hi s hs').cls]
        exact this
      · intro s hs'
        exact ih s hs' (hs (f s) (hf s hs'))

theorem extract_cls (fuel : Nat) (name : Str) (c : Cls) (l : Bool) :
    (extract fuel name c l).cls = c ∧ (extract fuel name c l).name = name := by
  cases fuel with
  | zero => exact ⟨rfl, rfl⟩
  | succ n =>
    unfold extract
    simp only
    split <;> exact ⟨rfl, rfl⟩

theorem extract_typed : ∀ (fuel : Nat) (name : Str) (c : Cls) (l : Bool), c.members = none →
    Typed (extract fuel name c l)
  | 0, name, c, l, hm => .mk hm (by intro s hs; simp [extract] at hs) (by intro s hs; simp [extract] at hs)
  | fuel + 1, name, c, l, hm => by
    by_cases hv : c.isValueClass = true
    · refine .mk (by rw [(extract_cls _ _ _ _).1]; exact hm) ?_ ?_ <;>
      · intro s hs
        unfold extract at hs
        simp only [hv, if_true] at hs
        cases hs
    · have hsub : ∀ s ∈ (extract (fuel + 1) name c l).subs, ∃ f ∈ c.blockFields, ∃ d, f.ty = .cls d ∧
          s = extract fuel f.name d f.isList := by
        intro s hs
        unfold extract at hs
        simp only [hv] at hs
        simp only [Bool.false_eq_true, if_false, List.mem_filterMap] at hs
        obtain ⟨f, hf, hs⟩ := hs
        rw [Option.map_eq_some_iff] at hs
        obtain ⟨d, hd, rfl⟩ := hs
        refine ⟨f, hf, d, ?_, rfl⟩
        unfold FTy.cls? at hd
        split at hd
        · rename_i h; cases hd; exact h
        · cases hd
      have hchk := all_classes schema_block_fields c
      simp only [hv, Bool.false_or, List.all_eq_true] at hchk
      have hfd : ∀ f ∈ c.blockFields, ∀ d, f.ty = .cls d → f ∈ c.attrs ∧ d.members = none := by
        intro f hf d hd
        have := hchk f hf
        rw [hd] at this
        simp only [Bool.and_eq_true, Option.isNone_iff_eq_none] at this
        exact ⟨List.mem_filter.mpr ⟨List.mem_of_mem_filter hf, this.1⟩, this.2⟩
      refine .mk (by rw [(extract_cls _ _ _ _).1]; exact hm) ?_ ?_
      · intro s hs
        obtain ⟨f, hf, d, hd, rfl⟩ := hsub s hs
        rw [(extract_cls _ _ _ _).1, (extract_cls _ _ _ _).1, (extract_cls _ _ _ _).2]
        exact ⟨f, (hfd f hf d hd).1, rfl, hd⟩
      · intro s hs
        obtain ⟨f, hf, d, hd, rfl⟩ := hsub s hs
        exact extract_typed fuel _ _ _ (hfd f hf d hd).2

theorem prepare_typed {keys : List Str} {lines : List Line} {e : Elem} {start : Nat} {subs : List Elem}
    (ht : Typed e) (h : prepareAemSegment keys lines e start = .ok subs) :
    ∀ s ∈ subs, Typed s ∧ HasSlot e.cls s.name s.cls := by
  intro s hs
  cases ht with
  | mk hm hslot hty =>
    rcases prepare_subs h s hs with hs | ⟨d, hds, tm, av, rfl⟩
    · exact ⟨hty s hs, hslot s hs⟩
    · refine ⟨?_, hslot d hds⟩
      cases hty d hds with
      | mk hm1 hslot1 hty1 =>
        refine .mk hm1 ?_ ?_
        · intro x hx
          obtain ⟨x', hx', rfl⟩ := List.mem_map.mp hx
          exact hslot1 x' hx'
        · intro x hx
          obtain ⟨x', hx', rfl⟩ := List.mem_map.mp hx
          cases hty1 x' hx' with
          | mk hm2 hslot2 hty2 =>
            exact .mk hm2 (fun y hy => hslot2 y (List.mem_of_mem_filter hy))
              (fun y hy => hty2 y (List.mem_of_mem_filter hy))

theorem foldlM_inv {α β : Type} {P : β → Prop} {f : β → α → Except PyErr β} : ∀ {l : List α} {b r : β},
    (∀ x ∈ l, ∀ b r, P b → f b x = .ok r → P r) → P b → l.foldlM f b = .ok r → P r
  | [], b, r, _, hb, h => by rw [List.foldlM_nil] at h; cases h; exact hb
  | a :: l, b, r, hf, hb, h => by
    rw [List.foldlM_cons] at h
    obtain ⟨b', hb', h⟩ := bind_ok_iff.mp h
    exact foldlM_inv (fun x hx => hf x (by simp [hx])) (hf a (by simp) b b' hb hb') h

/-- Whatever is built from a typed tree is `None` or conforms to the class of the tree's root. -/
theorem build_type (keys : List Str) (lines : List Line) : ∀ (fuel : Nat) (e : Elem) (full : List Line) (v : Val),
    Typed e → build keys lines fuel e full = .ok v → v = .none ∨ HasType (.cls e.cls) v
  | 0, _, _, _, _, h => by cases h
  | fuel + 1, e, full, v, ht, h => by
    have hm : e.cls.members = none := by cases ht; assumption
    unfold build at h
    split at h
    · cases h
    · simp only at h
      split at h
      · cases h; exact Or.inl rfl
      · split at h
        · obtain ⟨tm, -, h⟩ := bind_ok_iff.mp h
          obtain ⟨l, -, h⟩ := bind_ok_iff.mp h
          obtain ⟨s, -, h⟩ := bind_ok_iff.mp h
          obtain ⟨⟨mx, mm, e'⟩, hid, h⟩ := bind_ok_iff.mp h
          obtain ⟨s0, hs0, h⟩ := bind_ok_iff.mp h
          obtain ⟨inner, hin, h⟩ := bind_ok_iff.mp h
          obtain ⟨att, hatt, h⟩ := bind_ok_iff.mp h
          cases h
          have hi := identElem_inst _ _ _ _ _ hid
          have ht' := ht.inst hi
          cases ht' with
          | mk hm' hslot hty =>
            have h0 := pyGet_mem hs0
            have hsl := hslot s0 h0
            rw [hi.cls] at hsl
            have := attach_type (default_type hm) hm hsl
              (build_type keys lines fuel s0 _ inner (hty s0 h0) hin) hatt
            right
            refine attRecode_type att ?_ this
            intro s hs; subst hs
            cases this with
            | enumText _ hm2 _ => rw [hm] at hm2; cases hm2
        · obtain ⟨doc?, hdoc, h⟩ := bind_ok_iff.mp h
          split at h
          · cases h; exact Or.inl rfl
          · rename_i doc subs
            obtain ⟨obj, hobj, h⟩ := bind_ok_iff.mp h
            right
            have hsubs : ∀ s ∈ subs, Typed s ∧ HasSlot e.cls s.name s.cls := by
              rcases sectionDoc_subs hdoc with rfl | ⟨-, hp⟩
              · intro s hs
                cases ht with
                | mk _ hslot hty => exact ⟨hty s hs, hslot s hs⟩
              · exact prepare_typed ht hp
            refine foldlM_inv (P := fun o => HasType (.cls e.cls) o) ?_ (bindDoc_type hm hobj) h
            intro s hs b r hb hr
            obtain ⟨sub, hsub, hr⟩ := bind_ok_iff.mp hr
            exact attach_type hb hm (hsubs s hs).2 (build_type keys lines fuel s full sub (hsubs s hs).1 hsub) hr

end Ndm
