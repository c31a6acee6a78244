import Verif.SpecMissing
import Verif.Lemmas.AbsentRead
import Verif.Lemmas.FromBind

/-! # Required keywords that no line states (C71) -/

namespace Ndm

variable {M : Cls} {L : List (List Str)}

/-- An object made of what the lines state. -/
def PartOf (M : Cls) (L : List (List Str)) (v : Val) : Prop :=
  (∃ att, From M L att v) ∨ ∃ att c t A vs, v = .obj c vs ∧ SimpleFrom att c t A vs

/-- A value without parts. -/
def NoParts (v : Val) : Prop := (∀ c vs, v ≠ .obj c vs) ∧ ∀ xs, v ≠ .list xs

theorem reads_noParts {att : Bool} {t : FTy} {s : Str} {v : Val} (h : ReadAs att t s v) : NoParts v := by
  induction h with
  | untyped _ _ _ ih => exact ih
  | _ => exact ⟨fun _ _ => nofun, fun _ => nofun⟩

theorem simple_field {att : Bool} {c : Cls} {t : Str} {A : List (Str × Str)} : ∀ {vs : List (Str × Val)}, SimpleFrom att c t A vs →
    ∀ {n : Str} {x : Val}, (n, x) ∈ vs → x = .none ∨ x = .list [] ∨ (∃ f ∈ c.fields, f.name = n ∧ f.kind ≠ .elem) ∧ NoParts x
  | _, .nil, _, _, h => by cases h
  | _, .none hr, n, x, h => by
    rcases List.mem_cons.mp h with h | h
    · cases h; exact .inl rfl
    · exact simple_field hr h
  | _, .empty hr, n, x, h => by
    rcases List.mem_cons.mp h with h | h
    · cases h; exact .inr (.inl rfl)
    · exact simple_field hr h
  | _, .text hf hk hv hr, n, x, h => by
    rcases List.mem_cons.mp h with h | h
    · cases h; exact .inr (.inr ⟨⟨_, hf, rfl, by rw [hk]; decide⟩, reads_noParts hv⟩)
    · exact simple_field hr h
  | _, .attr hf hk _ hv hr, n, x, h => by
    rcases List.mem_cons.mp h with h | h
    · cases h; exact .inr (.inr ⟨⟨_, hf, rfl, by rw [hk]; decide⟩, reads_noParts hv⟩)
    · exact simple_field hr h

theorem fieldsFrom_mem {att : Bool} {c : Cls} : ∀ {vs : List (Str × Val)}, FieldsFrom M L att c vs → ∀ {n : Str} {x : Val}, (n, x) ∈ vs →
    ∃ f ∈ c.fields, f.name = n ∧ FieldFrom M L att f x
  | _, .nil, _, _, h => by cases h
  | _, .cons hf hx hr, n, x, h => by
    rcases List.mem_cons.mp h with h | h
    · cases h; exact ⟨_, hf, rfl, hx⟩
    · exact fieldsFrom_mem hr h

theorem itemsFrom_mem {att : Bool} {f : Field} : ∀ {xs : List Val}, ItemsFrom M L att f xs → ∀ x ∈ xs, ItemFrom M L att f x
  | _, .nil, _, h => by cases h
  | _, .cons h hr, x, hx => by
    rcases List.mem_cons.mp hx with rfl | hx
    · exact h
    · exact itemsFrom_mem hr x hx

theorem fieldFrom_items {att : Bool} {f : Field} {v : Val} (h : FieldFrom M L att f v) : ∀ x ∈ v.items, ItemFrom M L att f x := by
  intro x hx
  cases h with
  | none => cases hx
  | list h => exact itemsFrom_mem h x hx
  | one h =>
    cases v with
    | none => cases hx
    | list xs => exact absurd h not_itemFrom_list
    | _ =>
      obtain rfl := List.mem_singleton.mp hx
      exact h

/-- An element field of an object made of what the lines state. -/
theorem built_field {c : Cls} {vs : List (Str × Val)} (h : PartOf M L (.obj c vs)) {f : Field} (hf : f ∈ c.attrs) (hk : f.kind = .elem)
    {x : Val} (hx : (f.name, x) ∈ vs) : ∀ y ∈ x.items, ∃ att, ItemFrom M L att f y := by
  have simple : ∀ {att t A}, SimpleFrom att c t A vs → ∀ y ∈ x.items, ∃ att, ItemFrom M L att f y := by
    intro att t A hs y hy
    rcases simple_field hs hx with rfl | rfl | ⟨⟨g, hg, hn, hgk⟩, -⟩
    · cases hy
    · cases hy
    · obtain rfl := eq_of_name (names_nodup c) hg (mem_attrs hf) hn
      exact absurd hk hgk
  have block : ∀ {att}, FieldsFrom M L att c vs → ∀ y ∈ x.items, ∃ att, ItemFrom M L att f y := by
    intro att hs y hy
    obtain ⟨g, hg, hn, hgx⟩ := fieldsFrom_mem hs hx
    obtain rfl := eq_of_name (names_nodup c) hg (mem_attrs hf) hn
    exact ⟨att, fieldFrom_items hgx y hy⟩
  rcases h with ⟨att, h⟩ | ⟨att, c', t, A, vs', heq, h⟩
  · cases h with
    | block _ h => exact block h
    | rotation _ _ h => exact simple h
    | attitude h =>
      cases h with
      | block _ h => exact block h
      | rotation _ _ h => exact simple h
  · cases heq
    exact simple h

theorem items_of_one {v y : Val} (hy : y ∈ v.items) : v = .list v.items ∨ v = y := by
  cases v with
  | none => cases hy
  | list xs => exact .inl rfl
  | _ => exact .inr (List.mem_singleton.mp hy).symm

theorem item_built {att : Bool} {f : Field} {y : Val} (h : ItemFrom M L att f y) : PartOf M L y ∨ NoParts y := by
  cases h with
  | text _ _ hr => exact .inr (reads_noParts hr)
  | simple _ _ _ hs => exact .inl (.inr ⟨_, _, _, _, _, rfl, hs⟩)
  | block _ _ h => exact .inl (.inl ⟨_, h⟩)

theorem part_items {c : Cls} {vs : List (Str × Val)} (h : PartOf M L (.obj c vs)) {n : Str} {x : Val} (hx : (n, x) ∈ vs) :
    ∀ y ∈ x.items, PartOf M L y ∨ NoParts y := by
  have simple : ∀ {att t A}, SimpleFrom att c t A vs → ∀ y ∈ x.items, PartOf M L y ∨ NoParts y := by
    intro att t A hs y hy
    rcases simple_field hs hx with rfl | rfl | ⟨-, hp⟩
    · cases hy
    · cases hy
    · rcases items_of_one hy with h | rfl
      · exact absurd h (hp.2 _)
      · exact .inr hp
  have block : ∀ {att}, FieldsFrom M L att c vs → ∀ y ∈ x.items, PartOf M L y ∨ NoParts y := by
    intro att hs y hy
    obtain ⟨g, hg, hn, hgx⟩ := fieldsFrom_mem hs hx
    exact item_built (fieldFrom_items hgx y hy)
  rcases h with ⟨att, h⟩ | ⟨att, c', t, A, vs', heq, h⟩
  · cases h with
    | block _ h => exact block h
    | rotation _ _ h => exact simple h
    | attitude h =>
      cases h with
      | block _ h => exact block h
      | rotation _ _ h => exact simple h
  · cases heq
    exact simple h

/-- Fields with keywords hold texts or objects with a text. -/
theorem keyword_fields : (Cls.all.all fun c => c.fields.all fun f => !isUpper f.xmlName || match f.ty with
    | .cls d => d.members.isSome || ((d.fields.any fun g => decide (g.kind = .text)) && decide (d ∉ .AttitudeStateType :: rotationClasses))
    | _ => true) = true := by decide +kernel

theorem enum_fields : (Cls.all.all fun c => c.members.isNone || c.fields.isEmpty) = true := by decide +kernel

/-- An item of a keyword field is stated under the keyword. -/
theorem item_stated {c : Cls} {f : Field} (hf : f ∈ c.fields) (hu : isUpper f.xmlName = true) {att : Bool} {y : Val}
    (ht : HasType f.ty y) (h : ItemFrom M L att f y) : ∃ t A, Stated M L f.xmlName t A := by
  cases h with
  | text _ hs _ => exact ⟨_, _, hs⟩
  | simple _ _ hs _ => exact ⟨_, _, hs⟩
  | @block _ _ d vs _ hty hfr =>
    exfalso
    have key := List.all_eq_true.mp (all_classes keyword_fields c) f hf
    rw [hty, hu] at key
    rw [hty] at ht
    have hm : d.members = none := by cases ht; assumption
    simp only [hm, Option.isSome_none, Bool.not_true, Bool.false_or, Bool.and_eq_true, List.any_eq_true, decide_eq_true_eq] at key
    obtain ⟨⟨g, hg, hgk⟩, hn⟩ := key
    cases hfr with
    | block hb _ => exact hb g hg hgk
    | rotation hr _ _ => exact hn (List.mem_cons_of_mem _ hr)
    | attitude _ => exact hn List.mem_cons_self

/-- The messages with data lines that do not consist of a keyword and its value. -/
def columnMessages : List Cls := ephemerides ++ [.Tdm]

theorem not_stated {k : Str} (hk : M ∈ columnMessages → k ∉ columnKeywords) (hu : k ≠ py "USER_DEFINED") (hno : ∀ r, (k :: r) ∉ L) {t : Str}
    {A : List (Str × Str)} : ¬ Stated M L k t A := by
  intro h
  generalize hkk : k = k' at h
  cases h with
  | line hl => subst hkk; exact hno _ hl
  | user _ => exact hu hkk
  | word hM hc _ _ => subst hkk; exact hk (List.mem_append_left _ hM) hc
  | time hM _ _ => subst hkk; exact hk (hM ▸ List.mem_append_right _ List.mem_cons_self) (by decide)
  | observed _ hl _ => subst hkk; exact hno _ hl

/-- A required field of a well-typed object without items makes it incomplete. -/
theorem fields_at {f : Field} : ∀ {fs : List Field} {vs : List (Str × Val)}, HasFields fs vs → f ∈ fs →
    ∃ x, (f.name, x) ∈ vs ∧ FieldOk f x
  | _, _, .nil, h => by cases h
  | _, _, .cons hx hr, h => by
    rcases List.mem_cons.mp h with rfl | h
    · exact ⟨_, List.mem_cons_self, hx⟩
    · obtain ⟨x, hm, hok⟩ := fields_at hr h
      exact ⟨x, List.mem_cons_of_mem _ hm, hok⟩

theorem not_hasType_none {ty : FTy} : ¬ HasType ty .none := by
  intro h
  generalize hv : Val.none = v at h
  cases h <;> cases hv

theorem fieldOk_typed {f : Field} {x y : Val} (h : FieldOk f x) (hy : y ∈ x.items) : HasType f.ty y := by
  cases h with
  | list _ ha => exact allHaveType_mem ha hy
  | none _ => cases hy
  | one _ ht _ =>
    cases x with
    | none => cases hy
    | list xs => exact absurd ht not_hasType_list
    | _ =>
      obtain rfl := List.mem_singleton.mp hy
      exact ht

theorem required_missing {k : Str} (hup : isUpper k = true) (hk : M ∈ columnMessages → k ∉ columnKeywords) (hu : k ≠ py "USER_DEFINED")
    (hno : ∀ r, (k :: r) ∉ L) {c : Cls} (hr : RequiredKeyword k c) :
    ∀ vs, HasFields c.attrs vs → PartOf M L (.obj c vs) → Incomplete (.obj c vs) := by
  induction hr with
  | @field c f n hf hfk hx hl hn =>
    intro vs hfs hb
    obtain ⟨x, hm, hok⟩ := fields_at hfs hf
    refine .here hm hl ?_
    cases hit : x.items with
    | nil => exact hn
    | cons y ys =>
      have hy : y ∈ x.items := by rw [hit]; exact List.mem_cons_self
      obtain ⟨att, hi⟩ := built_field hb hf hfk hm y hy
      obtain ⟨t, A, hs⟩ := item_stated (mem_attrs hf) (by rw [hx]; exact hup) (fieldOk_typed hok hy) hi
      rw [hx] at hs
      exact absurd hs (not_stated hk hu hno)
  | @part c d f n hf hfk hty hl hn hd ih =>
    intro vs hfs hb
    obtain ⟨x, hm, hok⟩ := fields_at hfs hf
    cases hit : x.items with
    | nil => exact .here hm hl (by rw [hit]; exact hn)
    | cons y ys =>
      have hy : y ∈ x.items := by rw [hit]; exact List.mem_cons_self
      obtain ⟨att, hi⟩ := built_field hb hf hfk hm y hy
      have ht := fieldOk_typed hok hy
      rw [hty] at ht
      have henum : ∀ ms, d.members ≠ some ms := by
        intro ms hms
        have := all_classes enum_fields d
        simp only [hms, Option.isNone_some, Bool.false_or, List.isEmpty_iff] at this
        have hno : ∀ g, g ∉ d.attrs := fun g hg => by
          have := mem_attrs hg
          simp_all
        cases hd with
        | field hg _ _ _ _ => exact hno _ hg
        | part hg _ _ _ _ _ => exact hno _ hg
      cases ht with
      | enum _ h _ => exact absurd h (henum _)
      | enumText _ h _ => exact absurd h (henum _)
      | obj _ hfs' =>
        refine .inside hm hy (ih _ hfs' ?_)
        rcases item_built hi with h | h
        · exact h
        · exact absurd rfl (h.1 _ _)

/-- The same for any part of an object. -/
theorem part_missing {k : Str} (hup : isUpper k = true) (hk : M ∈ columnMessages → k ∉ columnKeywords) (hu : k ≠ py "USER_DEFINED")
    (hno : ∀ r, (k :: r) ∉ L) {d : Cls} (hr : RequiredKeyword k d) {ws : List (Str × Val)} {v : Val} (hw : Within (.obj d ws) v) :
    (∀ ty, HasType ty v → PartOf M L v ∨ NoParts v → Incomplete v) ∧
    (∀ ty xs, v = .list xs → AllHaveType ty xs → (∀ x ∈ xs, PartOf M L x ∨ NoParts x) → ∃ x ∈ xs, Incomplete x) := by
  induction hw with
  | self =>
    refine ⟨fun ty ht hb => ?_, fun ty xs h => nomatch h⟩
    cases ht with
    | obj _ hfs =>
      rcases hb with hb | hb
      · exact required_missing hup hk hu hno hr _ hfs hb
      · exact absurd rfl (hb.1 _ _)
  | @field c vs n x hm hw ih =>
    refine ⟨fun ty ht hb => ?_, fun ty xs h => nomatch h⟩
    have hb : PartOf M L (.obj c vs) := hb.resolve_right fun h => h.1 _ _ rfl
    have hp := part_items hb hm
    cases ht with
    | obj _ hfs =>
      obtain ⟨f, hf, hok⟩ := hasFields_mem hfs hm
      cases hok with
      | list _ ha =>
        obtain ⟨y, hy, hi⟩ := ih.2 _ _ rfl ha hp
        exact .inside hm hy hi
      | none _ => cases hw
      | one _ ht _ =>
        have hx : x ∈ x.items := by
          cases x with
          | none => exact absurd ht not_hasType_none
          | list xs => exact absurd ht not_hasType_list
          | _ => exact List.mem_singleton_self _
        exact .inside hm hx (ih.1 _ ht (hp x hx))
  | @item xs x hm hw ih =>
    refine ⟨fun ty ht => absurd ht not_hasType_list, ?_⟩
    intro ty xs' h ha hb
    cases h
    exact ⟨x, hm, ih.1 ty (allHaveType_mem ha hm) (hb x hm)⟩

end Ndm
