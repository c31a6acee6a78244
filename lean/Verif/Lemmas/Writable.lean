import Verif.Lemmas.Conf
import Verif.Lemmas.Within
import Verif.SpecWritable
import Verif.Write

/-! When writing succeeds. -/

namespace Ndm

theorem unk_obj {c : Cls} {vs : List (Str × Val)} : UnknownUnit (.obj c vs) ↔
    (∃ s, Val.lookupVar (py "units") vs = some (.str s) ∧ s ≠ []) ∨ ∃ p ∈ vs, UnknownUnit p.2 := by
  constructor
  · rintro ⟨d, ws, s, hw, h1, h2⟩
    cases hw with
    | self => exact .inl ⟨s, h1, h2⟩
    | field hm hw => exact .inr ⟨_, hm, d, ws, s, hw, h1, h2⟩
  · rintro (⟨s, h1, h2⟩ | ⟨⟨n, x⟩, hm, d, ws, s, hw, h1, h2⟩)
    · exact ⟨c, vs, s, .self, h1, h2⟩
    · exact ⟨d, ws, s, .field hm hw, h1, h2⟩

theorem unk_list {xs : List Val} : UnknownUnit (.list xs) ↔ ∃ x ∈ xs, UnknownUnit x := by
  constructor
  · rintro ⟨d, ws, s, hw, h1, h2⟩
    cases hw with
    | item hm hw => exact ⟨_, hm, d, ws, s, hw, h1, h2⟩
  · rintro ⟨x, hm, d, ws, s, hw, h1, h2⟩
    exact ⟨d, ws, s, .item hm hw, h1, h2⟩

/-- Fails with `AttributeError` if `bad`, as far as `N` holds; succeeds otherwise. -/
def Out {α : Type} (N bad : Prop) (x : Except PyErr α) : Prop :=
  (¬ bad → ∃ a, x = .ok a) ∧ (N → bad → x = .error .attributeError)

theorem Out.ok {α : Type} {N bad : Prop} {a : α} (h : ¬ bad) : Out N bad (.ok a : Except PyErr α) :=
  ⟨fun _ => ⟨a, rfl⟩, fun _ hb => absurd hb h⟩

theorem Out.iff {α : Type} {N b b' : Prop} {x : Except PyErr α} (h : Out N b x) (hb : b ↔ b') : Out N b' x := by
  rw [← propext hb]; exact h

theorem Out.bind {α β : Type} {N b b' : Prop} {x : Except PyErr α} {f : α → Except PyErr β} (h : Out N b x)
    (hf : ∀ a, x = .ok a → Out N b' (f a)) : Out N (b ∨ b') (x >>= f) := by
  by_cases hb : b
  · refine ⟨fun hn => absurd (.inl hb) hn, fun hN _ => ?_⟩
    rw [h.2 hN hb]; rfl
  · obtain ⟨a, ha⟩ := h.1 hb
    have := hf a ha
    rw [ha]
    exact this.iff ⟨.inr, fun h => h.resolve_left hb⟩

theorem Out.bind_ok {α β : Type} {N b : Prop} {x : Except PyErr α} {f : α → Except PyErr β} (h : Out N b x)
    (hf : ∀ a, x = .ok a → ∃ y, f a = .ok y) : Out N b (x >>= f) :=
  (h.bind (b' := False) fun a ha => by obtain ⟨y, hy⟩ := hf a ha; rw [hy]; exact .ok id).iff (by simp)

theorem Out.header {N b : Prop} {h : Option Str} {before after : Str → List Str} {out : List Str}
    {body : List Str → Except PyErr (List Str)} (hb : ∀ out, Out N b (body out)) : Out N b (withHeader h before after out body) := by
  unfold withHeader
  split
  · have := hb (out ++ before (by assumption))
    refine ⟨fun hn => ?_, fun hN hB => ?_⟩
    · obtain ⟨a, ha⟩ := this.1 hn
      exact ⟨_, by rw [ha]; rfl⟩
    · rw [this.2 hN hB]; rfl
  · exact hb out

/-- What the writer takes for granted of an object, units apart. -/
structure WOk (N : Prop) (c : Cls) (ws : List (Str × Val)) : Prop where
  third : (∃ f ∈ c.attrs, f.name = py "units") → ∀ p ∈ ws, p.1 ≠ py "value" → p.1 ≠ py "units" → ∃ d m, p.2 = .enum d m
  user : c = .UserDefinedParameterType → ∃ s, Val.lookupVar (py "parameter") ws = some (.str s)
  state : c = .StateVectorAccType → ∃ p ∈ ws, p.2.truthy = true
  obs : c = .TrackingDataObservationType → ∃ p ∈ ws, p.1 ≠ py "epoch" ∧ ∃ d, p.2 = .dec d
  att : c ≠ .AttitudeStateType
  special : isSpecialOut c = true → ¬ N

/-- A class has units. -/
def hasUnits (c : Cls) : Bool := c.attrs.any (·.name == py "units")

/-- What the writer takes for granted of the fields of the schema. -/
def fieldFit (f : Field) : Bool :=
  (f.name != py "comment" || f.isList && decide (f.ty = .str)) &&
  (f.name != py "user_defined" || f.isList && decide (f.ty = .cls .UserDefinedParameterType)) &&
  (!f.isList || f.name == py "comment" || f.name == py "user_defined" || match f.ty with
    | .cls c => c.members.isNone && !hasUnits c
    | _ => false)

theorem schema_fit : (Cls.all.all fun c => c.attrs.all fieldFit) = true := by decide +kernel

theorem schema_units : (Cls.all.all fun c => !hasUnits c || c.attrs.any (·.name == py "value") && !isSpecialOut c &&
    c.attrs.all fun f => !f.isList && (match f.ty with | .cls d => d.members.isSome | _ => true) &&
      (f.name != py "units" || match f.ty with | .cls _ => true | _ => false)) = true := by decide +kernel

theorem hasFields_names : ∀ {fs : List Field} {vs : List (Str × Val)}, HasFields fs vs → vs.map (·.1) = fs.map (·.name)
  | _, _, .nil => rfl
  | _, _, .cons _ h => by simp [hasFields_names h]

theorem hasFields_get {f : Field} : ∀ {fs : List Field} {vs : List (Str × Val)}, HasFields fs vs →
    f ∈ fs → ∃ g ∈ fs, g.name = f.name ∧ ∃ v, Val.lookupVar f.name vs = some v ∧ FieldOk g v
  | _, _, .nil, h => by cases h
  | _, _, .cons (f := g) (v := w) (vs := vs) hw hr, h => by
    unfold Val.lookupVar
    rw [List.find?_cons]
    by_cases he : g.name = f.name
    · exact ⟨g, by simp, he, w, by simp [he], hw⟩
    · have : (g.name == f.name) = false := by simpa using he
      simp only [this]
      rcases List.mem_cons.mp h with rfl | h
      · exact absurd rfl he
      · obtain ⟨g', hg', h1, v, h2, h3⟩ := hasFields_get hr h
        exact ⟨g', List.mem_cons_of_mem _ hg', h1, v, h2, h3⟩

theorem hasFields_units {c : Cls} {vs : List (Str × Val)} (h : HasFields c.attrs vs) :
    vs.any (·.1 == py "units") = hasUnits c := by
  have := hasFields_names h
  have e : ∀ {α : Type} (l : List α) (g : α → Str), l.any (fun x => g x == py "units") = (l.map g).any (· == py "units") := by
    intro α l g; simp [List.any_map, Function.comp_def]
  unfold hasUnits
  rw [e vs (·.1), e c.attrs (·.name), this]

/-- No units inside a leaf. -/
theorem unk_leaf {t : FTy} {v : Val} (h : HasType t v) (ht : ∀ c, t = .cls c → c.members.isSome) : ¬ UnknownUnit v := by
  rintro ⟨d, ws, s, hw, -⟩
  cases h with
  | obj hm =>
    have := ht _ rfl
    rw [hm] at this; cases this
  | _ => cases hw

/-- An object with units. -/
theorem writeValueObj_out {N : Prop} {c : Cls} {vs : List (Str × Val)} (key : Str) (hu : hasUnits c = true)
    (hf : HasFields c.attrs vs) (hw : WOk N c vs) : Out N (UnknownUnit (.obj c vs)) (writeValueObj key vs) := by
  have hs := all_classes schema_units c
  rw [hu] at hs
  simp only [Bool.not_true, Bool.false_or, Bool.and_eq_true, List.all_eq_true, List.any_eq_true, beq_iff_eq] at hs
  obtain ⟨⟨⟨fv, hfv, hfvn⟩, -⟩, hleaf⟩ := hs
  have hu' : ∃ f ∈ c.attrs, f.name = py "units" := by simpa [hasUnits] using hu
  obtain ⟨fu, hfu, hfun⟩ := hu'
  obtain ⟨-, -, -, value, hval, -⟩ := hasFields_get hf hfv
  obtain ⟨g, hg, hgn, units, hunits, hok⟩ := hasFields_get hf hfu
  rw [hfvn] at hval
  rw [hfun] at hunits hgn
  have hiff : UnknownUnit (.obj c vs) ↔ ∃ s, units = .str s ∧ s ≠ [] := by
    rw [unk_obj, hunits]
    constructor
    · rintro (⟨s, h1, h2⟩ | ⟨⟨n, x⟩, hm, hunk⟩)
      · cases h1; exact ⟨s, rfl, h2⟩
      · exfalso
        obtain ⟨f, hf', hx⟩ := hasFields_mem hf hm
        have hl := hleaf f hf'
        cases hx with
        | list h1 _ => rw [h1] at hl; simp at hl
        | none _ => obtain ⟨d, ws, s, hw, -⟩ := hunk; cases hw
        | one _ h1 =>
          refine unk_leaf h1 ?_ hunk
          intro d hd
          rw [hd] at hl
          exact hl.1.2
    · rintro ⟨s, rfl, h2⟩
      exact .inl ⟨s, rfl, h2⟩
  have hkey : ∃ k, valueKey key vs = .ok k := by
    unfold valueKey
    split
    · exact ⟨_, rfl⟩
    · rename_i n t rest hflt
      have hm : (n, t) ∈ vs.filter fun p => p.1 != py "value" && p.1 != py "units" := by rw [hflt]; simp
      obtain ⟨hm, hn⟩ := List.mem_filter.mp hm
      simp only [Bool.and_eq_true, bne_iff_ne] at hn
      obtain ⟨d, m, rfl⟩ : ∃ d m, t = .enum d m := hw.third ⟨fu, hfu, hfun⟩ (n, t) hm hn.1 hn.2
      exact ⟨m, rfl⟩
  obtain ⟨k, hk⟩ := hkey
  have hty : units = .none ∨ (∃ s, units = .str s) ∨ ∃ d m, units = .enum d m := by
    have hl := hleaf g hg
    rw [hgn] at hl
    cases hok with
    | list h1 _ => rw [h1] at hl; simp at hl
    | none _ => exact .inl rfl
    | one _ h1 =>
      generalize g.ty = t at h1 hl
      cases h1 with
      | str s => exact .inr (.inl ⟨s, rfl⟩)
      | intText s => exact .inr (.inl ⟨s, rfl⟩)
      | decText s => exact .inr (.inl ⟨s, rfl⟩)
      | enum s => exact .inr (.inr ⟨_, _, rfl⟩)
      | enumText s => exact .inr (.inl ⟨s, rfl⟩)
      | int => simp at hl
      | dec => simp at hl
      | obj h1 => simp [h1] at hl
  refine Out.iff ?_ hiff.symm
  unfold writeValueObj attrGet
  rw [hk, hunits, hval]
  rcases hty with rfl | ⟨s, rfl⟩ | ⟨d, m, rfl⟩
  · exact .ok (by simp)
  · by_cases h : s = []
    · subst h
      exact .ok (by simp)
    · refine ⟨fun hn => absurd ⟨s, rfl, h⟩ hn, fun _ _ => ?_⟩
      have : (Val.str s).truthy = true := by simp [Val.truthy, h]
      show (if (Val.str s).truthy = true then _ else _) = _
      rw [if_pos this]
      rfl
  · exact .ok (by simp)

theorem triRows_ne : ∀ (fuel n : Nat) (l : List Str), 0 < n → ∀ r ∈ triRows fuel n l, r ≠ []
  | 0, _, _, _, r, hr => by cases hr
  | fuel + 1, n, l, hn, r, hr => by
    unfold triRows at hr
    split at hr
    · cases hr
    · rename_i hlen
      rcases List.mem_cons.mp hr with rfl | hr
      · intro h
        have := congrArg List.length h
        rw [List.length_take] at this
        simp only [List.length_nil] at this
        omega
      · exact triRows_ne fuel (n + 1) _ (by omega) r hr

theorem fillSingle_ok {l : List Str} (h : l ≠ []) : ∃ s, fillSingle l = .ok s := by
  match l, h with
  | x :: _, _ => exact ⟨_, rfl⟩

theorem mapM_total {α β : Type} {f : α → Except PyErr β} : ∀ {l : List α}, (∀ a ∈ l, ∃ b, f a = .ok b) → ∃ bs, l.mapM f = .ok bs
  | [], _ => ⟨[], rfl⟩
  | a :: l, h => by
    obtain ⟨b, hb⟩ := h a (by simp)
    obtain ⟨bs, hbs⟩ := mapM_total (l := l) fun x hx => h x (by simp [hx])
    exact ⟨b :: bs, by rw [List.mapM_cons, hb]; show (l.mapM f >>= _) = _; rw [hbs]; rfl⟩

theorem covariance_attrs : (∃ f ∈ Cls.attrs .OemCovarianceMatrixType, f.name = py "comment") ∧
    (∃ f ∈ Cls.attrs .OemCovarianceMatrixType, f.name = py "epoch") ∧
    (∃ f ∈ Cls.attrs .OemCovarianceMatrixType, f.name = py "cov_ref_frame") ∧
    (∃ f ∈ Cls.attrs .TrackingDataObservationType, f.name = py "epoch") := by decide +kernel

theorem fieldFit_of (c : Cls) : ∀ f ∈ c.attrs, fieldFit f = true := List.all_eq_true.mp (all_classes schema_fit c)

/-- The classes with a notation of their own. -/
theorem writeSpecial_ok {N : Prop} {c : Cls} {vs : List (Str × Val)} (key : Str) (out : List Str) (hs : isSpecialOut c = true)
    (hf : HasFields c.attrs vs) (hw : WOk N c vs) : ∃ ls, writeSpecial key c vs out = .ok ls := by
  have hc : c = .StateVectorAccType ∨ c = .OemCovarianceMatrixType ∨ c = .TrackingDataObservationType := by
    simp only [isSpecialOut, Bool.or_eq_true, decide_eq_true_eq] at hs
    rcases hs with ((h | h) | h) | h
    · exact .inl h
    · exact .inr (.inl h)
    · exact .inr (.inr h)
    · exact absurd h hw.att
  unfold writeSpecial
  rcases hc with rfl | rfl | rfl
  · rw [if_pos rfl]
    obtain ⟨p, hp, ht⟩ := hw.state rfl
    unfold writeStateVector
    obtain ⟨s, hs⟩ := fillSingle_ok (l := (vs.filter (·.2.truthy)).map fun p => pyStr (valueOr p.2)) (by
      intro h
      have h := List.map_eq_nil_iff.mp h
      have hm : p ∈ vs.filter (·.2.truthy) := List.mem_filter.mpr ⟨hp, ht⟩
      rw [h] at hm
      cases hm)
    rw [hs]
    exact ⟨_, rfl⟩
  · rw [if_neg (by decide), if_neg (by decide), if_neg (by decide)]
    obtain ⟨⟨f1, h1, n1⟩, ⟨f2, h2, n2⟩, ⟨f3, h3, n3⟩, -⟩ := covariance_attrs
    obtain ⟨g, hg, hgn, co, hco, hok⟩ := hasFields_get hf h1
    obtain ⟨-, -, -, ep, hep, -⟩ := hasFields_get hf h2
    obtain ⟨-, -, -, fr, hfr, -⟩ := hasFields_get hf h3
    rw [n1] at hco hgn
    rw [n2] at hep
    rw [n3] at hfr
    obtain ⟨xs, rfl⟩ : ∃ xs, co = .list xs := by
      have hl := fieldFit_of _ g hg
      simp only [fieldFit, hgn, bne_self_eq_false, Bool.false_or, Bool.and_eq_true] at hl
      have hl := hl.1.1.1
      cases hok with
      | list => exact ⟨_, rfl⟩
      | none h => rw [h] at hl; cases hl
      | one h => rw [h] at hl; cases hl
    unfold writeCovariance attrGet
    rw [hco, hep, hfr]
    obtain ⟨rows, hrows⟩ := mapM_total (f := fillSingle)
      (l := triRows (((vs.filterMap fun p => valueAttr? p.2).map pyStr).length + 1) 1 ((vs.filterMap fun p => valueAttr? p.2).map pyStr))
      (fun r hr => fillSingle_ok (triRows_ne _ _ _ (by omega) r hr))
    show ∃ ls, ((triRows (((vs.filterMap fun p => valueAttr? p.2).map pyStr).length + 1) 1
      ((vs.filterMap fun p => valueAttr? p.2).map pyStr)).mapM fillSingle >>= _) = .ok ls
    rw [hrows]
    exact ⟨_, rfl⟩
  · rw [if_neg (by decide), if_neg (by decide), if_pos rfl]
    obtain ⟨-, -, -, ⟨f, h, n⟩⟩ := covariance_attrs
    obtain ⟨-, -, -, ep, hep, -⟩ := hasFields_get hf h
    rw [n] at hep
    obtain ⟨⟨k, v⟩, hp, hne, d, hd⟩ := hw.obs rfl
    simp only at hne hd
    subst hd
    unfold writeObservation
    have hm : (k, Val.dec d) ∈ vs.filter (fun p => (match p.2 with | .dec _ => true | _ => false) && p.1 != py "epoch") :=
      List.mem_filter.mpr ⟨hp, by simp [hne]⟩
    generalize vs.filter (fun p => (match p.2 with | .dec _ => true | _ => false) && p.1 != py "epoch") = items at hm
    match items, hm with
    | (k', v') :: r, _ =>
      unfold dictGet
      rw [hep]
      exact ⟨_, rfl⟩

theorem writeUserDefined_ok {N : Prop} {key : Str} {v : Val} (h : HasType (.cls .UserDefinedParameterType) v)
    (hw : ∀ c ws, Within (.obj c ws) v → WOk N c ws) : ∃ s, writeUserDefined key v = .ok s := by
  cases h with
  | enum _ hm => cases hm
  | enumText _ hm => cases hm
  | obj _ hf =>
    obtain ⟨s, hs⟩ := (hw _ _ .self).user rfl
    obtain ⟨f, hm, hn⟩ : ∃ f ∈ Cls.attrs .UserDefinedParameterType, f.name = py "value" := by decide +kernel
    obtain ⟨-, -, -, v, hv, -⟩ := hasFields_get hf hm
    rw [hn] at hv
    unfold writeUserDefined attrGet
    simp only [hs, hv]
    exact ⟨_, rfl⟩

theorem userParam_leaf : ((Cls.attrs .UserDefinedParameterType).all fun f => f.ty == .str && f.name != py "units") = true := by
  decide +kernel

theorem unk_user {v : Val} (h : HasType (.cls .UserDefinedParameterType) v) : ¬ UnknownUnit v := by
  cases h with
  | enum _ hm => cases hm
  | enumText _ hm => cases hm
  | @obj _ vs _ hf =>
    rw [unk_obj]
    rintro (⟨s, h1, -⟩ | ⟨⟨n, x⟩, hm, hunk⟩)
    · have := hasFields_units hf
      have h2 : hasUnits .UserDefinedParameterType = false := by decide +kernel
      rw [h2] at this
      unfold Val.lookupVar at h1
      obtain ⟨p, hp, -⟩ := Option.map_eq_some_iff.mp h1
      have h3 := List.any_eq_false.mp this p (List.mem_of_find?_eq_some hp)
      exact h3 (by simpa using List.find?_some hp)
    · obtain ⟨f, hf', hx⟩ := hasFields_mem hf hm
      have := List.all_eq_true.mp userParam_leaf f hf'
      simp only [Bool.and_eq_true, beq_iff_eq] at this
      cases hx with
      | list _ ha =>
        rw [this.1] at ha
        obtain ⟨y, hy, hu⟩ := unk_list.mp hunk
        exact unk_leaf (allHaveType_mem ha hy) (by intro c h; cases h) hu
      | none _ => obtain ⟨d, ws, s, hw, -⟩ := hunk; cases hw
      | one _ h1 =>
        rw [this.1] at h1
        exact unk_leaf h1 (by intro c h; cases h) hunk

/-- No units of its own. -/
theorem no_units {c : Cls} {vs : List (Str × Val)} (hf : HasFields c.attrs vs) (h : hasUnits c = false) :
    UnknownUnit (.obj c vs) ↔ ∃ p ∈ vs, UnknownUnit p.2 := by
  rw [unk_obj]
  refine ⟨fun h' => h'.resolve_left ?_, .inr⟩
  rintro ⟨s, h1, -⟩
  have hu := hasFields_units hf
  rw [h] at hu
  unfold Val.lookupVar at h1
  obtain ⟨p, hp, -⟩ := Option.map_eq_some_iff.mp h1
  exact List.any_eq_false.mp hu p (List.mem_of_find?_eq_some hp) (by simpa using List.find?_some hp)

theorem hasType_not_list {t : FTy} {xs : List Val} (h : HasType t (.list xs)) : False := by
  generalize hv : Val.list xs = v at h
  cases h <;> cases hv

theorem hasType_obj {t : FTy} {c : Cls} {vs : List (Str × Val)} (h : HasType t (.obj c vs)) : HasFields c.attrs vs := by
  generalize hv : Val.obj c vs = v at h
  cases h <;> cases hv
  assumption

mutual
theorem collateObj_out {N : Prop} (key : Str) (out : List Str) : ∀ (v : Val) (c : Cls), HasType (.cls c) v → c.members = none →
    hasUnits c = false → (∀ d ws, Within (.obj d ws) v → WOk N d ws) → Out N (UnknownUnit v) (collateObj key out v)
  | .none, c, h, hm, _, _ | .str _, c, h, hm, _, _ | .int _, c, h, hm, _, _ | .dec _, c, h, hm, _, _ | .enum _ _, c, h, hm, _, _
  | .list _, c, h, hm, _, _ => by
    exfalso
    cases h <;> simp_all
  | .obj c' vs, c, h, hm, hu, hw => by
    cases h with
    | obj _ hf =>
      have hself := hw _ _ .self
      unfold collateObj
      split
      · rename_i hs
        obtain ⟨ls, hls⟩ := writeSpecial_ok key out hs hf hself
        refine ⟨fun _ => ⟨out ++ ls, by rw [hls]; rfl⟩, fun hN => absurd hN (hself.special hs)⟩
      · refine Out.bind_ok ?_ fun a _ => ⟨_, rfl⟩
        exact (collateVars_out vs out _ hf (fieldFit_of _) fun p hp d ws hq => hw d ws (.field (n := p.1) hp hq)).iff
          (no_units hf hu).symm

theorem collateVars_out {N : Prop} : ∀ (vs : List (Str × Val)) (out : List Str) (fs : List Field), HasFields fs vs →
    (∀ f ∈ fs, fieldFit f = true) → (∀ p ∈ vs, ∀ d ws, Within (.obj d ws) p.2 → WOk N d ws) →
    Out N (∃ p ∈ vs, UnknownUnit p.2) (collateVars out vs)
  | [], out, fs, _, _, _ => by
    unfold collateVars
    exact .ok (by simp)
  | (k, v) :: rest, out, fs, h, hfit, hw => by
    cases h with
    | cons hv hr =>
      rename_i f fs
      unfold collateVars
      refine Out.iff (Out.bind (collateSub_out v out f (hfit f (by simp)) hv fun d ws hq => hw (f.name, v) (by simp) d ws hq) fun o _ =>
        collateVars_out rest o fs hr (fun g hg => hfit g (by simp [hg])) fun p hp => hw p (by simp [hp])) ?_
      simp

theorem collateSub_out {N : Prop} : ∀ (v : Val) (out : List Str) (f : Field), fieldFit f = true → FieldOk f v →
    (∀ d ws, Within (.obj d ws) v → WOk N d ws) → Out N (UnknownUnit v) (collateSub f.name out v)
  | .str s, out, f, hfit, h, hw => by
    unfold collateSub
    exact .ok (by rintro ⟨_, _, _, h, -⟩; cases h)
  | .int s, out, f, hfit, h, hw => by
    unfold collateSub
    exact .ok (by rintro ⟨_, _, _, h, -⟩; cases h)
  | .enum c s, out, f, hfit, h, hw => by
    have : ¬ f.name = py "comment" := by
      intro hn
      simp only [fieldFit, hn, bne_self_eq_false, Bool.false_or, Bool.and_eq_true] at hfit
      cases h with
      | one h1 => rw [h1] at hfit; simp at hfit
    unfold collateSub
    rw [if_neg this]
    exact .ok (by rintro ⟨_, _, _, h, -⟩; cases h)
  | .dec s, out, f, hfit, h, hw => by
    have : ¬ f.name = py "comment" := by
      intro hn
      simp only [fieldFit, hn, bne_self_eq_false, Bool.false_or, Bool.and_eq_true] at hfit
      cases h with
      | one h1 => rw [h1] at hfit; simp at hfit
    unfold collateSub
    rw [if_neg this]
    exact .ok (by rintro ⟨_, _, _, h, -⟩; cases h)
  | .none, out, f, hfit, h, hw => by
    have hl : f.isList = false := by
      cases h with
      | none h => exact h
      | one h _ => exact h
    have : ¬ (f.name = py "comment" ∨ f.name = py "user_defined") := by
      rintro (hn | hn) <;> simp [fieldFit, hn, hl] at hfit
    unfold collateSub
    rw [if_neg this]
    exact .ok (by rintro ⟨_, _, _, h, -⟩; cases h)
  | .obj c vs, out, f, hfit, h, hw => by
    have hl : f.isList = false := by cases h; assumption
    have h1 : ¬ f.name = py "comment" := by
      intro hn; simp [fieldFit, hn, hl] at hfit
    have h2 : ¬ f.name = py "user_defined" := by
      intro hn; simp [fieldFit, hn, hl] at hfit
    have hf : HasFields c.attrs vs := by
      cases h with
      | one _ h => exact hasType_obj h
    have hself := hw _ _ .self
    unfold collateSub
    refine Out.header fun out => ?_
    rw [if_neg h1]
    split
    · rename_i hu
      rw [hasFields_units hf] at hu
      exact (writeValueObj_out f.name hu hf hself).bind_ok fun a _ => ⟨_, rfl⟩
    · rename_i hu
      rw [hasFields_units hf] at hu
      split
      · rename_i hs
        obtain ⟨ls, hls⟩ := writeSpecial_ok f.name out hs hf hself
        refine ⟨fun _ => ⟨out ++ ls, by rw [hls]; rfl⟩, fun hN => absurd hN (hself.special hs)⟩
      · refine Out.bind_ok (b := UnknownUnit (.obj c vs)) ?_ fun a _ => ⟨_, rfl⟩
        exact (collateVars_out vs out c.attrs hf (fieldFit_of c) fun p hp d ws hq => hw d ws (.field (n := p.1) hp hq)).iff
          (no_units hf (by simpa using hu)).symm
  | .list xs, out, f, hfit, h, hw => by
    have hl : f.isList = true ∧ AllHaveType f.ty xs := by
      cases h with
      | list h1 h2 => exact ⟨h1, h2⟩
      | one _ h => exact (hasType_not_list h).elim
    obtain ⟨hl, ha⟩ := hl
    unfold collateSub
    split
    · rename_i hn
      have : f.ty = .str := by
        simp only [fieldFit, hn, bne_self_eq_false, Bool.false_or, Bool.and_eq_true, decide_eq_true_eq] at hfit
        exact hfit.1.1.2
      rw [this] at ha
      refine .ok ?_
      rw [unk_list]
      rintro ⟨x, hx, hu⟩
      exact unk_leaf (allHaveType_mem ha hx) (by intro c h; cases h) hu
    · rename_i hn
      split
      · rename_i hn'
        have : f.ty = .cls .UserDefinedParameterType := by
          simp only [fieldFit, hn', bne_self_eq_false, Bool.false_or, Bool.and_eq_true, decide_eq_true_eq] at hfit
          exact hfit.1.2.2
        rw [this] at ha
        obtain ⟨ls, hls⟩ := mapM_total (f := writeUserDefined f.name) (l := xs) fun x hx =>
          writeUserDefined_ok (allHaveType_mem ha hx) fun c ws hq => hw c ws (.item hx hq)
        rw [hls]
        refine .ok ?_
        rw [unk_list]
        rintro ⟨x, hx, hu⟩
        exact unk_user (allHaveType_mem ha hx) hu
      · rename_i hn'
        obtain ⟨c, hty, hm, hu⟩ : ∃ c, f.ty = .cls c ∧ c.members = none ∧ hasUnits c = false := by
          simp only [fieldFit, hl, Bool.and_eq_true, Bool.or_eq_true, Bool.not_true, beq_iff_eq] at hfit
          have := hfit.2
          simp only [hn, hn', false_or, Bool.false_eq_true] at this
          split at this
          · rename_i c hc
            simp only [Bool.and_eq_true, Option.isNone_iff_eq_none, Bool.not_eq_true'] at this
            exact ⟨c, hc, this.1, this.2⟩
          · cases this
        rw [hty] at ha
        match xs, ha, hw with
        | [], _, _ => exact .ok (by rw [unk_list]; simp)
        | x :: rest, ha, hw =>
          cases ha with
          | cons hx hr =>
            refine Out.header fun out => ?_
            refine Out.iff (Out.bind (collateObj_out f.name out x c hx hm hu fun d ws hq => hw d ws (.item (by simp) hq)) fun o _ =>
              collateItems_out f.name rest o c hr hm hu fun y hy d ws hq => hw d ws (.item (by simp [hy]) hq)) ?_
            rw [unk_list]; simp

theorem collateItems_out {N : Prop} (key : Str) : ∀ (xs : List Val) (out : List Str) (c : Cls), AllHaveType (.cls c) xs →
    c.members = none → hasUnits c = false → (∀ x ∈ xs, ∀ d ws, Within (.obj d ws) x → WOk N d ws) →
    Out N (∃ x ∈ xs, UnknownUnit x) (collateItems key out xs)
  | [], out, c, _, _, _, _ => by
    unfold collateItems
    exact .ok (by simp)
  | x :: rest, out, c, ha, hm, hu, hw => by
    cases ha with
    | cons hx hr =>
      unfold collateItems
      refine Out.iff (Out.bind (collateObj_out key out x c hx hm hu fun d ws hq => hw x (by simp) d ws hq) fun o _ =>
        collateItems_out key rest o c hr hm hu fun y hy => hw y (by simp [hy])) ?_
      simp
end

end Ndm
