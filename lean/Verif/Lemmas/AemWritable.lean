import Verif.Lemmas.AbsentRead
import Verif.Lemmas.Inside
import Verif.Lemmas.Writable
import Verif.SpecToKvn

/-! Which attitude ephemerides can be written. -/

namespace Ndm

theorem within_trans {u v w : Val} (h : Within u v) (h' : Within v w) : Within u w := by
  induction h' with
  | self => exact h
  | field hm _ ih => exact .field hm ih
  | item hm _ ih => exact .item hm ih

/-- There is a line with the order of quaternion components. -/
def HasQuatLine (out : List Str) : Prop := ∃ x ∈ out, startsWith x (py "QUATERNION_TYPE") = true

theorem HasQuatLine.mono {a b : List Str} (h : HasQuatLine a) (hp : a <+: b) : HasQuatLine b := by
  obtain ⟨x, hx, h⟩ := h
  exact ⟨x, hp.subset hx, h⟩

theorem quatLast_ok {out : List Str} (h : HasQuatLine out) : ∃ b, quatLast out = .ok b := by
  obtain ⟨x, hx, h⟩ := h
  unfold quatLast
  split
  · next hn =>
    have := List.find?_eq_none.mp hn x (by simpa using hx)
    rw [h] at this
    exact absurd rfl this
  · exact ⟨_, rfl⟩

theorem hasFields_one {f : Field} {fs : List Field} {vs : List (Str × Val)} (h : HasFields (f :: fs) vs) :
    ∃ v ws, vs = (f.name, v) :: ws ∧ FieldOk f v ∧ HasFields fs ws := by
  cases h with
  | cons hv hr => exact ⟨_, _, rfl, hv, hr⟩

theorem hasFields_nil {vs : List (Str × Val)} (h : HasFields [] vs) : vs = [] := by
  cases h
  rfl

theorem hasFields_at {n : Str} {x : Val} : ∀ {fs : List Field} {vs : List (Str × Val)}, HasFields fs vs → (n, x) ∈ vs → ∃ f ∈ fs, f.name = n ∧ FieldOk f x
  | _, _, .cons (f := g) hv hr, h => by
    rcases List.mem_cons.mp h with e | h
    · cases e
      exact ⟨g, by simp, rfl, hv⟩
    · obtain ⟨f, hf, h⟩ := hasFields_at hr h
      exact ⟨f, by simp [hf], h⟩

theorem fieldOk_obj {f : Field} {d c : Cls} {bs : List (Str × Val)} (hf : f.ty = .cls c) (h : FieldOk f (.obj d bs)) :
    d = c ∧ HasFields c.attrs bs := by
  cases h with
  | one _ hx =>
    rw [hf] at hx
    cases hx with
    | obj _ h => exact ⟨rfl, h⟩

theorem dictGet_field {c : Cls} {bs : List (Str × Val)} (h : HasFields c.attrs bs) {n : Str} (hn : ∃ f ∈ c.attrs, f.name = n) :
    ∃ v, dictGet n bs = .ok v := by
  obtain ⟨f, hf, rfl⟩ := hn
  obtain ⟨-, -, -, v, hv, -⟩ := hasFields_get h hf
  exact ⟨v, by unfold dictGet; rw [hv]⟩

theorem strsOf_ok {c : Cls} {bs : List (Str × Val)} (h : HasFields c.attrs bs) {keys : List Str}
    (hk : ∀ k ∈ keys, ∃ f ∈ c.attrs, f.name = k) : ∃ l, strsOf keys bs = .ok l := by
  refine mapM_total fun k hk' => ?_
  obtain ⟨v, hv⟩ := dictGet_field h (hk k hk')
  exact ⟨pyStr v, by rw [hv]; rfl⟩

theorem quaternion_keys (last : Bool) : ∀ k ∈ (if last then [py "q1", py "q2", py "q3", py "qc"] else [py "qc", py "q1", py "q2", py "q3"]),
    ∃ f ∈ Cls.attrs .QuaternionType, f.name = k := by
  cases last <;> decide

/-- A complete attitude state can be written. -/
theorem writeAttitude_ok {ws : List (Str × Val)} {out : List Str} (hf : HasFields (Cls.attrs .AttitudeStateType) ws) (hs : CompleteState ws)
    (hq : ∀ c avs, StateElement ws (.obj c avs) → c ∈ [Cls.QuaternionEphemerisType, .QuaternionEulerRateType] → HasQuatLine out) :
    ∃ ls, writeAttitude ws out = .ok ls := by
  obtain ⟨c, avs, hel, hnd, ⟨e, he⟩, hparts, hrates⟩ := hs
  have hquat := hq c avs hel
  obtain ⟨before, n, after, rfl, hb, -⟩ := hel
  have hfil : ((before ++ (n, Val.obj c avs) :: after).map (·.2)).filter Val.truthy = .obj c avs :: (after.map (·.2)).filter Val.truthy := by
    rw [List.map_append, List.filter_append]
    have : (before.map (·.2)).filter Val.truthy = [] := by
      rw [List.filter_eq_nil_iff]
      intro x hx
      obtain ⟨p, hp, rfl⟩ := List.mem_map.mp hx
      rw [hb p hp]
      decide
    rw [this, List.nil_append, List.map_cons, List.filter_cons_of_pos rfl]
  obtain ⟨f, hfm, -, hok⟩ := hasFields_at hf (n := n) (x := .obj c avs) (by simp)
  have hcls : ∃ d, f.ty = .cls d ∧ (isQuaternionCls d = true → d ∈ [Cls.QuaternionEphemerisType, .QuaternionEulerRateType, .QuaternionDerivativeType]) := by
    have : ∀ f ∈ Cls.attrs .AttitudeStateType, ∃ d ∈ [Cls.QuaternionEphemerisType, .QuaternionDerivativeType, .QuaternionEulerRateType, .EulerAngleType,
      .EulerAngleRateType, .SpinType, .SpinNutationType], f.ty = .cls d ∧ (isQuaternionCls d = true → d ∈ [Cls.QuaternionEphemerisType, .QuaternionEulerRateType, .QuaternionDerivativeType]) := by decide
    obtain ⟨d, -, h⟩ := this f hfm
    exact ⟨d, h⟩
  obtain ⟨d, hty, hd⟩ := hcls
  obtain ⟨rfl, hfa⟩ := fieldOk_obj hty hok
  have hvars : ∀ p ∈ avs.filter (·.1 != py "epoch"), ∃ bs, p.2.vars? = Except.ok bs := by
    intro p hp
    obtain ⟨hp, hne⟩ := List.mem_filter.mp hp
    obtain ⟨d, bs, h⟩ := hparts p hp (by simpa using hne)
    exact ⟨bs, by rw [h]; rfl⟩
  obtain ⟨rots, hrots⟩ := mapM_total (f := fun p : Str × Val => p.2.vars?) hvars
  have hline : ∃ line, attLine (.obj c avs) rots out = .ok line := by
    unfold attLine
    dsimp only
    split
    · next hqc =>
      have hmem := hd hqc
      simp only [List.mem_cons, List.not_mem_nil, or_false] at hmem
      have hmem : c = .QuaternionEphemerisType ∨ c = .QuaternionEulerRateType := by tauto
      obtain ⟨last, hlast⟩ := quatLast_ok (hquat (by simpa using hmem))
      unfold quaternionLine
      rcases hmem with rfl | rfl
      · obtain ⟨v1, r1, rfl, -, h1⟩ := hasFields_one hfa
        obtain ⟨v2, r2, rfl, hv2, h2⟩ := hasFields_one h1
        cases hasFields_nil h2
        obtain ⟨d, bs, e2⟩ := hparts (py "quaternion", v2) (by simp) (show py "quaternion" ≠ py "epoch" by decide)
        simp only at e2
        subst e2
        obtain ⟨rfl, hbs⟩ := fieldOk_obj rfl hv2
        have : rots = [bs] := by
          have : (Except.ok [bs] : Except PyErr _) = .ok rots := hrots
          cases this
          rfl
        subst this
        obtain ⟨q, hq'⟩ := strsOf_ok hbs (quaternion_keys last)
        exact ⟨q, by rw [hlast]; show (strsOf _ bs >>= _) = _; rw [hq']; rfl⟩
      · obtain ⟨v1, r1, rfl, -, h1⟩ := hasFields_one hfa
        obtain ⟨v2, r2, rfl, hv2, h2⟩ := hasFields_one h1
        obtain ⟨v3, r3, rfl, hv3, h3⟩ := hasFields_one h2
        cases hasFields_nil h3
        obtain ⟨d, bs, e2⟩ := hparts (py "quaternion", v2) (by simp) (show py "quaternion" ≠ py "epoch" by decide)
        simp only at e2
        subst e2
        obtain ⟨rfl, hbs⟩ := fieldOk_obj rfl hv2
        obtain ⟨d, cs, e3⟩ := hparts (py "rotation_rates", v3) (by simp) (show py "rotation_rates" ≠ py "epoch" by decide)
        simp only at e3
        subst e3
        obtain ⟨rfl, hcs⟩ := fieldOk_obj rfl hv3
        have : rots = [bs, cs] := by
          have : (Except.ok [bs, cs] : Except PyErr _) = .ok rots := hrots
          cases this
          rfl
        subst this
        obtain ⟨q, hq'⟩ := strsOf_ok hbs (quaternion_keys last)
        obtain ⟨r, hr⟩ := mapM_total (f := fun k : Str => (do
            let x ← dictGet k cs
            return pyStr (← valueAttr x) : Except PyErr Str)) (l := [py "rotation1", py "rotation2", py "rotation3"]) (by
          intro k hk
          obtain ⟨f, hf, hfk⟩ : ∃ f ∈ Cls.attrs .RotationRateType, f.name = k := by
            have : ∀ k ∈ [py "rotation1", py "rotation2", py "rotation3"], ∃ f ∈ Cls.attrs .RotationRateType, f.name = k := by decide
            exact this k hk
          obtain ⟨g, hg, hgn, x, hx, hgx⟩ := hasFields_get hcs hf
          unfold Val.lookupVar at hx
          obtain ⟨p, hp, rfl⟩ := Option.map_eq_some_iff.mp hx
          obtain ⟨d, us, hpe⟩ := hrates rfl (py "rotation_rates") cs (List.mem_cons_of_mem _ (List.mem_cons_of_mem _ List.mem_cons_self)) p (List.mem_of_find?_eq_some hp)
          have hall : ∀ f ∈ Cls.attrs .RotationRateType, f.ty = .cls .RotationRateComponentType := by decide
          rw [hpe] at hgx
          obtain ⟨rfl, hus⟩ := fieldOk_obj (hall g hg) hgx
          have hva : ∃ f ∈ Cls.attrs .RotationRateComponentType, f.name = py "value" := by decide
          obtain ⟨fv, hfv, hfn⟩ := hva
          obtain ⟨-, -, -, y, hy, -⟩ := hasFields_get hus hfv
          rw [hfn] at hy
          refine ⟨pyStr y, ?_⟩
          have hget : dictGet k cs = .ok (.obj .RotationRateComponentType us) := by
            unfold dictGet Val.lookupVar
            rw [← hfk, hp]
            simp [hpe]
          have hval : valueAttr (.obj .RotationRateComponentType us) = .ok y := by
            unfold valueAttr
            simp [attrGet, hy]
          show (dictGet k cs >>= fun x => valueAttr x >>= fun y => pure (pyStr y)) = _
          rw [hget]
          show (valueAttr _ >>= fun y => pure (pyStr y)) = _
          rw [hval]
          rfl)
        refine ⟨q ++ r, ?_⟩
        rw [hlast]
        show (strsOf _ bs >>= fun q => _) = _
        rw [hq']
        show ((List.mapM _ _ : Except PyErr (List Str)) >>= fun r => (pure (q ++ r) : Except PyErr (List Str))) = _
        rw [hr]
        rfl
    · exact ⟨_, rfl⟩
  obtain ⟨line, hline⟩ := hline
  obtain ⟨s, hs⟩ := fillSingle_ok (l := e :: line) (by simp)
  refine ⟨[s], ?_⟩
  have hep : dictGet (py "epoch") avs = .ok (.str e) := by unfold dictGet; rw [he]
  unfold writeAttitude
  rw [hfil]
  simp only [Val.vars?, bind, Except.bind] at hrots ⊢
  rw [hrots]
  simp only [hline, hep, hs, pure, Except.pure]

/-- Complete attitude states can be written. -/
theorem collateItems_att {key : Str} : ∀ (xs : List Val) (out : List Str), AllHaveType (.cls .AttitudeStateType) xs →
    (∀ ws, .obj .AttitudeStateType ws ∈ xs → CompleteState ws ∧
      ∀ c avs, StateElement ws (.obj c avs) → c ∈ [Cls.QuaternionEphemerisType, .QuaternionEulerRateType] → HasQuatLine out) →
    ∃ o, collateItems key out xs = .ok o
  | [], out, _, _ => ⟨out, by simp only [collateItems]⟩
  | x :: xs, out, .cons hx hr, h => by
    obtain ⟨ws, rfl, hf⟩ : ∃ ws, x = .obj .AttitudeStateType ws ∧ HasFields (Cls.attrs .AttitudeStateType) ws := by
      have hm : Cls.members .AttitudeStateType = none := rfl
      cases hx with
      | enum _ h' => cases h'
      | enumText _ h' => cases h'
      | obj _ hf => exact ⟨_, rfl, hf⟩
    obtain ⟨hc, hq⟩ := h ws (by simp)
    obtain ⟨ls, hls⟩ := writeAttitude_ok hf hc hq
    have h1 : collateObj key out (.obj .AttitudeStateType ws) = .ok (out ++ ls) := by
      simp only [collateObj, show isSpecialOut .AttitudeStateType = true from rfl, if_true]
      show (writeAttitude ws out >>= _) = _
      rw [hls]
      rfl
    obtain ⟨o, ho⟩ := collateItems_att (key := key) xs (out ++ ls) hr fun us hu => by
      obtain ⟨h1, h2⟩ := h us (by simp [hu])
      exact ⟨h1, fun c avs h3 h4 => (h2 c avs h3 h4).mono (List.prefix_append _ _)⟩
    exact ⟨o, by simp only [collateItems]; rw [h1]; exact ho⟩

theorem fillKvn_starts (key value : Str) (h : upper key = py "QUATERNION_TYPE") : startsWith (fillKvn key value none) (py "QUATERNION_TYPE") = true := by
  unfold fillKvn
  rw [h]
  have : ljust 20 (py "QUATERNION_TYPE") = py "QUATERNION_TYPE     " := by decide
  rw [this]
  simp [startsWith, lit]

/-- The order of quaternion components is written. -/
theorem quatLine_of_sub {f : Field} {q : Val} {o1 o2 : List Str} (hf : f.ty = .cls .QuaternionTypeType) (hl : f.isList = false)
    (hq : FieldOk f q) (hne : q ≠ .none) (h : collateSub (py "quaternion_type") o1 q = .ok o2) : HasQuatLine o2 := by
  have hu : upper (py "quaternion_type") = py "QUATERNION_TYPE" := by decide
  have key : ∀ v : Str, HasQuatLine (o1 ++ [fillKvn (py "quaternion_type") v none]) :=
    fun v => ⟨_, by simp, fillKvn_starts _ v hu⟩
  cases hq with
  | none => exact absurd rfl hne
  | list h1 => rw [hl] at h1; cases h1
  | one _ hx _ =>
    rw [hf] at hx
    cases hx with
    | enum s _ _ =>
      simp only [collateSub] at h
      rw [if_neg (by decide)] at h
      cases h
      exact key _
    | enumText s _ _ =>
      simp only [collateSub] at h
      cases h
      exact key _
    | obj h' => cases h'

theorem fieldOk_listed {f : Field} {v : Val} (hl : f.isList = true) (h : FieldOk f v) : ∃ xs, v = .list xs ∧ AllHaveType f.ty xs := by
  cases h with
  | none h => rw [hl] at h; cases h
  | one h => rw [hl] at h; cases h
  | list _ h => exact ⟨_, rfl, h⟩

theorem fieldOk_single {f : Field} {v : Val} {c : Cls} (hf : f.ty = .cls c) (hl : f.isList = false) (hm : c.members = none) (h : FieldOk f v) :
    v = .none ∨ ∃ vs, v = .obj c vs ∧ HasFields c.attrs vs := by
  cases h with
  | none => exact .inl rfl
  | list h1 => rw [hl] at h1; cases h1
  | one _ hx _ =>
    rw [hf] at hx
    cases hx with
    | enum _ h' => rw [hm] at h'; cases h'
    | enumText _ h' => rw [hm] at h'; cases h'
    | obj _ h' => exact .inr ⟨_, rfl, h'⟩

theorem withHeader_total {h : Option Str} {bf af : Str → List Str} {out : List Str} {body : List Str → Except PyErr (List Str)}
    (hb : ∀ o, out <+: o → ∃ o2, body o = .ok o2) : ∃ o2, withHeader h bf af out body = .ok o2 := by
  unfold withHeader
  split
  · obtain ⟨o2, h⟩ := hb _ (List.prefix_append _ _)
    exact ⟨_, by rw [h]; rfl⟩
  · exact hb _ (List.prefix_refl _)

theorem collateSub_obj_total {key : Str} {c : Cls} {vs : List (Str × Val)} {out : List Str} (hk : key ≠ py "comment")
    (hk' : key ≠ py "user_defined") (hs : isSpecialOut c = false) (hu : vs.any (·.1 == py "units") = false)
    (hb : ∀ o, out <+: o → ∃ o2, collateVars o vs = .ok o2) : ∃ o2, collateSub key out (.obj c vs) = .ok o2 := by
  simp only [collateSub, hs, hu, hk, hk', Bool.false_eq_true, if_false]
  refine withHeader_total fun o hp => ?_
  obtain ⟨o2, h⟩ := hb o hp
  exact ⟨_, by rw [h]; rfl⟩

theorem collateObj_total {key : Str} {c : Cls} {vs : List (Str × Val)} {out : List Str} (hs : isSpecialOut c = false)
    (hb : ∃ o2, collateVars out vs = .ok o2) : ∃ o2, collateObj key out (.obj c vs) = .ok o2 := by
  obtain ⟨o2, h⟩ := hb
  simp only [collateObj, hs, Bool.false_eq_true, if_false]
  exact ⟨_, by rw [h]; rfl⟩

theorem collateSub_list_total {key : Str} {xs : List Val} {out : List Str} (hk : key ≠ py "comment") (hk' : key ≠ py "user_defined")
    (hb : ∀ o, out <+: o → ∃ o2, collateItems key o xs = .ok o2) : ∃ o2, collateSub key out (.list xs) = .ok o2 := by
  cases xs with
  | nil =>
    refine ⟨out, ?_⟩
    rw [collateSub, if_neg hk, if_neg hk']
  | cons x rest =>
    rw [collateSub, if_neg hk, if_neg hk']
    refine withHeader_total fun o hp => ?_
    obtain ⟨o2, h⟩ := hb o hp
    exact ⟨o2, by simpa only [collateItems] using h⟩

theorem collateSub_comment {xs : List Val} {out : List Str} :
    collateSub (py "comment") out (.list xs) = .ok (out ++ xs.map fun x => fillKvn (py "comment") (pyStr x) none) := by
  simp only [collateSub, if_true]

theorem collateVars_cons {k : Str} {v : Val} {vs : List (Str × Val)} {out o o2 : List Str} (h : collateSub k out v = .ok o)
    (hr : collateVars o vs = .ok o2) : collateVars out ((k, v) :: vs) = .ok o2 := by
  simp only [collateVars]
  rw [h]
  exact hr

theorem collateVars_nil {out : List Str} : collateVars out [] = .ok out := by simp only [collateVars]

theorem collateItems_total {key : Str} : ∀ (xs : List Val) (out : List Str), (∀ x ∈ xs, ∀ o, ∃ o2, collateObj key o x = .ok o2) →
    ∃ o2, collateItems key out xs = .ok o2
  | [], out, _ => ⟨out, by simp only [collateItems]⟩
  | x :: xs, out, h => by
    obtain ⟨o1, h1⟩ := h x (by simp) out
    obtain ⟨o2, h2⟩ := collateItems_total (key := key) xs o1 fun y hy => h y (by simp [hy])
    exact ⟨o2, by simp only [collateItems]; rw [h1]; exact h2⟩

/-- The classes of headers and metadata. -/
def leafClasses : List Cls := [.NdmHeader, .AemMetadata]

theorem leafClasses_closed : ∀ c ∈ leafClasses, ∀ f ∈ c.attrs, (match f.ty with | .cls e => e.members.isSome | _ => true) = true := by decide

theorem leaf_ok {f : Field} {v : Val} {c : Cls} (hc : c ∈ leafClasses) (hf : f.ty = .cls c) (hl : f.isList = false)
    (h : FieldOk f v) : (∀ d ws, Within (.obj d ws) v → WOk False d ws) ∧ ¬ UnknownUnit v := by
  have hm : ∀ c ∈ leafClasses, c.members = none := by decide
  have hnu : ∀ c ∈ leafClasses, hasUnits c = false := by decide
  have key : ∀ d ws, Within (.obj d ws) v → d ∈ leafClasses ∧ HasFields d.attrs ws := by
    intro d ws hw
    rcases fieldOk_single hf hl (hm c hc) h with rfl | ⟨vs, rfl, hvs⟩
    · cases hw
    · refine ⟨(within_class (S := leafClasses) (by
        intro c' hc' f hf e he hm
        have := leafClasses_closed c' hc' f hf
        rw [he] at this
        have this : e.members.isSome = true := this
        rw [hm] at this
        cases this) hw).1 (.cls c) (by
          intro c' hc' _
          cases hc'
          exact hc) (.obj (hm c hc) hvs), (within_typed hw).1 _ (.obj (hm c hc) hvs)⟩
  constructor
  · intro d ws hw
    obtain ⟨hd, -⟩ := key d ws hw
    refine ⟨?_, ?_, ?_, ?_, ?_, fun _ h => h⟩
    · rintro ⟨f, hf, hfn⟩
      have := hnu d hd
      rw [hasUnits, List.any_eq_false] at this
      exact absurd (by simp [hfn]) (this f hf)
    all_goals
      rintro rfl
      exact absurd hd (by decide)
  · rintro ⟨d, ws, s, hw, hs, -⟩
    obtain ⟨hd, hws⟩ := key d ws hw
    have := hasFields_units hws
    rw [hnu d hd, List.any_eq_false] at this
    unfold Val.lookupVar at hs
    obtain ⟨⟨n, x⟩, hx, -⟩ := Option.map_eq_some_iff.mp hs
    have hn := List.find?_some hx
    exact this _ (List.mem_of_find?_eq_some hx) hn

/-- A segment whose attitude states are complete can be written; the order of quaternion components is then known. -/
theorem aemSegment_ok {us : List (Str × Val)} (hf : HasFields (Cls.attrs .AemSegment) us)
    (hc : CompleteAttitudes (.obj .AemSegment us)) (key : Str) (out : List Str)
    (ht : HasQuaternions us → StatesOrder us ∨ HasQuatLine out) :
    ∃ o, collateObj key out (.obj .AemSegment us) = .ok o ∧ (StatesOrder us → HasQuatLine o) := by
  obtain ⟨m, r, rfl, hm', h⟩ := hasFields_one hf
  obtain ⟨d, r, rfl, hd', h⟩ := hasFields_one h
  cases hasFields_nil h
  obtain ⟨o1, h1⟩ := (collateSub_out (N := False) m out _ (fieldFit_of .AemSegment _ (by decide)) hm'
    (leaf_ok (c := .AemMetadata) (by decide) rfl rfl hm').1).1 (leaf_ok (c := .AemMetadata) (by decide) rfl rfl hm').2
  have hord : StatesOrder [(py "metadata", m), (py "data", d)] → HasQuatLine o1 := by
    rintro ⟨ms, q, e1, e2, hne⟩
    cases e1
    obtain ⟨-, hms⟩ := fieldOk_obj rfl hm'
    have hany : ms.any (·.1 == py "units") = false := by rw [hasFields_units hms]; decide
    obtain ⟨a1, a2, w1, p1⟩ := sub_inside (by decide) hany h1
    have hmem : (py "quaternion_type", q) ∈ ms := by
      unfold Val.lookupVar at e2
      obtain ⟨⟨n, x⟩, hx, rfl⟩ := Option.map_eq_some_iff.mp e2
      have hn := List.find?_some hx
      simp only [beq_iff_eq] at hn
      exact hn ▸ List.mem_of_find?_eq_some hx
    obtain ⟨a3, a4, w2, p2⟩ := vars_inside w1 hmem
    obtain ⟨g, hg, hgn, hgq⟩ := hasFields_at hms hmem
    have : ∀ g ∈ Cls.attrs .AemMetadata, g.name = py "quaternion_type" → g.ty = .cls .QuaternionTypeType ∧ g.isList = false := by decide
    obtain ⟨t1, t2⟩ := this g hg hgn
    exact (quatLine_of_sub t1 t2 hgq hne w2).mono (p2.trans p1)
  have hquat : ∀ ws c avs, Within (.obj .AttitudeStateType ws) d → StateElement ws (.obj c avs) →
      c ∈ [Cls.QuaternionEphemerisType, .QuaternionEulerRateType] → HasQuatLine o1 := by
    intro ws c avs hw hel hcm
    rcases ht ⟨ws, c, avs, .field (n := py "data") (List.mem_cons_of_mem _ List.mem_cons_self) hw, hel, hcm⟩ with h | h
    · exact hord h
    · exact h.mono (collateSub_prefix _ _ _ _ h1)
  have h2 : ∃ o2, collateSub (py "data") o1 d = .ok o2 := by
    have hob := fieldOk_single (c := .AemData) rfl rfl rfl hd'
    rcases hob with rfl | ⟨ds, rfl, hds⟩
    · exact ⟨o1, by simp only [collateSub]; rw [if_neg (by decide)]⟩
    · have hany : ds.any (·.1 == py "units") = false := by rw [hasFields_units hds]; decide
      obtain ⟨co, r, rfl, hco, h⟩ := hasFields_one hds
      obtain ⟨st, r, rfl, hst, h⟩ := hasFields_one h
      cases hasFields_nil h
      obtain ⟨xs, rfl, hxs⟩ := fieldOk_listed rfl hst
      obtain ⟨cs, rfl, -⟩ := fieldOk_listed rfl hco
      refine collateSub_obj_total (by decide) (by decide) rfl hany fun o hp => ?_
      have h4 : ∃ o2, collateSub (py "attitude_state") (o ++ cs.map fun x => fillKvn (py "comment") (pyStr x) none) (.list xs) = .ok o2 := by
        refine collateSub_list_total (by decide) (by decide) fun o' hp' => ?_
        refine collateItems_att xs o' hxs fun ws hw => ?_
        have hin : Within (.obj .AttitudeStateType ws) (.obj .AemData [(py "comment", .list cs), (py "attitude_state", .list xs)]) :=
          .field (n := py "attitude_state") (List.mem_cons_of_mem _ List.mem_cons_self) (.item hw .self)
        exact ⟨hc ws (.field (n := py "data") (List.mem_cons_of_mem _ List.mem_cons_self) hin),
          fun c avs h5 h6 => (hquat ws c avs hin h5 h6).mono (hp.trans ((List.prefix_append _ _).trans hp'))⟩
      obtain ⟨o2, h4⟩ := h4
      exact ⟨o2, collateVars_cons collateSub_comment (collateVars_cons h4 collateVars_nil)⟩
  obtain ⟨o2, h2⟩ := h2
  have hv := collateVars_cons h1 (collateVars_cons h2 collateVars_nil)
  obtain ⟨o, ho⟩ := collateObj_total (key := key) (c := .AemSegment) rfl ⟨o2, hv⟩
  refine ⟨o, ho, fun hs => ((hord hs).mono (collateSub_prefix _ _ _ _ h2)).mono ?_⟩
  simp only [collateObj, show isSpecialOut .AemSegment = false from rfl, Bool.false_eq_true, if_false] at ho
  rw [hv] at ho
  cases ho
  split
  · exact List.prefix_append _ _
  · exact List.prefix_refl _

/-- Segments whose attitude states are complete can be written, if the order of quaternion components is stated in time. -/
theorem aemSegments_ok {key : Str} : ∀ (xs : List Val) (out : List Str), AllHaveType (.cls .AemSegment) xs →
    (∀ us, .obj .AemSegment us ∈ xs → CompleteAttitudes (.obj .AemSegment us)) →
    (∀ before us after, xs = before ++ .obj .AemSegment us :: after → HasQuaternions us →
      HasQuatLine out ∨ ∃ us', .obj .AemSegment us' ∈ before ++ [.obj .AemSegment us] ∧ StatesOrder us') →
    ∃ o, collateItems key out xs = .ok o
  | [], out, _, _, _ => ⟨out, by simp only [collateItems]⟩
  | x :: xs, out, .cons hx hr, hc, ht => by
    obtain ⟨us, rfl, hf⟩ : ∃ us, x = .obj .AemSegment us ∧ HasFields (Cls.attrs .AemSegment) us := by
      cases hx with
      | enum _ h' => cases h'
      | enumText _ h' => cases h'
      | obj _ h' => exact ⟨_, rfl, h'⟩
    obtain ⟨o1, h1, ho⟩ := aemSegment_ok hf (hc us (by simp)) key out fun hq => by
      rcases ht [] us xs rfl hq with h | ⟨us', hm, h⟩
      · exact .inr h
      · simp only [List.nil_append, List.mem_singleton] at hm
        cases hm
        exact .inl h
    obtain ⟨o2, h2⟩ := aemSegments_ok (key := key) xs o1 hr (fun us h => hc us (by simp [h])) fun before us2 after e hq => by
      rcases ht (.obj .AemSegment us :: before) us2 after (by rw [e]; rfl) hq with h | ⟨us', hm, h⟩
      · exact .inl (h.mono (collateObj_prefix _ _ _ _ h1))
      · rcases List.mem_cons.mp hm with e | hm
        · cases e
          exact .inl (ho h)
        · exact .inr ⟨us', hm, h⟩
    exact ⟨o2, by simp only [collateItems]; rw [h1]; exact h2⟩

/-- An attitude ephemeris whose states are complete can be written. -/
theorem aem_writable {vs : List (Str × Val)} (hty : HasType (.cls .Aem) (.obj .Aem vs))
    (hc : CompleteAttitudes (.obj .Aem vs)) (ht : TypedQuaternions (.obj .Aem vs)) : ∃ text, kvnToString (.obj .Aem vs) = .ok text := by
  have hf := hasType_obj hty
  obtain ⟨hd, r, rfl, hh, h⟩ := hasFields_one hf
  obtain ⟨b, r, rfl, hb, h⟩ := hasFields_one h
  cases hasFields_nil h
  have key : ∀ out, ∃ o, collateObj [] out (.obj .Aem [(py "header", hd), (py "body", b)]) = .ok o := by
    intro out
    refine collateObj_total rfl ?_
    obtain ⟨o1, h1⟩ := (collateSub_out (N := False) hd out _ (fieldFit_of .Aem _ (by decide)) hh
      (leaf_ok (c := .NdmHeader) (by decide) rfl rfl hh).1).1 (leaf_ok (c := .NdmHeader) (by decide) rfl rfl hh).2
    have h2 : ∃ o2, collateSub (py "body") o1 b = .ok o2 := by
      rcases fieldOk_single (c := .AemBody) rfl rfl rfl hb with rfl | ⟨bs, rfl, hbs⟩
      · exact ⟨o1, by simp only [collateSub]; rw [if_neg (by decide)]⟩
      · have hany : bs.any (·.1 == py "units") = false := by rw [hasFields_units hbs]; decide
        obtain ⟨sg, r, rfl, hsg, h⟩ := hasFields_one hbs
        cases hasFields_nil h
        obtain ⟨xs, rfl, hxs⟩ := fieldOk_listed rfl hsg
        refine collateSub_obj_total (by decide) (by decide) rfl hany fun o hp => ?_
        obtain ⟨o2, h3⟩ := collateSub_list_total (key := py "segment") (xs := xs) (out := o) (by decide) (by decide) fun o' hp' => by
          have hin : Within (.obj .AemBody [(py "segment", .list xs)]) (.obj .Aem [(py "header", hd), (py "body", .obj .AemBody [(py "segment", .list xs)])]) :=
            .field (n := py "body") (List.mem_cons_of_mem _ List.mem_cons_self) .self
          refine aemSegments_ok xs o' hxs ?_ fun before us after e hq => .inr (ht xs hin before us after e hq)
          intro us hx ws h5
          exact hc ws (within_trans h5 (within_trans (.field (n := py "segment") List.mem_cons_self (.item hx .self)) hin))
        exact ⟨o2, collateVars_cons h3 collateVars_nil⟩
    obtain ⟨o2, h2⟩ := h2
    exact ⟨o2, collateVars_cons h1 (collateVars_cons h2 collateVars_nil)⟩
  obtain ⟨o, ho⟩ := key [fillKvn (py "CCSDS_AEM_VERS") (py "1.0") none]
  refine ⟨joinWith (py "\n") o, ?_⟩
  have hl : kvnLines (.obj .Aem [(py "header", hd), (py "body", b)]) = collateObj [] [fillKvn (py "CCSDS_AEM_VERS") (py "1.0") none]
      (.obj .Aem [(py "header", hd), (py "body", b)]) := rfl
  show (kvnLines _ >>= _) = _
  rw [hl, ho]
  rfl

end Ndm
