import Verif.Lemmas.AemWritable

/-! Attitude states that were written are complete. -/

namespace Ndm

theorem mapM_each {α β : Type} {f : α → Except PyErr β} : ∀ {l : List α} {r : List β}, l.mapM f = .ok r → ∀ x ∈ l, ∃ y, f x = .ok y
  | a :: l, r, h, x, hx => by
    rw [List.mapM_cons] at h
    obtain ⟨b, hb, h⟩ := bind_ok_iff.mp h
    obtain ⟨bs, hbs, -⟩ := bind_ok_iff.mp h
    rcases List.mem_cons.mp hx with rfl | hx
    · exact ⟨b, hb⟩
    · exact mapM_each hbs x hx

theorem vars_obj {v : Val} {bs : List (Str × Val)} (h : v.vars? = .ok bs) : ∃ d, v = .obj d bs := by
  unfold Val.vars? at h
  split at h
  · cases h
    exact ⟨_, rfl⟩
  · cases h

/-- The first value that counts. -/
theorem first_truthy {att : Val} {rest : List Val} : ∀ {ws : List (Str × Val)}, (ws.map (·.2)).filter Val.truthy = att :: rest →
    ∃ before n after, ws = before ++ (n, att) :: after ∧ (∀ p ∈ before, p.2.truthy = false) ∧ att.truthy = true
  | (n, x) :: ws, h => by
    rw [List.map_cons, List.filter_cons] at h
    split at h
    · next ht =>
      cases h
      exact ⟨[], n, ws, rfl, by simp, ht⟩
    · next ht =>
      obtain ⟨b, m, a, rfl, h1, h2⟩ := first_truthy h
      refine ⟨(n, x) :: b, m, a, rfl, ?_, h2⟩
      intro p hp
      rcases List.mem_cons.mp hp with rfl | hp
      · simpa using ht
      · exact h1 p hp

theorem dictGet_ok {k : Str} {vs : List (Str × Val)} {v : Val} (h : dictGet k vs = .ok v) : Val.lookupVar k vs = some v := by
  unfold dictGet at h
  split at h
  · next e => cases h; exact e
  · cases h

theorem lookup_mem {k : Str} {vs : List (Str × Val)} {v : Val} (h : Val.lookupVar k vs = some v) : (k, v) ∈ vs := by
  unfold Val.lookupVar at h
  obtain ⟨⟨n, x⟩, hx, rfl⟩ := Option.map_eq_some_iff.mp h
  have hn := List.find?_some hx
  simp only [beq_iff_eq] at hn
  exact hn ▸ List.mem_of_find?_eq_some hx

/-- An attitude state that was written is complete. -/
theorem writeAttitude_complete {ws : List (Str × Val)} {out ls : List Str} (hf : HasFields (Cls.attrs .AttitudeStateType) ws)
    (h : writeAttitude ws out = .ok ls) : CompleteState ws := by
  unfold writeAttitude at h
  split at h
  · cases h
  next att rest hfil =>
  obtain ⟨before, n, after, rfl, hb, htr⟩ := first_truthy hfil
  obtain ⟨avs, ha, h⟩ := bind_ok_iff.mp h
  obtain ⟨c, rfl⟩ := vars_obj ha
  obtain ⟨rots, hrots, h⟩ := bind_ok_iff.mp h
  obtain ⟨line, hline, h⟩ := bind_ok_iff.mp h
  obtain ⟨ep, hep, h⟩ := bind_ok_iff.mp h
  have hty : ∀ f ∈ Cls.attrs .AttitudeStateType, ∃ d ∈ [Cls.QuaternionEphemerisType, .QuaternionDerivativeType, .QuaternionEulerRateType, .EulerAngleType,
      .EulerAngleRateType, .SpinType, .SpinNutationType], f.ty = .cls d ∧ f.isList = false ∧ d.members = none := by decide
  have hnone : ∀ p ∈ before, p.2 = .none := by
    intro p hp
    obtain ⟨f, hfm, -, hok⟩ := hasFields_at hf (n := p.1) (x := p.2) (by simp [hp])
    obtain ⟨d, -, h1, h2, h3⟩ := hty f hfm
    rcases fieldOk_single h1 h2 h3 hok with e | ⟨vs, e, -⟩
    · exact e
    · have := hb p hp
      rw [e] at this
      cases this
  obtain ⟨f, hfm, -, hok⟩ := hasFields_at hf (n := n) (x := .obj c avs) (by simp)
  obtain ⟨d, hd, h1, -, -⟩ := hty f hfm
  obtain ⟨rfl, hfa⟩ := fieldOk_obj h1 hok
  have hparts : ∀ p ∈ avs, p.1 ≠ py "epoch" → ∃ d bs, p.2 = .obj d bs := by
    intro p hp hne
    obtain ⟨bs, hbs⟩ := mapM_each hrots p (List.mem_filter.mpr ⟨hp, by simpa using hne⟩)
    obtain ⟨d, e⟩ := vars_obj hbs
    exact ⟨d, bs, e⟩
  refine ⟨c, avs, ⟨before, n, after, rfl, hnone, by simp⟩, ?_, ?_, hparts, ?_⟩
  · rintro rfl
    obtain ⟨v1, r1, rfl, -, h1⟩ := hasFields_one hfa
    obtain ⟨v2, r2, rfl, hv2, h2⟩ := hasFields_one h1
    obtain ⟨v3, r3, rfl, -, h3⟩ := hasFields_one h2
    cases hasFields_nil h3
    obtain ⟨d, bs, e2⟩ := hparts (py "quaternion", v2) (by simp) (show py "quaternion" ≠ py "epoch" by decide)
    obtain ⟨d', bs', e3⟩ := hparts (py "quaternion_rate", v3) (by simp) (show py "quaternion_rate" ≠ py "epoch" by decide)
    simp only at e2 e3
    subst e2 e3
    obtain ⟨rfl, hbs⟩ := fieldOk_obj rfl hv2
    have : rots = [bs, bs'] := by
      have : (Except.ok [bs, bs'] : Except PyErr _) = .ok rots := hrots
      cases this
      rfl
    subst this
    have hq : quaternionLine .QuaternionDerivativeType [bs, bs'] out = .ok line := hline
    unfold quaternionLine at hq
    obtain ⟨last, -, hq⟩ := bind_ok_iff.mp hq
    obtain ⟨r0, hr0, hq⟩ := bind_ok_iff.mp hq
    have : r0 = bs := by
      have : (Except.ok bs : Except PyErr _) = .ok r0 := hr0
      cases this
      rfl
    subst this
    obtain ⟨q, -, hq⟩ := bind_ok_iff.mp hq
    rw [if_neg (by decide), if_pos rfl] at hq
    obtain ⟨dl, hdl, -⟩ := bind_ok_iff.mp hq
    obtain ⟨y, hy⟩ := mapM_each hdl (py "q1_dot") (by cases last <;> decide)
    obtain ⟨z, hz, -⟩ := bind_ok_iff.mp hy
    obtain ⟨g, hg, hgn, -⟩ := hasFields_at hbs (lookup_mem (dictGet_ok hz))
    have : ∀ g ∈ Cls.attrs .QuaternionType, g.name ≠ py "q1_dot" := by decide
    exact this g hg hgn
  · cases ep with
    | str e => exact ⟨e, dictGet_ok hep⟩
    | _ => cases h
  · rintro rfl m bs hm p hp
    obtain ⟨v1, r1, rfl, hv1, h1⟩ := hasFields_one hfa
    obtain ⟨v2, r2, rfl, hv2, h2⟩ := hasFields_one h1
    obtain ⟨v3, r3, rfl, hv3, h3⟩ := hasFields_one h2
    cases hasFields_nil h3
    obtain ⟨d, qs, e2⟩ := hparts (py "quaternion", v2) (by simp) (show py "quaternion" ≠ py "epoch" by decide)
    obtain ⟨d', cs, e3⟩ := hparts (py "rotation_rates", v3) (by simp) (show py "rotation_rates" ≠ py "epoch" by decide)
    simp only at e2 e3
    subst e2 e3
    obtain ⟨rfl, hqs⟩ := fieldOk_obj rfl hv2
    obtain ⟨rfl, hcs⟩ := fieldOk_obj rfl hv3
    have hbc : bs = cs := by
      simp only [List.mem_cons, Prod.mk.injEq, List.not_mem_nil, or_false] at hm
      rcases hm with ⟨-, e⟩ | ⟨-, e⟩ | ⟨-, e⟩
      · subst e
        cases hv1 with
        | one _ hx => cases hx
      · cases e
      · cases e
        rfl
    subst hbc
    have : rots = [qs, bs] := by
      have : (Except.ok [qs, bs] : Except PyErr _) = .ok rots := hrots
      cases this
      rfl
    subst this
    have hq : quaternionLine .QuaternionEulerRateType [qs, bs] out = .ok line := hline
    unfold quaternionLine at hq
    obtain ⟨last, -, hq⟩ := bind_ok_iff.mp hq
    obtain ⟨r0, -, hq⟩ := bind_ok_iff.mp hq
    obtain ⟨q, -, hq⟩ := bind_ok_iff.mp hq
    rw [if_pos rfl] at hq
    obtain ⟨r1, hr1, hq⟩ := bind_ok_iff.mp hq
    obtain ⟨vals, hvals, -⟩ := bind_ok_iff.mp hq
    have : r1 = bs := by
      have : (Except.ok bs : Except PyErr _) = .ok r1 := hr1
      cases this
      rfl
    subst this
    have hk : ∀ k ∈ [py "rotation1", py "rotation2", py "rotation3"], ∀ x, (k, x) ∈ r1 → ∃ d us, x = .obj d us := by
      intro k hk x hx
      obtain ⟨y, hy⟩ := mapM_each hvals k hk
      obtain ⟨z, hz, hy⟩ := bind_ok_iff.mp hy
      obtain ⟨w, hw, -⟩ := bind_ok_iff.mp hy
      obtain ⟨g, hg, hgn, hgx⟩ := hasFields_at hcs hx
      have hall : ∀ f ∈ Cls.attrs .RotationRateType, f.ty = .cls .RotationRateComponentType ∧ f.isList = false := by decide
      obtain ⟨g1, g2⟩ := hall g hg
      rcases fieldOk_single g1 g2 rfl hgx with e | ⟨us, e, -⟩
      · exfalso
        subst e
        obtain ⟨x1, s1, rfl, -, t1⟩ := hasFields_one hcs
        obtain ⟨x2, s2, rfl, -, t2⟩ := hasFields_one t1
        obtain ⟨x3, s3, rfl, -, t3⟩ := hasFields_one t2
        cases hasFields_nil t3
        have hlook := dictGet_ok hz
        simp only [List.mem_cons, List.not_mem_nil, or_false] at hk
        have hn12 : py "rotation1" ≠ py "rotation2" := by decide
        have hn13 : py "rotation1" ≠ py "rotation3" := by decide
        have hn23 : py "rotation2" ≠ py "rotation3" := by decide
        have hzn : z = .none := by
          rcases hk with rfl | rfl | rfl <;>
            simp [Val.lookupVar, hn12, hn13, hn23, hn12.symm, hn13.symm, hn23.symm] at hlook hx <;> simp_all
        subst hzn
        cases hw
      · exact ⟨_, us, e⟩
    obtain ⟨g, hg, hgn, -⟩ := hasFields_at hcs (n := p.1) (x := p.2) hp
    have hnames : ∀ g ∈ Cls.attrs .RotationRateType, ∃ k ∈ [py "rotation1", py "rotation2", py "rotation3"], g.name = k := by decide
    obtain ⟨k, hk1, hk2⟩ := hnames g hg
    exact hk k hk1 p.2 (by rw [← hk2, hgn]; exact hp)

/-- The classes inside attitude states. -/
def attitudeParts : List Cls := [.QuaternionEphemerisType, .QuaternionDerivativeType, .QuaternionEulerRateType, .EulerAngleType,
  .EulerAngleRateType, .SpinType, .SpinNutationType, .QuaternionType, .QuaternionRateType, .QuaternionDotType, .RotationAngleType, .RotationRateType,
  .RotationAngleComponentType, .RotationRateComponentType, .AngleType, .AngleRateType, .DurationType]

theorem attitudeParts_closed : (attitudeParts.all fun c => c.attrs.all fun f => match f.ty with
    | .cls e => e.members.isSome || attitudeParts.contains e
    | _ => true) = true := by decide +kernel

theorem no_inner_attitude {us ws : List (Str × Val)} (hf : HasFields (Cls.attrs .AttitudeStateType) us)
    (h : Within (.obj .AttitudeStateType ws) (.obj .AttitudeStateType us)) : ws = us := by
  cases h with
  | self => rfl
  | @field _ _ n x hm hw =>
    exfalso
    obtain ⟨f, hfm, -, hok⟩ := hasFields_at hf hm
    have hty : ∀ f ∈ Cls.attrs .AttitudeStateType, ∃ d ∈ attitudeParts, f.ty = .cls d ∧ f.isList = false ∧ d.members = none := by decide
    obtain ⟨d, hd, h1, h2, h3⟩ := hty f hfm
    rcases fieldOk_single h1 h2 h3 hok with rfl | ⟨vs, rfl, hvs⟩
    · cases hw
    · have := (within_class (S := attitudeParts) (by
        intro c' hc' f hf e he hm
        have := List.all_eq_true.mp (List.all_eq_true.mp attitudeParts_closed c' hc') f hf
        rw [he] at this
        simpa [hm] using this) hw).1 (.cls d) (by
          intro c' hc' _
          cases hc'
          exact hd) (.obj h3 hvs)
      have hd : ¬ Cls.AttitudeStateType ∈ attitudeParts := by decide
      exact hd this

theorem texts_no_obj {xs : List Val} (h : AllHaveType .str xs) {d : Cls} {ws : List (Str × Val)} : ¬ Within (.obj d ws) (.list xs) := by
  intro hw
  cases hw with
  | item hm hw =>
    have := allHaveType_mem h hm
    cases this
    cases hw

theorem leaf_no_attitude {f : Field} {v : Val} {c : Cls} (hc : c ∈ leafClasses) (hf : f.ty = .cls c) (hl : f.isList = false)
    (h : FieldOk f v) (ws : List (Str × Val)) : ¬ Within (.obj .AttitudeStateType ws) v :=
  fun hw => ((leaf_ok hc hf hl h).1 _ _ hw).att rfl

theorem typed_obj {ty : FTy} {c : Cls} {v : Val} (ht : ty = .cls c) (hm : c.members = none) (h : HasType ty v) :
    ∃ us, v = .obj c us ∧ HasFields c.attrs us := by
  subst ht
  cases h with
  | enum _ h' => rw [hm] at h'; cases h'
  | enumText _ h' => rw [hm] at h'; cases h'
  | obj _ h => exact ⟨_, rfl, h⟩

theorem state_written {key : Str} {out o : List Str} {us : List (Str × Val)} (h : collateObj key out (.obj .AttitudeStateType us) = .ok o) :
    ∃ ls, writeAttitude us out = .ok ls := by
  rw [collateObj] at h
  rw [if_pos (show isSpecialOut .AttitudeStateType = true from rfl)] at h
  obtain ⟨ls, hls, -⟩ := bind_ok_iff.mp h
  exact ⟨ls, hls⟩

/-- The values inside an object are those inside its fields, except for the object itself. -/
theorem within_fields {c d : Cls} {us ws : List (Str × Val)} (hne : d ≠ c) (h : Within (.obj d ws) (.obj c us)) : ∃ n x, (n, x) ∈ us ∧ Within (.obj d ws) x := by
  cases h with
  | self => exact absurd rfl hne
  | field hm hw => exact ⟨_, _, hm, hw⟩

theorem within_items {d : Cls} {ws : List (Str × Val)} {xs : List Val} (h : Within (.obj d ws) (.list xs)) : ∃ x ∈ xs, Within (.obj d ws) x := by
  cases h with
  | item hm hw => exact ⟨_, hm, hw⟩

theorem data_written {v : Val} {f : Field} (hf : f.ty = .cls .AemData) (hl : f.isList = false) (hv : FieldOk f v) {out o : List Str}
    (h : collateSub (py "data") out v = .ok o) : CompleteAttitudes v := by
  intro ws hw
  rcases fieldOk_single hf hl rfl hv with rfl | ⟨ds, rfl, hds⟩
  · cases hw
  obtain ⟨o1, o2, h1, -⟩ := sub_inside rfl (by rw [hasFields_units hds]; decide) h
  obtain ⟨n, x, hm, hw⟩ := within_fields (by decide) hw
  obtain ⟨o3, o4, h2, -⟩ := vars_inside h1 hm
  obtain ⟨g, hg, hgn, hgx⟩ := hasFields_at hds hm
  have hattrs : ∀ g ∈ Cls.attrs .AemData, g.isList = true ∧ (g.ty = .str ∨ g.ty = .cls .AttitudeStateType ∧ g.name ≠ py "comment" ∧ g.name ≠ py "user_defined") := by decide
  obtain ⟨hgl, hgt⟩ := hattrs g hg
  obtain ⟨ys, rfl, hys⟩ := fieldOk_listed hgl hgx
  rcases hgt with hgt | ⟨hgt, hk⟩
  · rw [hgt] at hys
    exact absurd hw (texts_no_obj hys)
  rw [hgt] at hys
  obtain ⟨y, hy, hw⟩ := within_items hw
  obtain ⟨o5, o6, h3, -⟩ := list_written (hgn ▸ hk) h2 hy
  obtain ⟨us, rfl, hus⟩ := typed_obj (c := .AttitudeStateType) rfl rfl (allHaveType_mem hys hy)
  rw [no_inner_attitude hus hw]
  obtain ⟨ls, hls⟩ := state_written h3
  exact writeAttitude_complete hus hls

theorem segment_written {v : Val} (hv : HasType (.cls .AemSegment) v) {key : Str} {out o : List Str} (h : collateObj key out v = .ok o) :
    CompleteAttitudes v := by
  intro ws hw
  obtain ⟨us, rfl, hus⟩ := typed_obj (c := .AemSegment) rfl rfl hv
  obtain ⟨o1, o2, h1, -⟩ := obj_inside rfl h
  obtain ⟨n, x, hm, hw⟩ := within_fields (by decide) hw
  obtain ⟨o3, o4, h2, -⟩ := vars_inside h1 hm
  obtain ⟨g, hg, hgn, hgx⟩ := hasFields_at hus hm
  have hattrs : ∀ g ∈ Cls.attrs .AemSegment, g.isList = false ∧ (g.ty = .cls .AemMetadata ∨ g.ty = .cls .AemData ∧ g.name = py "data") := by decide
  obtain ⟨hgl, hgt⟩ := hattrs g hg
  rcases hgt with hgt | ⟨hgt, hgd⟩
  · exact absurd hw (leaf_no_attitude (by decide) hgt hgl hgx ws)
  · rw [← hgn, hgd] at h2
    exact data_written hgt hgl hgx h2 ws hw

theorem body_written {v : Val} {f : Field} (hf : f.ty = .cls .AemBody) (hl : f.isList = false) (hv : FieldOk f v) {key : Str} {out o : List Str}
    (h : collateSub key out v = .ok o) : CompleteAttitudes v := by
  intro ws hw
  rcases fieldOk_single hf hl rfl hv with rfl | ⟨bs, rfl, hbs⟩
  · cases hw
  obtain ⟨o1, o2, h1, -⟩ := sub_inside rfl (by rw [hasFields_units hbs]; decide) h
  obtain ⟨n, x, hm, hw⟩ := within_fields (by decide) hw
  obtain ⟨o3, o4, h2, -⟩ := vars_inside h1 hm
  obtain ⟨g, hg, hgn, hgx⟩ := hasFields_at hbs hm
  have hattrs : ∀ g ∈ Cls.attrs .AemBody, g.isList = true ∧ g.ty = .cls .AemSegment ∧ g.name ≠ py "comment" ∧ g.name ≠ py "user_defined" := by decide
  obtain ⟨hgl, hgt, hk⟩ := hattrs g hg
  obtain ⟨xs, rfl, hxs⟩ := fieldOk_listed hgl hgx
  rw [hgt] at hxs
  obtain ⟨y, hy, hw⟩ := within_items hw
  obtain ⟨o5, o6, h3, -⟩ := list_written (hgn ▸ hk) h2 hy
  exact segment_written (allHaveType_mem hxs hy) h3 ws hw

/-- The attitude states of an ephemeris that was written are complete. -/
theorem aem_written {vs : List (Str × Val)} (hty : HasType (.cls .Aem) (.obj .Aem vs)) {text : Str} (h : kvnToString (.obj .Aem vs) = .ok text) :
    CompleteAttitudes (.obj .Aem vs) := by
  intro ws hw
  have hf := hasType_obj hty
  obtain ⟨_, o, h1, -⟩ := kvnToString_obj (c := .Aem) (n := py "aem") rfl (by decide) rfl h
  obtain ⟨o1, o2, h1, -⟩ := obj_inside rfl h1
  obtain ⟨n, x, hm, hw⟩ := within_fields (by decide) hw
  obtain ⟨o3, o4, h2, -⟩ := vars_inside h1 hm
  obtain ⟨g, hg, hgn, hgx⟩ := hasFields_at hf hm
  have hattrs : ∀ g ∈ Cls.attrs .Aem, g.isList = false ∧ (g.ty = .cls .NdmHeader ∨ g.ty = .cls .AemBody) := by decide
  obtain ⟨hgl, hgt⟩ := hattrs g hg
  rcases hgt with hgt | hgt
  · exact absurd hw (leaf_no_attitude (by decide) hgt hgl hgx ws)
  · exact body_written hgt hgl hgx h2 ws hw

end Ndm
