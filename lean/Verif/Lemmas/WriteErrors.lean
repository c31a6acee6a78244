import Verif.Lemmas.AemWritten

/-! Which exceptions writing in the key-value notation raises. -/

namespace Ndm

section
variable {S : PyErr → Prop}

theorem valueAttr_raises (h : S .attributeError) (v : Val) : Raises S (valueAttr v) := by
  unfold valueAttr
  split
  · split
    · exact .ok _
    · exact .err h
  · exact .ok _
  · exact .err h

theorem attrGet_raises (h : S .attributeError) (k : Str) (vs : List (Str × Val)) : Raises S (attrGet k vs) := by
  unfold attrGet
  split
  · exact .ok _
  · exact .err h

theorem fillSingle_raises {l : List Str} (h : l ≠ []) : Raises S (fillSingle l) := by
  obtain ⟨s, hs⟩ := fillSingle_ok h
  rw [hs]
  exact .ok _

theorem fillSingle_index (h : S .indexError) (l : List Str) : Raises S (fillSingle l) := by
  unfold fillSingle
  exact .bind (.pyGet h _ _) fun _ _ => .pure _

theorem valueKey_raises (h : S .attributeError) (key : Str) (vs : List (Str × Val)) : Raises S (valueKey key vs) := by
  unfold valueKey
  split
  · exact .ok _
  · next t _ _ =>
    split
    · exact .ok _
    · exact .err h
    · next e he => exact .err (valueAttr_raises h _ e he)

theorem writeValueObj_raises (h : S .attributeError) (key : Str) (vs : List (Str × Val)) : Raises S (writeValueObj key vs) := by
  unfold writeValueObj
  refine .bind (valueKey_raises h _ _) fun _ _ => .bind (attrGet_raises h _ _) fun _ _ => .bind (attrGet_raises h _ _) fun _ _ => ?_
  split
  · exact .bind (valueAttr_raises h _) fun _ _ => .pure _
  · exact .pure _

theorem writeUserDefined_raises (h : S .attributeError) (h' : S .typeError) (key : Str) (x : Val) : Raises S (writeUserDefined key x) := by
  unfold writeUserDefined
  split
  · refine .bind (attrGet_raises h _ _) fun v _ => ?_
    split
    · exact .bind (attrGet_raises h _ _) fun _ _ => .pure _
    · exact .err h'
  · exact .err h

theorem withHeader_raises {h : Option Str} {bf af : Str → List Str} {out : List Str} {body : List Str → Except PyErr (List Str)}
    (hb : ∀ o, Raises S (body o)) : Raises S (withHeader h bf af out body) := by
  unfold withHeader
  split
  · exact .map (hb _)
  · exact hb _

/-- What the parts with an own layout may raise. -/
def SpecialRaises (S : PyErr → Prop) (v : Val) : Prop :=
  ∀ c ws, Within (.obj c ws) v → isSpecialOut c = true → ∀ key out, Raises S (writeSpecial key c ws out)

mutual
theorem collateObj_raises (h1 : S .attributeError) (h2 : S .typeError) (key : Str) (out : List Str) : ∀ v : Val, SpecialRaises S v →
    Raises S (collateObj key out v)
  | .obj c vs, h => by
    simp only [collateObj]
    split
    · next hs => exact .bind (h c vs .self hs _ _) fun _ _ => .pure _
    · exact .bind (collateVars_raises h1 h2 out vs fun n x hx c ws hw => h c ws (.field hx hw)) fun _ _ => .pure _
  | .str _, _ | .int _, _ | .dec _, _ | .enum _ _, _ | .none, _ | .list _, _ => by
    simp only [collateObj]
    exact .err h2

theorem collateVars_raises (h1 : S .attributeError) (h2 : S .typeError) (out : List Str) : ∀ vs : List (Str × Val),
    (∀ n x, (n, x) ∈ vs → SpecialRaises S x) → Raises S (collateVars out vs)
  | [], _ => by simp only [collateVars]; exact .ok _
  | (k, v) :: vs, h => by
    simp only [collateVars]
    exact .bind (collateSub_raises h1 h2 k out v (h k v (by simp))) fun o _ => collateVars_raises h1 h2 o vs fun n x hx => h n x (by simp [hx])

theorem collateSub_raises (h1 : S .attributeError) (h2 : S .typeError) (key : Str) (out : List Str) : ∀ v : Val, SpecialRaises S v →
    Raises S (collateSub key out v)
  | .str _, _ => by simp only [collateSub]; exact .ok _
  | .int _, _ => by simp only [collateSub]; exact .ok _
  | .dec _, _ => by
    simp only [collateSub]
    split
    · exact .err h2
    · exact .ok _
  | .enum _ _, _ => by
    simp only [collateSub]
    split
    · exact .err h2
    · exact .ok _
  | .none, _ => by
    simp only [collateSub]
    split
    · exact .err h2
    · exact .ok _
  | .obj c vs, h => by
    simp only [collateSub]
    refine withHeader_raises fun o => ?_
    split
    · exact .err h2
    split
    · exact .bind (writeValueObj_raises h1 _ _) fun _ _ => .pure _
    split
    · exact .err h2
    split
    · next hs => exact .bind (h c vs .self hs _ _) fun _ _ => .pure _
    · exact .bind (collateVars_raises h1 h2 o vs fun n x hx c ws hw => h c ws (.field hx hw)) fun _ _ => .pure _
  | .list [], _ => by
    rw [collateSub]
    split
    · exact .ok _
    split
    · exact .bind (.mapM fun x _ => writeUserDefined_raises h1 h2 _ _) fun _ _ => .pure _
    · exact .ok _
  | .list (x :: rest), h => by
    rw [collateSub]
    split
    · exact .ok _
    split
    · exact .bind (.mapM fun x _ => writeUserDefined_raises h1 h2 _ _) fun _ _ => .pure _
    refine withHeader_raises fun o => ?_
    exact .bind (collateObj_raises h1 h2 key o x fun c ws hw => h c ws (.item (by simp) hw)) fun o _ =>
      collateItems_raises h1 h2 key o rest fun y hy c ws hw => h c ws (.item (by simp [hy]) hw)

theorem collateItems_raises (h1 : S .attributeError) (h2 : S .typeError) (key : Str) (out : List Str) : ∀ xs : List Val,
    (∀ x ∈ xs, SpecialRaises S x) → Raises S (collateItems key out xs)
  | [], _ => by simp only [collateItems]; exact .ok _
  | x :: xs, h => by
    simp only [collateItems]
    exact .bind (collateObj_raises h1 h2 key out x (h x (by simp))) fun o _ => collateItems_raises h1 h2 key o xs fun y hy => h y (by simp [hy])
end

theorem writeStateVector_raises (h : S .indexError) (vs : List (Str × Val)) : Raises S (writeStateVector vs) := by
  unfold writeStateVector
  exact .bind (fillSingle_index h _) fun _ _ => .pure _

theorem writeObservation_raises (h : S .indexError) {vs : List (Str × Val)} (hf : HasFields (Cls.attrs .TrackingDataObservationType) vs) :
    Raises S (writeObservation vs) := by
  unfold writeObservation
  refine .bind (.pyGet h _ _) fun _ _ => .bind ?_ fun _ _ => .pure _
  obtain ⟨v, hv⟩ := dictGet_field hf (n := py "epoch") (by decide)
  rw [hv]
  exact .ok _

theorem writeCovariance_raises (h : S .indexError) (h1 : S .attributeError) (h2 : S .typeError) (key : Str) (vs : List (Str × Val)) :
    Raises S (writeCovariance key vs) := by
  unfold writeCovariance
  refine .bind (attrGet_raises h1 _ _) fun v _ => .bind ?_ fun _ _ => .bind (attrGet_raises h1 _ _) fun _ _ =>
    .bind (attrGet_raises h1 _ _) fun _ _ => .bind (.mapM fun _ _ => fillSingle_index h _) fun _ _ => .pure _
  unfold iterList
  split
  · exact .ok _
  · exact .err h2

theorem vars_raises (h : S .typeError) (v : Val) : Raises S v.vars? := by
  unfold Val.vars?
  split
  · exact .ok _
  · exact .err h

theorem dictGet_raises (h : S .keyError) (k : Str) (vs : List (Str × Val)) : Raises S (dictGet k vs) := by
  unfold dictGet
  split
  · exact .ok _
  · exact .err h

theorem quatLast_raises (h : S .stopIteration) (out : List Str) : Raises S (quatLast out) := by
  unfold quatLast
  split
  · exact .err h
  · exact .ok _

theorem strsOf_raises (h : S .keyError) (ks : List Str) (vs : List (Str × Val)) : Raises S (strsOf ks vs) :=
  .mapM fun _ _ => .bind (dictGet_raises h _ _) fun _ _ => .pure _

theorem mapM_length {α β : Type} {f : α → Except PyErr β} : ∀ {l : List α} {r : List β}, l.mapM f = .ok r → r.length = l.length
  | [], r, h => by rw [List.mapM_nil] at h; cases h; rfl
  | a :: l, r, h => by
    rw [List.mapM_cons] at h
    obtain ⟨b, -, h⟩ := bind_ok_iff.mp h
    obtain ⟨bs, h', h⟩ := bind_ok_iff.mp h
    cases h
    simp [mapM_length h']

theorem pyGet_raises {α : Type} {l : List α} {i : Nat} (h : i < l.length) : Raises S (pyGet l i) := by
  unfold pyGet
  rw [List.getElem?_eq_getElem h]
  exact .ok _

theorem quaternionLine_raises (h1 : S .attributeError) (h3 : S .keyError) (h4 : S .stopIteration) {c : Cls} {rots : List (List (Str × Val))}
    {out : List Str} (hl : 1 < rots.length ∨ c ≠ .QuaternionEulerRateType ∧ 0 < rots.length) : Raises S (quaternionLine c rots out) := by
  unfold quaternionLine
  refine .bind (quatLast_raises h4 _) fun last _ => .bind (pyGet_raises (by omega)) fun _ _ => .bind (strsOf_raises h3 _ _) fun _ _ => ?_
  split
  · next hc =>
    refine .bind (pyGet_raises ?_) fun _ _ => .bind (.mapM fun _ _ => .bind (dictGet_raises h3 _ _) fun _ _ =>
      .bind (valueAttr_raises h1 _) fun _ _ => .pure _) fun _ _ => .pure _
    rcases hl with h | h
    · exact h
    · exact absurd hc h.1
  split
  · exact .bind (strsOf_raises h3 _ _) fun _ _ => .pure _
  · exact .pure _

theorem filter_names {p : Str → Bool} : ∀ {fs : List Field} {vs : List (Str × Val)}, HasFields fs vs →
    (vs.filter fun x => p x.1).length = (fs.filter fun f => p f.name).length
  | _, _, .nil => rfl
  | _, _, .cons (f := f) (v := v) (fs := fs) (vs := vs) _ hr => by
    have ih := filter_names (p := p) hr
    rw [List.filter_cons, List.filter_cons]
    dsimp only
    split
    · simp [ih]
    · exact ih

theorem writeAttitude_raises (h1 : S .attributeError) (h2 : S .typeError) (h3 : S .keyError) (h4 : S .stopIteration) {ws : List (Str × Val)}
    {out : List Str} (hf : HasFields (Cls.attrs .AttitudeStateType) ws) : Raises S (writeAttitude ws out) := by
  unfold writeAttitude
  split
  · exact .err h2
  next att rest hfil =>
  refine .bind (vars_raises h2 _) fun avs ha => .bind (.mapM fun _ _ => vars_raises h2 _) fun rots hr => .bind ?_ fun line _ =>
    .bind (dictGet_raises h3 _ _) fun ep _ => ?_
  · obtain ⟨c, rfl⟩ := vars_obj ha
    unfold attLine
    dsimp only
    split
    · next hq =>
      refine quaternionLine_raises h1 h3 h4 ?_
      have hm : Val.obj c avs ∈ (ws.map (·.2)).filter Val.truthy := by rw [hfil]; simp
      obtain ⟨⟨n, x⟩, hx, e⟩ := List.mem_map.mp (List.mem_filter.mp hm).1
      cases e
      obtain ⟨f, hfm, -, hok⟩ := hasFields_at hf hx
      have hty : ∀ f ∈ Cls.attrs .AttitudeStateType, ∃ d ∈ attitudeParts, f.ty = .cls d ∧ f.isList = false ∧ d.members = none := by decide
      obtain ⟨d, hd, hfd, -, -⟩ := hty f hfm
      obtain ⟨rfl, hfa⟩ := fieldOk_obj hfd hok
      have hlen := mapM_length hr
      rw [filter_names (p := fun n => n != py "epoch") hfa] at hlen
      rw [hlen]
      have : ∀ c ∈ attitudeParts, isQuaternionCls c = true →
          1 < ((Cls.attrs c).filter fun f => f.name != py "epoch").length ∨
          c ≠ .QuaternionEulerRateType ∧ 0 < ((Cls.attrs c).filter fun f => f.name != py "epoch").length := by decide
      exact this c hd hq
    · exact .ok _
  · split
    · exact .bind (fillSingle_raises (by simp)) fun _ _ => .pure _
    · exact .err h2

end

end Ndm
