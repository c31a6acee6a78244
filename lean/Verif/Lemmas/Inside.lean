import Verif.Lemmas.Units

/-! An object inside a message is written somewhere in the text of the message. -/

namespace Ndm

/-- `x` was written on the way to `full`. -/
def ObjLines (key : Str) (x : Val) (full : List Str) : Prop :=
  ∃ out o, collateObj key out x = .ok o ∧ o <+: full

theorem items_written {key : Str} {x : Val} : ∀ {xs : List Val} {out o : List Str}, collateItems key out xs = .ok o →
    x ∈ xs → ObjLines key x o
  | y :: ys, out, o, h, hx => by
    simp only [collateItems] at h
    obtain ⟨o1, h1, h2⟩ := bind_ok_iff.mp h
    rcases List.mem_cons.mp hx with rfl | hx
    · exact ⟨out, o1, h1, collateItems_prefix _ _ _ _ h2⟩
    · exact items_written h2 hx

theorem header_inside {h : Option Str} {bf af : Str → List Str} {out o : List Str}
    {body : List Str → Except PyErr (List Str)} (hw : withHeader h bf af out body = .ok o) :
    ∃ o1 o2, body o1 = .ok o2 ∧ o2 <+: o := by
  unfold withHeader at hw
  split at hw
  · obtain ⟨o2, h2, rfl⟩ := map_ok_iff.mp hw
    exact ⟨_, _, h2, List.prefix_append _ _⟩
  · exact ⟨_, _, hw, List.prefix_refl _⟩

theorem list_written {key : Str} {x : Val} {xs : List Val} {out o : List Str} (hk : key ≠ py "comment" ∧ key ≠ py "user_defined")
    (h : collateSub key out (.list xs) = .ok o) (hx : x ∈ xs) : ObjLines key x o := by
  cases xs with
  | nil => cases hx
  | cons y ys =>
    simp only [collateSub, hk.1, hk.2, if_false] at h
    obtain ⟨o1, o2, h1, h2⟩ := header_inside h
    obtain ⟨o3, h3, h4⟩ := bind_ok_iff.mp h1
    rcases List.mem_cons.mp hx with rfl | hx
    · exact ⟨o1, o3, h3, (collateItems_prefix _ _ _ _ h4).trans h2⟩
    · obtain ⟨a, b, h5, h6⟩ := items_written h4 hx
      exact ⟨a, b, h5, h6.trans h2⟩

theorem vars_inside {k : Str} {v : Val} : ∀ {vs : List (Str × Val)} {out o : List Str}, collateVars out vs = .ok o →
    (k, v) ∈ vs → ∃ o1 o2, collateSub k o1 v = .ok o2 ∧ o2 <+: o
  | (k', v') :: vs, out, o, h, hx => by
    simp only [collateVars] at h
    obtain ⟨o1, h1, h2⟩ := bind_ok_iff.mp h
    rcases List.mem_cons.mp hx with hx | hx
    · cases hx
      exact ⟨out, o1, h1, collateVars_prefix _ _ _ h2⟩
    · exact vars_inside h2 hx

theorem obj_inside {key : Str} {c : Cls} {vs : List (Str × Val)} {out o : List Str} (hs : isSpecialOut c = false)
    (h : collateObj key out (.obj c vs) = .ok o) : ∃ o1 o2, collateVars o1 vs = .ok o2 ∧ o2 <+: o := by
  simp only [collateObj, hs, Bool.false_eq_true, if_false] at h
  obtain ⟨o1, h1, h2⟩ := bind_ok_iff.mp h
  refine ⟨_, _, h1, ?_⟩
  cases h2
  split
  · exact List.prefix_append _ _
  · exact List.prefix_refl _

theorem sub_inside {key : Str} {c : Cls} {vs : List (Str × Val)} {out o : List Str} (hs : isSpecialOut c = false)
    (hu : vs.any (·.1 == py "units") = false) (h : collateSub key out (.obj c vs) = .ok o) :
    ∃ o1 o2, collateVars o1 vs = .ok o2 ∧ o2 <+: o := by
  simp only [collateSub, hs, hu, Bool.false_eq_true, if_false] at h
  obtain ⟨o1, o2, h1, h2⟩ := header_inside h
  split at h1
  · cases h1
  split at h1
  · cases h1
  obtain ⟨o3, h3, h4⟩ := bind_ok_iff.mp h1
  refine ⟨_, _, h3, ?_⟩
  cases h4
  split at h2
  · exact (List.prefix_append _ _).trans h2
  · exact h2

theorem lines_inside {full ls out : List Str} (h : out ++ ls <+: full) : HasLines (joinWith (py "\n") full) ls := by
  obtain ⟨post, rfl⟩ := h
  exact ⟨out, post, joinWith_eq_intercalate _ _⟩

theorem kvnToString_obj {c : Cls} {n : Str} {i : Str × Str} (hn : c.metaName = some n) (hn' : n ≠ py "ndm") (hi : c.idVersion = some i)
    {vs : List (Str × Val)} {text : Str} (h : kvnToString (.obj c vs) = .ok text) :
    ∃ out o, collateObj [] out (.obj c vs) = .ok o ∧ text = joinWith (py "\n") o := by
  unfold kvnToString at h
  obtain ⟨o, h1, h2⟩ := bind_ok_iff.mp h
  cases h2
  simp only [kvnLines, hn, if_neg hn', hi, bind, Except.bind, pure, Except.pure] at h1
  exact ⟨_, o, h1, rfl⟩

/-- What is written of a state vector or a covariance matrix of an OEM is in the text. -/
theorem inOem_written {h m co : Val} {segs svs cms : List Val} {x : Val} {text : Str} (hs : oemSegment m co svs cms ∈ segs)
    (hw : kvnToString (oem h segs) = .ok text) :
    ∃ full, text = joinWith (py "\n") full ∧ (x ∈ svs → ObjLines (py "state_vector") x full) ∧
      (x ∈ cms → ObjLines (py "covariance_matrix") x full) := by
  obtain ⟨_, full, ho, rfl⟩ := kvnToString_obj (n := py "oem") (i := (py "CCSDS_OEM_VERS", py "2.0")) (by decide) (by decide) (by decide) hw
  refine ⟨full, rfl, ?_⟩
  obtain ⟨_, a1, w1, p1⟩ := obj_inside (by decide) ho
  obtain ⟨_, a2, w2, p2⟩ := vars_inside (k := py "body") w1 (.tail _ (.head _))
  obtain ⟨_, a3, w3, p3⟩ := sub_inside (by decide) rfl w2
  obtain ⟨_, a4, w4, p4⟩ := vars_inside (k := py "segment") w3 (.head _)
  obtain ⟨_, a5, w5, p5⟩ := list_written (by decide) w4 hs
  obtain ⟨_, a6, w6, p6⟩ := obj_inside (by decide) w5
  obtain ⟨_, a7, w7, p7⟩ := vars_inside (k := py "data") w6 (.tail _ (.head _))
  obtain ⟨_, a8, w8, p8⟩ := sub_inside (by decide) rfl w7
  have p := ((((((p8.trans p7).trans p6).trans p5).trans p4).trans p3).trans p2).trans p1
  constructor
  · intro hx
    obtain ⟨_, a9, w9, p9⟩ := vars_inside (k := py "state_vector") w8 (.tail _ (.head _))
    obtain ⟨b, b', w, p'⟩ := list_written (by decide) w9 hx
    exact ⟨b, b', w, (p'.trans p9).trans p⟩
  · intro hx
    obtain ⟨_, a9, w9, p9⟩ := vars_inside (k := py "covariance_matrix") w8 (.tail _ (.tail _ (.head _)))
    obtain ⟨b, b', w, p'⟩ := list_written (by decide) w9 hx
    exact ⟨b, b', w, (p'.trans p9).trans p⟩

theorem measured_text : ∀ {as : List (Str × Cls)} {ds : List Dec} {vs : List (Str × Val)}, Measured as ds vs →
    ds.length ≤ as.length →
    (vs.filter (·.2.truthy)).map (fun p => pyStr (valueOr p.2)) = ds.map Dec.toStr := by
  intro as ds vs h
  induction h with
  | @nil ds => intro h; cases ds with
    | nil => rfl
    | cons => simp at h
  | absent _ ih => intro _; rw [List.filter_cons_of_neg (by simp [Val.truthy])]; exact ih (by simp)
  | present _ ih =>
    intro h
    rw [List.filter_cons_of_pos (by simp [Val.truthy]), List.map_cons, List.map_cons, ih (by simpa using h)]
    rfl

theorem measured_values : ∀ {as : List (Str × Cls)} {ds : List Dec} {vs : List (Str × Val)}, Measured as ds vs →
    ds.length ≤ as.length → (vs.filterMap fun p => valueAttr? p.2).map pyStr = ds.map Dec.toStr := by
  intro as ds vs h
  induction h with
  | @nil ds => intro h; cases ds with
    | nil => rfl
    | cons => simp at h
  | absent _ ih => intro _; rw [List.filterMap_cons_none rfl]; exact ih (by simp)
  | @present _ c _ d _ u _ _ ih =>
    intro h
    rw [List.filterMap_cons_some (f := fun p : Str × Val => valueAttr? p.2) (b := Val.dec d) rfl, List.map_cons, ih (by simpa using h)]
    rfl

theorem measured_lookup {as : List (Str × Cls)} {ds : List Dec} {vs : List (Str × Val)} (h : Measured as ds vs) {k : Str}
    (hk : ∀ a ∈ as, a.1 ≠ k) : Val.lookupVar k vs = none := by
  induction h with
  | nil => rfl
  | absent _ ih =>
    have h1 := hk _ (List.mem_cons_self)
    have := ih (fun a h => hk a (by simp [h]))
    unfold Val.lookupVar at *
    rwa [List.find?_cons_of_neg (by simpa using h1)]
  | present _ ih =>
    have h1 := hk _ (List.mem_cons_self)
    have := ih (fun a h => hk a (by simp [h]))
    unfold Val.lookupVar at *
    rwa [List.find?_cons_of_neg (by simpa using h1)]

theorem measured_without {as : List (Str × Cls)} {ds : List Dec} {vs : List (Str × Val)} (h : Measured as ds vs) :
    List.Forall₂ (fun p p' => p.1 = p'.1 ∧ WithoutUnit p.2 p'.2) vs (numbered as ds) := by
  induction h with
  | nil => exact .nil
  | absent _ ih => exact .cons ⟨rfl, .same⟩ ih
  | present _ ih => exact .cons ⟨rfl, .drop⟩ ih

end Ndm
