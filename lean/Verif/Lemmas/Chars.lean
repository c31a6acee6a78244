import Verif.SpecChars
import Verif.Lemmas.WriteErrors

/-! The characters of written text. -/

namespace Ndm

/-- Values whose `str()` is modelled. -/
def StrVal : Val → Prop
  | .none | .str _ | .int _ | .dec _ => True
  | _ => False

def Field.simple (f : Field) : Bool := !f.isList && match f.ty with | .cls _ => false | _ => true

def Field.valued (f : Field) : Bool :=
  !f.isList && match f.ty with | .cls d => d.members.isSome || d.attrs.any (fun g => g.name == py "value") | _ => true

def printable (c : Char) : Bool := 32 ≤ c.toNat && c.toNat ≤ 126

theorem printable_of {c : Char} (h : printable c = true) : Printable c := by
  simpa [printable, Printable] using h

theorem schema_value : Cls.all.all (fun c => c.attrs.all fun f => f.name != py "value" || f.simple) = true := by decide +kernel
theorem schema_comment : Cls.all.all (fun c => c.attrs.all fun f => f.name != py "comment" || f.ty == .str) = true := by decide +kernel
theorem schema_printable : Cls.all.all (fun c => c.attrs.all fun f => f.name.all printable) = true := by decide +kernel
theorem schema_members : Cls.all.all (fun c => match c.members with | some ms => ms.all fun m => m.2.all printable | none => true) = true := by
  decide +kernel
theorem schema_id : Cls.all.all (fun c => match c.idVersion with | some p => p.1.all printable && p.2.all printable | none => true) = true := by
  decide +kernel

theorem fieldOk_simple {f : Field} {v : Val} (hf : f.simple = true) (h : FieldOk f v) : StrVal v := by
  obtain ⟨hl, ht⟩ := Bool.and_eq_true_iff.mp hf
  cases h with
  | list h _ => simp [h] at hl
  | none _ => trivial
  | one _ h => 
    generalize f.ty = t at h ht
    cases h <;> first | trivial | cases ht

theorem hasFields_value {c : Cls} {vs : List (Str × Val)} {x : Val} (h : HasFields c.attrs vs)
    (hx : Val.lookupVar (py "value") vs = some x) : StrVal x := by
  obtain ⟨f, hf, hn, hok⟩ := hasFields_at h (lookup_mem hx)
  have := List.all_eq_true.mp (all_classes schema_value c) f hf
  simp only [hn, bne_self_eq_false, Bool.false_or] at this
  exact fieldOk_simple this hok

theorem hasType_value {t : FTy} {v x : Val} (h : HasType t v) (hx : valueAttr? v = some x) : StrVal x := by
  cases h with
  | obj _ h => exact hasFields_value h hx
  | enum s _ _ => cases hx; trivial
  | _ => cases hx

theorem valued_simple {f : Field} {v : Val} (hf : f.valued = true) (h : FieldOk f v) : StrVal (valueOr v) := by
  obtain ⟨hl, ht⟩ := Bool.and_eq_true_iff.mp hf
  cases h with
  | list h _ => simp [h] at hl
  | none _ => trivial
  | one _ h =>
    generalize f.ty = t at h ht
    cases h with
    | obj hm h =>
      dsimp only at ht
      rw [hm] at ht
      simp only [Option.isSome_none, Bool.false_or, List.any_eq_true, beq_iff_eq] at ht
      obtain ⟨v, hv⟩ := dictGet_field h ht
      have := dictGet_ok hv
      simp only [valueOr, this, Option.getD_some]
      exact hasFields_value h this
    | _ => trivial

/-- Texts and values of enumeration members. -/
def AllIn (P : Char → Prop) (v : Val) : Prop :=
  (∀ s, Within (.str s) v → ∀ c ∈ s, P c) ∧ ∀ d s, Within (.enum d s) v → ∀ c ∈ s, P c

section
variable {P : Char → Prop}

theorem AllIn.field {c : Cls} {vs : List (Str × Val)} {n : Str} {x : Val} (h : AllIn P (.obj c vs)) (hx : (n, x) ∈ vs) : AllIn P x :=
  ⟨fun s hs => h.1 s (.field hx hs), fun d s hs => h.2 d s (.field hx hs)⟩

theorem AllIn.item {xs : List Val} {x : Val} (h : AllIn P (.list xs)) (hx : x ∈ xs) : AllIn P x :=
  ⟨fun s hs => h.1 s (.item hx hs), fun d s hs => h.2 d s (.item hx hs)⟩

theorem AllIn.value {v x : Val} (h : AllIn P v) (hx : valueAttr? v = some x) : AllIn P x := by
  unfold valueAttr? at hx
  split at hx
  · exact h.field (lookup_mem hx)
  · cases hx
    refine ⟨?_, ?_⟩
    · intro s hs
      cases hs
      exact h.2 _ _ .self
    · intro d s hs
      cases hs
  · cases hx

theorem AllIn.valueOr {v : Val} (h : AllIn P v) : AllIn P (valueOr v) := by
  unfold Ndm.valueOr
  split
  · next c vs =>
    cases hl : Val.lookupVar (py "value") vs with
    | none => exact h
    | some x => exact h.field (lookup_mem hl)
  · exact h.value rfl
  · exact h

theorem valueAttr_some {v x : Val} (h : valueAttr v = .ok x) : valueAttr? v = some x := by
  unfold valueAttr at h
  split at h
  · split at h
    · next hl => cases h; exact hl
    · cases h
  · cases h; rfl
  · cases h

theorem attrGet_ok' {k : Str} {vs : List (Str × Val)} {v : Val} (h : attrGet k vs = .ok v) : (k, v) ∈ vs := by
  unfold attrGet at h
  split at h
  · next hl => cases h; exact lookup_mem hl
  · cases h

theorem numC_printable {c : Char} (h : NumC c) : Printable c := by
  rcases h with h | h | h
  · unfold DigitC at h
    unfold Printable
    omega
  · have : ∀ c ∈ ['.', 'E', '+', '-'], printable c = true := by decide
    exact printable_of (this c h)
  · have : ∀ c ∈ ['I', 'n', 'f', 'i', 't', 'y', 'N', 'a', 's'], printable c = true := by decide
    exact printable_of (this c h)

variable (hP : CharClass P)
include hP

theorem lit_in {s : Str} (h : s.all printable = true) : ∀ c ∈ s, P c :=
  fun c hc => hP.printable c (printable_of (List.all_eq_true.mp h c hc))

theorem pyStr_in {v : Val} (hs : StrVal v) (h : AllIn P v) : ∀ c ∈ pyStr v, P c := by
  cases v with
  | none => exact lit_in hP (by decide)
  | str s => exact h.1 s .self
  | dec d => exact fun c hc => hP.printable c (numC_printable (dec_toStr_num d c hc))
  | int i =>
    intro c hc
    refine hP.printable c ?_
    simp only [pyStr, intStr] at hc
    have hd : ∀ c ∈ natDigits i.natAbs, Printable c := fun c hc => by
      have := natDigits_digit c hc
      unfold DigitC at this
      unfold Printable
      omega
    split at hc
    · rcases List.mem_cons.mp hc with rfl | hc
      · exact printable_of (by decide)
      · exact hd c hc
    · exact hd c hc
  | _ => exact hs.elim

theorem ljust_in {n : Nat} {s : Str} (h : ∀ c ∈ s, P c) : ∀ c ∈ ljust n s, P c := by
  intro c hc
  rcases List.mem_append.mp hc with hc | hc
  · exact h c hc
  · rw [List.eq_of_mem_replicate hc]
    exact hP.printable _ (printable_of (by decide))

theorem upper_in {s : Str} (h : ∀ c ∈ s, P c) : ∀ c ∈ upper s, P c := by
  intro c hc
  obtain ⟨a, ha, hc⟩ := List.mem_flatMap.mp hc
  exact hP.upper a (h a ha) c hc

omit hP in
theorem app_in {a b : Str} (ha : ∀ c ∈ a, P c) (hb : ∀ c ∈ b, P c) : ∀ c ∈ a ++ b, P c := by
  intro c hc
  rcases List.mem_append.mp hc with hc | hc
  · exact ha c hc
  · exact hb c hc

theorem fillKvn_in {key value : Str} {u : Option Str} (hk : ∀ c ∈ key, P c) (hv : ∀ c ∈ value, P c) (hu : ∀ s, u = some s → ∀ c ∈ s, P c) :
    ∀ c ∈ fillKvn key value u, P c := by
  have h1 := ljust_in hP (n := 20) (upper_in hP hk)
  have h2 : ∀ c ∈ py " = ", P c := lit_in hP (by decide)
  unfold fillKvn
  split
  · split
    · exact app_in (app_in h1 h2) hv
    · exact app_in (app_in (app_in (app_in (app_in h1 h2) (ljust_in hP hv)) (lit_in hP (by decide))) (hu _ rfl)) (lit_in hP (by decide))
  · exact app_in (app_in h1 h2) hv

theorem fillKvn_in' {key value : Str} (hk : ∀ c ∈ key, P c) (hv : ∀ c ∈ value, P c) : ∀ c ∈ fillKvn key value none, P c :=
  fillKvn_in hP hk hv fun _ h => nomatch h

theorem fillSingle_in {l : List Str} {r : Str} (h : ∀ s ∈ l, ∀ c ∈ s, P c) (hr : fillSingle l = .ok r) : ∀ c ∈ r, P c := by
  unfold fillSingle at hr
  obtain ⟨x, -, hr⟩ := bind_ok_iff.mp hr
  cases hr
  intro c hc
  split at hc
  · cases hc
  · rcases mem_joinWith hc with hc | ⟨t, ht, hc⟩
    · exact lit_in hP (by decide) c hc
    · exact h t ht c hc

theorem writeStateVector_in {vs : List (Str × Val)} {ls : List Str} (hf : HasFields (Cls.attrs .StateVectorAccType) vs)
    (h : AllIn P (.obj .StateVectorAccType vs)) (hr : writeStateVector vs = .ok ls) : ∀ l ∈ ls, ∀ c ∈ l, P c := by
  unfold writeStateVector at hr
  obtain ⟨l, hl, hr⟩ := bind_ok_iff.mp hr
  cases hr
  intro l' hl'
  rw [List.mem_singleton.mp hl']
  refine fillSingle_in hP ?_ hl
  intro s hs
  obtain ⟨⟨n, x⟩, hp, rfl⟩ := List.mem_map.mp hs
  have hp := (List.mem_filter.mp hp).1
  obtain ⟨f, hfm, -, hok⟩ := hasFields_at hf hp
  have ht : ∀ f ∈ Cls.attrs .StateVectorAccType, f.valued = true := by decide
  exact pyStr_in hP (valued_simple (ht f hfm) hok) (h.field hp).valueOr

theorem name_in {c : Cls} {f : Field} (hf : f ∈ c.attrs) : ∀ x ∈ f.name, P x :=
  lit_in hP (List.all_eq_true.mp (all_classes schema_printable c) f hf)

theorem writeObservation_in {vs : List (Str × Val)} {ls : List Str} (hf : HasFields (Cls.attrs .TrackingDataObservationType) vs)
    (h : AllIn P (.obj .TrackingDataObservationType vs)) (hr : writeObservation vs = .ok ls) : ∀ l ∈ ls, ∀ c ∈ l, P c := by
  unfold writeObservation at hr
  obtain ⟨⟨k, v⟩, hl, hr⟩ := bind_ok_iff.mp hr
  obtain ⟨ep, he, hr⟩ := bind_ok_iff.mp hr
  cases hr
  have hm : (k, v) ∈ vs.filter fun p => (match p.2 with | .dec _ => true | _ => false) && p.1 != py "epoch" := pyGet_mem hl
  obtain ⟨hm, hd⟩ := List.mem_filter.mp hm
  obtain ⟨f, hfm, rfl, hok⟩ := hasFields_at hf hm
  have he := lookup_mem (dictGet_ok he)
  obtain ⟨g, hgm, hgn, hgok⟩ := hasFields_at hf he
  have ht : ∀ f ∈ Cls.attrs .TrackingDataObservationType, f.name = py "epoch" → f.simple = true := by decide
  intro l' hl'
  rw [List.mem_singleton.mp hl']
  refine app_in (app_in (app_in (app_in (ljust_in hP (upper_in hP (name_in hP hfm))) (lit_in hP (by decide)))
    (ljust_in hP (pyStr_in hP (fieldOk_simple (ht g hgm hgn) hgok) (h.field he)))) ?_) (lit_in hP (by decide))
  refine pyStr_in hP ?_ (h.field hm)
  cases v <;> first | trivial | cases hd

omit hP in
theorem triRows_mem {r : List Str} {s : Str} : ∀ {fuel n : Nat} {l : List Str}, r ∈ triRows fuel n l → s ∈ r → s ∈ l
  | 0, _, _, h, _ => by simp [triRows] at h
  | fuel + 1, n, l, h, hs => by
    simp only [triRows] at h
    split at h
    · cases h
    · rcases List.mem_cons.mp h with rfl | h
      · exact List.mem_of_mem_take hs
      · exact List.mem_of_mem_drop (triRows_mem h hs)

omit hP in
theorem comment_simple {c : Cls} {f : Field} {xs : List Val} (hf : f ∈ c.attrs) (hn : f.name = py "comment") (h : FieldOk f (.list xs)) :
    ∀ x ∈ xs, StrVal x := by
  have := List.all_eq_true.mp (all_classes schema_comment c) f hf
  simp only [hn, bne_self_eq_false, Bool.false_or, beq_iff_eq] at this
  intro x hx
  cases h with
  | list _ ha =>
    rw [this] at ha
    have := allHaveType_mem ha hx
    cases this
    trivial
  | one _ h =>
    generalize f.ty = t at h
    cases h

theorem writeCovariance_in {key : Str} {vs : List (Str × Val)} {ls : List Str} (hk : ∀ c ∈ key, P c)
    (hf : HasFields (Cls.attrs .OemCovarianceMatrixType) vs)
    (h : AllIn P (.obj .OemCovarianceMatrixType vs)) (hr : writeCovariance key vs = .ok ls) : ∀ l ∈ ls, ∀ c ∈ l, P c := by
  unfold writeCovariance at hr
  obtain ⟨cv, hc, hr⟩ := bind_ok_iff.mp hr
  obtain ⟨cs, hcs, hr⟩ := bind_ok_iff.mp hr
  obtain ⟨ep, he, hr⟩ := bind_ok_iff.mp hr
  obtain ⟨fr, hfr, hr⟩ := bind_ok_iff.mp hr
  obtain ⟨rows, hrows, hr⟩ := bind_ok_iff.mp hr
  cases hr
  have hc := attrGet_ok' hc
  have he := attrGet_ok' he
  have hfr := attrGet_ok' hfr
  have ht : ∀ f ∈ Cls.attrs .OemCovarianceMatrixType, f.name = py "epoch" ∨ f.name = py "cov_ref_frame" → f.simple = true := by decide
  obtain ⟨g, hgm, hgn, hgok⟩ := hasFields_at hf he
  obtain ⟨g', hgm', hgn', hgok'⟩ := hasFields_at hf hfr
  obtain ⟨f, hfm, hn, hok⟩ := hasFields_at hf hc
  have hcv : cv = .list cs := by
    unfold iterList at hcs
    split at hcs <;> cases hcs
    rfl
  subst hcv
  intro l hl
  rcases List.mem_append.mp hl with hl | hl
  · rcases List.mem_append.mp hl with hl | hl
    · rcases List.mem_append.mp hl with hl | hl
      · obtain ⟨x, hx, rfl⟩ := List.mem_map.mp hl
        exact fillKvn_in' hP hk (pyStr_in hP (comment_simple hfm hn hok x hx) ((h.field hc).item hx))
      · rw [List.mem_singleton.mp hl]
        exact fillKvn_in' hP (lit_in hP (by decide)) (pyStr_in hP (fieldOk_simple (ht g hgm (.inl hgn)) hgok) (h.field he))
    · split at hl
      · rw [List.mem_singleton.mp hl]
        exact fillKvn_in' hP (lit_in hP (by decide)) (pyStr_in hP (fieldOk_simple (ht g' hgm' (.inr hgn')) hgok') (h.field hfr))
      · cases hl
  · obtain ⟨r, hr, hfill⟩ := mapM_mem hrows l hl
    refine fillSingle_in hP ?_ hfill
    intro s hs
    obtain ⟨x, hx, rfl⟩ := List.mem_map.mp (triRows_mem hr hs)
    obtain ⟨⟨n, y⟩, hy, hx⟩ := List.mem_filterMap.mp hx
    obtain ⟨q, hqm, -, hqok⟩ := hasFields_at hf hy
    refine pyStr_in hP ?_ ((h.field hy).value hx)
    cases hqok with
    | list _ _ => cases hx
    | none _ => cases hx
    | one _ ht _ => exact hasType_value ht hx

theorem writeUserDefined_in {key : Str} {t : FTy} {x : Val} {l : Str} (hk : ∀ c ∈ key, P c) (ht : HasType t x) (h : AllIn P x)
    (hr : writeUserDefined key x = .ok l) : ∀ c ∈ l, P c := by
  unfold writeUserDefined at hr
  split at hr
  · next d vs =>
    obtain ⟨p, hp, hr⟩ := bind_ok_iff.mp hr
    split at hr
    · obtain ⟨v, hv, hr⟩ := bind_ok_iff.mp hr
      cases hr
      have hp := attrGet_ok' hp
      have hs : StrVal v := hasType_value (v := .obj d vs) ht (by
        unfold attrGet at hv
        split at hv
        · next hl => cases hv; exact hl
        · cases hv)
      refine fillKvn_in' hP (app_in (app_in hk (lit_in hP (by decide))) ((h.field hp).1 _ .self)) ?_
      split
      · exact pyStr_in hP hs (h.field (attrGet_ok' hv))
      · exact fun c hc => nomatch hc
    · cases hr
  · cases hr

theorem writeValueObj_in {key : Str} {t : FTy} {d : Cls} {vs : List (Str × Val)} {l : Str} (hk : ∀ c ∈ key, P c) (ht : HasType t (.obj d vs))
    (h : AllIn P (.obj d vs)) (hr : writeValueObj key vs = .ok l) : ∀ c ∈ l, P c := by
  have hf : HasFields d.attrs vs := by cases ht; assumption
  unfold writeValueObj at hr
  obtain ⟨k, hkey, hr⟩ := bind_ok_iff.mp hr
  obtain ⟨u, hu, hr⟩ := bind_ok_iff.mp hr
  obtain ⟨v, hv, hr⟩ := bind_ok_iff.mp hr
  have hkin : ∀ c ∈ k, P c := by
    unfold valueKey at hkey
    split at hkey
    · cases hkey; exact hk
    · next n t rest hfil =>
      split at hkey
      · next s hs =>
        cases hkey
        have hm : (n, t) ∈ vs.filter fun p => p.1 != py "value" && p.1 != py "units" := by rw [hfil]; simp
        exact ((h.field (List.mem_filter.mp hm).1).value (valueAttr_some hs)).1 _ .self
      · cases hkey
      · cases hkey
  have hvs : ∀ c ∈ pyStr v, P c := by
    refine pyStr_in hP ?_ (h.field (attrGet_ok' hv))
    refine hasFields_value hf ?_
    unfold attrGet at hv
    split at hv
    · next hl => cases hv; exact hl
    · cases hv
  split at hr
  · obtain ⟨w, hw, hr⟩ := bind_ok_iff.mp hr
    cases hr
    refine fillKvn_in hP hkin hvs ?_
    intro s hs
    split at hs
    · cases hs
      have hum := attrGet_ok' hu
      obtain ⟨f, -, -, hok⟩ := hasFields_at hf hum
      refine pyStr_in hP ?_ ((h.field hum).value (valueAttr_some hw))
      cases hok with
      | list _ _ => cases hw
      | none _ => cases hw
      | one _ ht _ => exact hasType_value ht (valueAttr_some hw)
    · cases hs
  · cases hr
    exact fillKvn_in' hP hkin hvs

omit hP in
theorem mapM_arg {α β : Type} {f : α → Except PyErr β} : ∀ {l : List α} {r : List β}, l.mapM f = .ok r → ∀ a ∈ l, ∃ b, f a = .ok b
  | [], _, _, _, h => by cases h
  | x :: l, r, h, a, ha => by
    rw [List.mapM_cons] at h
    obtain ⟨b, hb, h⟩ := bind_ok_iff.mp h
    obtain ⟨bs, hbs, -⟩ := bind_ok_iff.mp h
    rcases List.mem_cons.mp ha with rfl | ha
    · exact ⟨b, hb⟩
    · exact mapM_arg hbs a ha

theorem strsOf_in {keys : List Str} {c : Cls} {vs : List (Str × Val)} {ls : List Str} (hf : HasFields c.attrs vs) (h : AllIn P (.obj c vs))
    (hk : ∀ g ∈ c.attrs, g.name ∈ keys → g.simple = true) (hr : strsOf keys vs = .ok ls) : ∀ l ∈ ls, ∀ x ∈ l, P x := by
  intro l hl
  obtain ⟨k, hkm, hr⟩ := mapM_mem hr l hl
  obtain ⟨v, hv, hr⟩ := bind_ok_iff.mp hr
  cases hr
  have hv := lookup_mem (dictGet_ok hv)
  obtain ⟨g, hgm, rfl, hok⟩ := hasFields_at hf hv
  exact pyStr_in hP (fieldOk_simple (hk g hgm hkm) hok) (h.field hv)

omit hP in
/-- What is known of the attributes of a rotation. -/
def RotIn (P : Char → Prop) (r : List (Str × Val)) : Prop :=
  ∃ e : Cls, HasFields e.attrs r ∧ AllIn P (.obj e r) ∧ (∀ g ∈ e.attrs, g.valued = true) ∧
    ((∃ g ∈ e.attrs, g.name = py "q1") → ∀ g ∈ e.attrs, g.simple = true)

theorem quaternionLine_in {c : Cls} {rots : List (List (Str × Val))} {out ls : List Str} (h : ∀ r ∈ rots, RotIn P r)
    (hr : quaternionLine c rots out = .ok ls) : ∀ l ∈ ls, ∀ x ∈ l, P x := by
  unfold quaternionLine at hr
  obtain ⟨last, -, hr⟩ := bind_ok_iff.mp hr
  obtain ⟨r0, h0, hr⟩ := bind_ok_iff.mp hr
  obtain ⟨q, hq, hr⟩ := bind_ok_iff.mp hr
  obtain ⟨e, hf, ha, -, hg⟩ := h r0 (pyGet_mem h0)
  have hg : ∀ g ∈ e.attrs, g.simple = true := by
    refine hg ?_
    have : py "q1" ∈ (if last then [py "q1", py "q2", py "q3", py "qc"] else [py "qc", py "q1", py "q2", py "q3"]) := by
      cases last <;> decide
    obtain ⟨y, hy⟩ := mapM_arg hq _ this
    obtain ⟨v, hv, -⟩ := bind_ok_iff.mp hy
    obtain ⟨g, hgm, hgn, -⟩ := hasFields_at hf (lookup_mem (dictGet_ok hv))
    exact ⟨g, hgm, hgn⟩
  have hqi := strsOf_in hP hf ha (fun g hgm _ => hg g hgm) hq
  split at hr
  · obtain ⟨r1, h1, hr⟩ := bind_ok_iff.mp hr
    obtain ⟨vals, hv, hr⟩ := bind_ok_iff.mp hr
    cases hr
    obtain ⟨e1, hf1, ha1, -⟩ := h r1 (pyGet_mem h1)
    intro l hl
    rcases List.mem_append.mp hl with hl | hl
    · exact hqi l hl
    · obtain ⟨k, -, hv⟩ := mapM_mem hv l hl
      obtain ⟨x, hx, hv⟩ := bind_ok_iff.mp hv
      obtain ⟨y, hy, hv⟩ := bind_ok_iff.mp hv
      cases hv
      have hx := lookup_mem (dictGet_ok hx)
      obtain ⟨g, -, -, hok⟩ := hasFields_at hf1 hx
      refine pyStr_in hP ?_ ((ha1.field hx).value (valueAttr_some hy))
      cases hok with
      | list _ _ => cases hy
      | none _ => cases hy
      | one _ ht _ => exact hasType_value ht (valueAttr_some hy)
  split at hr
  · obtain ⟨d, hd, hr⟩ := bind_ok_iff.mp hr
    cases hr
    have hdi := strsOf_in hP hf ha (fun g hgm _ => hg g hgm) hd
    intro l hl
    rcases List.mem_append.mp hl with hl | hl
    · exact hqi l hl
    · exact hdi l hl
  · cases hr
    exact hqi

omit hP in
theorem rotation_types : ∀ f ∈ Cls.attrs .AttitudeStateType, ∃ d, f.ty = .cls d ∧
    ∀ g ∈ Cls.attrs d, (g.name != py "epoch") = true → ∃ e, g.ty = .cls e ∧ (∀ q ∈ Cls.attrs e, q.valued = true) ∧
      ((∃ q ∈ Cls.attrs e, q.name = py "q1") → ∀ q ∈ Cls.attrs e, q.simple = true) := by
  have h : (Cls.attrs .AttitudeStateType).all (fun f => match f.ty with
    | .cls d => d.attrs.all fun g => g.name == py "epoch" || (match g.ty with
      | .cls e => (e.attrs.all Field.valued) && (!(e.attrs.any fun q => q.name == py "q1") || e.attrs.all Field.simple)
      | _ => false)
    | _ => false) = true := by decide +kernel
  intro f hf
  have h1 := List.all_eq_true.mp h f hf
  split at h1
  · next d hd =>
    refine ⟨d, hd, fun g hg hn => ?_⟩
    have h2 := List.all_eq_true.mp h1 g hg
    have hn' : (g.name == py "epoch") = false := by simpa using hn
    rw [hn', Bool.false_or] at h2
    split at h2
    · next e he =>
      obtain ⟨h3, h4⟩ := Bool.and_eq_true_iff.mp h2
      refine ⟨e, he, List.all_eq_true.mp h3, fun ⟨q, hq, hqn⟩ => ?_⟩
      have : (e.attrs.any fun q => q.name == py "q1") = true := List.any_eq_true.mpr ⟨q, hq, by simp [hqn]⟩
      rw [this, Bool.not_true, Bool.false_or] at h4
      exact List.all_eq_true.mp h4
    · cases h2
  · cases h1

theorem writeAttitude_in {vs : List (Str × Val)} {out ls : List Str} (hf : HasFields (Cls.attrs .AttitudeStateType) vs)
    (h : AllIn P (.obj .AttitudeStateType vs)) (hr : writeAttitude vs out = .ok ls) : ∀ l ∈ ls, ∀ c ∈ l, P c := by
  unfold writeAttitude at hr
  split at hr
  · cases hr
  next att rest hfil =>
  obtain ⟨avs, ha, hr⟩ := bind_ok_iff.mp hr
  obtain ⟨rots, hrots, hr⟩ := bind_ok_iff.mp hr
  obtain ⟨line, hline, hr⟩ := bind_ok_iff.mp hr
  obtain ⟨ep, he, hlast⟩ := bind_ok_iff.mp hr
  obtain ⟨d, rfl⟩ := vars_obj ha
  have hm : Val.obj d avs ∈ (vs.map (·.2)).filter Val.truthy := by rw [hfil]; simp
  obtain ⟨⟨n, x⟩, hx, e⟩ := List.mem_map.mp (List.mem_filter.mp hm).1
  cases e
  obtain ⟨f, hfm, -, hok⟩ := hasFields_at hf hx
  obtain ⟨d', hfd, hrt⟩ := rotation_types f hfm
  obtain ⟨rfl, hfa⟩ := fieldOk_obj hfd hok
  have hin := h.field hx
  have hrot : ∀ r ∈ rots, RotIn P r := by
    intro r hr
    obtain ⟨⟨k, y⟩, hy, hv⟩ := mapM_mem hrots r hr
    obtain ⟨hy, hne⟩ := List.mem_filter.mp hy
    obtain ⟨b, rfl⟩ := vars_obj hv
    obtain ⟨g, hgm, rfl, hgok⟩ := hasFields_at hfa hy
    obtain ⟨e, hge, hq⟩ := hrt g hgm hne
    obtain ⟨rfl, hfb⟩ := fieldOk_obj hge hgok
    exact ⟨_, hfb, hin.field hy, hq⟩
  have hli : ∀ l ∈ line, ∀ c ∈ l, P c := by
    unfold attLine at hline
    dsimp only at hline
    split at hline
    · exact quaternionLine_in hP hrot hline
    · cases hline
      intro l hl
      obtain ⟨r, hr, hl⟩ := List.mem_flatMap.mp hl
      obtain ⟨⟨k, y⟩, hy, rfl⟩ := List.mem_map.mp hl
      obtain ⟨e, hfe, hae, hq⟩ := hrot r hr
      obtain ⟨g, hgm, -, hgok⟩ := hasFields_at hfe hy
      exact pyStr_in hP (valued_simple (hq.1 g hgm) hgok) (hae.field hy).valueOr
  split at hlast
  · obtain ⟨l, hl, hlast⟩ := bind_ok_iff.mp hlast
    cases hlast
    intro l' hl'
    rw [List.mem_singleton.mp hl']
    refine fillSingle_in hP ?_ hl
    intro s hs
    rcases List.mem_cons.mp hs with rfl | hs
    · exact (hin.field (lookup_mem (dictGet_ok he))).1 _ .self
    · exact hli s hs
  · cases hlast

theorem writeSpecial_in {key : Str} {c : Cls} {vs : List (Str × Val)} {out ls : List Str} (hk : ∀ c ∈ key, P c) (hs : isSpecialOut c = true)
    (hf : HasFields c.attrs vs) (h : AllIn P (.obj c vs)) (hr : writeSpecial key c vs out = .ok ls) : ∀ l ∈ ls, ∀ c ∈ l, P c := by
  unfold writeSpecial at hr
  split at hr
  · next e => subst e; exact writeStateVector_in hP hf h hr
  split at hr
  · next e => subst e; exact writeAttitude_in hP hf h hr
  split at hr
  · next e => subst e; exact writeObservation_in hP hf h hr
  · next h1 h2 h3 =>
    have : c = .OemCovarianceMatrixType := by
      simp only [isSpecialOut, Bool.or_eq_true, decide_eq_true_eq] at hs
      tauto
    subst this
    exact writeCovariance_in hP hk hf h hr

/-- The lines consist of characters of the class. -/
abbrev LinesIn (P : Char → Prop) (out : List Str) : Prop := ∀ l ∈ out, ∀ c ∈ l, P c

omit hP in
theorem lines_app {a b : List Str} (ha : LinesIn P a) (hb : LinesIn P b) : LinesIn P (a ++ b) := by
  intro l hl
  rcases List.mem_append.mp hl with hl | hl
  · exact ha l hl
  · exact hb l hl

omit hP in
theorem lines_one {s : Str} (h : ∀ c ∈ s, P c) : LinesIn P [s] := by
  intro l hl
  rw [List.mem_singleton.mp hl]
  exact h

theorem header_in {c : Cls} {h : Str} (hh : headerName c = some h) : (∀ x ∈ beginLine h, P x) ∧ ∀ x ∈ endLine h, P x := by
  have : h = py "META" ∨ h = py "DATA" ∨ h = py "COVARIANCE" := by
    unfold headerName at hh
    split at hh <;> cases hh <;> simp
  rcases this with rfl | rfl | rfl <;> exact ⟨lit_in hP (by decide), lit_in hP (by decide)⟩

theorem withHeader_in {h : Option Str} {bf af : Str → List Str} {out ls : List Str} {body : List Str → Except PyErr (List Str)}
    (hh : ∀ x, h = some x → LinesIn P (bf x) ∧ LinesIn P (af x)) (ho : LinesIn P out)
    (hb : ∀ o r, LinesIn P o → body o = .ok r → LinesIn P r) (hr : withHeader h bf af out body = .ok ls) : LinesIn P ls := by
  unfold withHeader at hr
  split at hr
  · next x =>
    obtain ⟨r, hbr, rfl⟩ := map_ok_iff.mp hr
    exact lines_app (hb _ _ (lines_app ho (hh x rfl).1) hbr) (hh x rfl).2
  · exact hb _ _ ho hr

theorem headers_in {h : Option Str} (hh : ∀ x, h = some x → (∀ c ∈ beginLine x, P c) ∧ ∀ c ∈ endLine x, P c) : ∀ x, h = some x →
    (LinesIn P [beginLine x, []] ∧ LinesIn P [endLine x, []]) ∧ LinesIn P [[], beginLine x, []] ∧ LinesIn P [[], endLine x, []] := by
  intro x hx
  obtain ⟨h1, h2⟩ := hh x hx
  have h0 : LinesIn P [[]] := fun l hl c hc => by rw [List.mem_singleton.mp hl] at hc; cases hc
  exact ⟨⟨lines_app (lines_one h1) h0, lines_app (lines_one h2) h0⟩, lines_app h0 (lines_app (lines_one h1) h0), lines_app h0 (lines_app (lines_one h2) h0)⟩

theorem blank_in {out : List Str} {p : Prop} [Decidable p] (h : LinesIn P out) : LinesIn P (if p then out ++ [[]] else out) := by
  split
  · exact lines_app h fun l hl c hc => by rw [List.mem_singleton.mp hl] at hc; cases hc
  · exact h

mutual
theorem collateObj_in (key : Str) (hk : ∀ c ∈ key, P c) (out : List Str) (ho : LinesIn P out) : ∀ (v : Val) (t : FTy), HasType t v → AllIn P v →
    ∀ ls, collateObj key out v = .ok ls → LinesIn P ls
  | .obj c vs, t, ht, h, ls, hr => by
    have hf : HasFields c.attrs vs := by cases ht; assumption
    simp only [collateObj] at hr
    split at hr
    · next hs =>
      obtain ⟨r, hw, hr⟩ := bind_ok_iff.mp hr
      cases hr
      exact lines_app ho (writeSpecial_in hP hk hs hf h hw)
    · obtain ⟨r, hw, hr⟩ := bind_ok_iff.mp hr
      cases hr
      exact blank_in hP (collateVars_in out ho vs c c.attrs (fun _ h => h) hf (fun n x hx => h.field hx) r hw)
  | .str _, _, _, _, _, hr | .int _, _, _, _, _, hr | .dec _, _, _, _, _, hr | .enum _ _, _, _, _, _, hr | .none, _, _, _, _, hr
  | .list _, _, _, _, _, hr => by
    simp only [collateObj] at hr
    cases hr

theorem collateVars_in (out : List Str) (ho : LinesIn P out) : ∀ (vs : List (Str × Val)) (c : Cls) (fs : List Field),
    (∀ f ∈ fs, f ∈ c.attrs) → HasFields fs vs → (∀ n x, (n, x) ∈ vs → AllIn P x) → ∀ ls, collateVars out vs = .ok ls → LinesIn P ls
  | [], _, _, _, _, _, ls, hr => by
    simp only [collateVars] at hr
    cases hr
    exact ho
  | (k, v) :: vs, c, fs, hs, hf, h, ls, hr => by
    simp only [collateVars] at hr
    obtain ⟨o, h1, h2⟩ := bind_ok_iff.mp hr
    cases hf with
    | @cons f _ fs _ hv hrest =>
      exact collateVars_in o (collateSub_in f.name out ho v c f (hs f (by simp)) rfl hv (h f.name v (by simp)) o h1) vs c fs
        (fun g hg => hs g (by simp [hg])) hrest (fun n x hx => h n x (by simp [hx])) ls h2

theorem collateSub_in (key : Str) (out : List Str) (ho : LinesIn P out) : ∀ (v : Val) (c : Cls) (f : Field), f ∈ c.attrs → key = f.name →
    FieldOk f v → AllIn P v → ∀ ls, collateSub key out v = .ok ls → LinesIn P ls
  | .str s, c, f, hfc, hkf, _, h, ls, hr => by
    simp only [collateSub] at hr
    cases hr
    exact lines_app ho (lines_one (fillKvn_in' hP (hkf ▸ name_in hP hfc) (h.1 s .self)))
  | .int i, c, f, hfc, hkf, _, h, ls, hr => by
    simp only [collateSub] at hr
    cases hr
    exact lines_app ho (lines_one (fillKvn_in' hP (hkf ▸ name_in hP hfc) (pyStr_in hP (v := .int i) trivial h)))
  | .dec d, c, f, hfc, hkf, _, h, ls, hr => by
    simp only [collateSub] at hr
    split at hr <;> cases hr
    exact lines_app ho (lines_one (fillKvn_in' hP (hkf ▸ name_in hP hfc) (pyStr_in hP (v := .dec d) trivial h)))
  | .enum e s, c, f, hfc, hkf, _, h, ls, hr => by
    simp only [collateSub] at hr
    split at hr <;> cases hr
    exact lines_app ho (lines_one (fillKvn_in' hP (hkf ▸ name_in hP hfc) (h.2 e s .self)))
  | .none, c, f, hfc, hkf, _, h, ls, hr => by
    simp only [collateSub] at hr
    split at hr <;> cases hr
    exact ho
  | .obj d vs, c, f, hfc, hkf, hok, h, ls, hr => by
    have hk : ∀ x ∈ key, P x := hkf ▸ name_in hP hfc
    have ht : HasType f.ty (.obj d vs) := by
      cases hok
      assumption
    have hf : HasFields d.attrs vs := by
      generalize f.ty = t at ht
      cases ht; assumption
    simp only [collateSub] at hr
    refine withHeader_in hP (fun x hx => (headers_in hP (fun x hx => header_in hP hx) x hx).1) ho ?_ hr
    intro o r ho hr
    split at hr
    · cases hr
    split at hr
    · obtain ⟨l, hw, hr⟩ := bind_ok_iff.mp hr
      cases hr
      exact lines_app ho (lines_one (writeValueObj_in hP hk ht h hw))
    split at hr
    · cases hr
    split at hr
    · next hs =>
      obtain ⟨l, hw, hr⟩ := bind_ok_iff.mp hr
      cases hr
      exact lines_app ho (writeSpecial_in hP hk hs hf h hw)
    · obtain ⟨l, hw, hr⟩ := bind_ok_iff.mp hr
      cases hr
      exact blank_in hP (collateVars_in o ho vs d d.attrs (fun _ h => h) hf (fun n x hx => h.field hx) l hw)
  | .list [], c, f, hfc, hkf, hok, h, ls, hr => by
    rw [collateSub] at hr
    split at hr
    · cases hr
      simpa using ho
    split at hr
    · rw [List.mapM_nil] at hr
      obtain ⟨l, hw, hr⟩ := bind_ok_iff.mp hr
      cases hw
      cases hr
      simpa using ho
    · cases hr
      exact ho
  | .list (x :: rest), c, f, hfc, hkf, hok, h, ls, hr => by
    have hk : ∀ x ∈ key, P x := hkf ▸ name_in hP hfc
    have ha : AllHaveType f.ty (x :: rest) := by
      cases hok with
      | list _ ha => exact ha
      | one _ h =>
        generalize f.ty = t at h
        cases h
    rw [collateSub] at hr
    split at hr
    · next hc =>
      cases hr
      refine lines_app ho ?_
      intro l hl
      obtain ⟨y, hy, rfl⟩ := List.mem_map.mp hl
      exact fillKvn_in' hP hk (pyStr_in hP (comment_simple hfc (hkf ▸ hc) hok y hy) (h.item hy))
    split at hr
    · obtain ⟨us, hw, hr⟩ := bind_ok_iff.mp hr
      cases hr
      refine lines_app ho ?_
      intro l hl
      obtain ⟨y, hy, hl⟩ := mapM_mem hw l hl
      exact writeUserDefined_in hP hk (allHaveType_mem ha hy) (h.item hy) hl
    · refine withHeader_in hP (fun y hy => (headers_in hP (fun y hy => ?_) y hy).2) ho ?_ hr
      · unfold headerOf at hy
        split at hy
        · exact header_in hP hy
        · cases hy
      · intro o r ho hr
        obtain ⟨o', h1, hr⟩ := bind_ok_iff.mp hr
        cases ha with
        | cons hx hrest =>
          exact collateItems_in key hk o' (collateObj_in key hk o ho x f.ty hx (h.item (by simp)) o' h1) rest f.ty hrest
            (fun y hy => h.item (by simp [hy])) r hr

theorem collateItems_in (key : Str) (hk : ∀ c ∈ key, P c) (out : List Str) (ho : LinesIn P out) : ∀ (xs : List Val) (t : FTy), AllHaveType t xs →
    (∀ x ∈ xs, AllIn P x) → ∀ ls, collateItems key out xs = .ok ls → LinesIn P ls
  | [], _, _, _, ls, hr => by
    simp only [collateItems] at hr
    cases hr
    exact ho
  | x :: xs, t, ht, h, ls, hr => by
    simp only [collateItems] at hr
    obtain ⟨o, h1, hr⟩ := bind_ok_iff.mp hr
    cases ht with
    | cons hx hrest =>
      exact collateItems_in key hk o (collateObj_in key hk out ho x t hx (h x (by simp)) o h1) xs t hrest (fun y hy => h y (by simp [hy])) ls hr
end

omit hP in
theorem members_printable {d : Cls} {ms : List (Str × Str)} {m s : Str} (h : d.members = some ms) (hm : (m, s) ∈ ms) :
    s.all printable = true := by
  have := all_classes schema_members d
  rw [h] at this
  exact List.all_eq_true.mp this _ hm

omit hP in
/-- The members inside a value of the data model are members of their enumeration. -/
theorem within_enum {d : Cls} {s : Str} {v : Val} (h : Within (.enum d s) v) :
    (∀ t, HasType t v → s.all printable = true) ∧ (∀ t xs, v = .list xs → AllHaveType t xs → s.all printable = true) := by
  induction h with
  | self =>
    refine ⟨?_, fun t xs h _ => by cases h⟩
    intro t h
    cases h with
    | enum s hm he =>
      obtain ⟨m, he⟩ := he
      exact members_printable hm he
  | @field c vs n x hmem hw ih =>
    refine ⟨?_, fun t xs h _ => by cases h⟩
    intro t h
    cases h with
    | obj hm hf =>
      obtain ⟨f, hfm, hx⟩ := hasFields_mem hf hmem
      cases hx with
      | list _ ha => exact ih.2 _ _ rfl ha
      | none _ => exact absurd hw (by intro h; cases h)
      | one _ h1 => exact ih.1 _ h1
  | @item xs x hmem hw ih =>
    refine ⟨fun t h => (by cases h), ?_⟩
    intro t xs' h ha
    cases h
    exact ih.1 t (allHaveType_mem ha hmem)

theorem kvnToString_in {t : FTy} {o : Val} {s : Str} (ht : HasType t o) (h : TextsIn P o) (hr : kvnToString o = .ok s) : ∀ c ∈ s, P c := by
  have hall : AllIn P o := ⟨h, fun d s hs => lit_in hP ((within_enum hs).1 t ht)⟩
  unfold kvnToString at hr
  obtain ⟨ls, hls, hr⟩ := bind_ok_iff.mp hr
  cases hr
  have hlines : LinesIn P ls := by
    unfold kvnLines at hls
    split at hls
    · next c vs =>
      split at hls
      · cases hls
      · next n hn =>
        have hid := all_classes schema_id c
        have key : ∃ id version, c.idVersion = some (id, version) ∧ collateObj [] [fillKvn id version none] (.obj c vs) = .ok ls := by
          cases hv : c.idVersion with
          | none =>
            rw [hv] at hls
            dsimp only at hls
            split at hls
            · obtain ⟨b, -, hls⟩ := bind_ok_iff.mp hls
              split at hls <;> cases hls
            · cases hls
          | some p =>
            rw [hv] at hls
            dsimp only at hls
            refine ⟨p.1, p.2, rfl, ?_⟩
            split at hls
            · obtain ⟨b, -, hls⟩ := bind_ok_iff.mp hls
              split at hls
              · cases hls
              · exact hls
            · exact hls
        obtain ⟨id, version, he, key⟩ := key
        rw [he] at hid
        obtain ⟨h1, h2⟩ := Bool.and_eq_true_iff.mp hid
        exact collateObj_in hP [] (fun _ h => nomatch h) _ (lines_one (fillKvn_in' hP (lit_in hP h1) (lit_in hP h2))) _ t ht hall ls key
    · cases hls
  intro c hc
  rcases mem_joinWith hc with hc | ⟨l, hl, hc⟩
  · rw [List.mem_singleton.mp hc]
    exact hP.newline
  · exact hlines l hl c hc

end

end Ndm
