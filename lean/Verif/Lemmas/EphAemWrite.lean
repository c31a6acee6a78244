import Verif.Lemmas.EphAemRead

/-! Writing attitude ephemeris messages. -/

namespace Ndm

/-! ### The declaration of the quaternion order in the text written so far -/

def quatKey : Str := py "QUATERNION_TYPE"

theorem rstrip_prefix {k s : Str} (hk : ∀ c ∈ k, isSpace c = false) (h : k <+: s) : k <+: rstrip s := by
  obtain ⟨v, hv, ht, -⟩ := dropWhile_decomp isSpace s.reverse
  have e : s = rstrip s ++ v.reverse := by
    have := congrArg List.reverse ht
    simpa [rstrip] using this
  rw [e] at h
  by_cases hl : k.length ≤ (rstrip s).length
  · exact List.prefix_of_prefix_length_le h (List.prefix_append _ _) hl
  · exfalso
    have h2 := List.prefix_of_prefix_length_le (List.prefix_append (rstrip s) v.reverse) h (by omega)
    obtain ⟨t, rfl⟩ := h2
    rw [List.prefix_append_right_inj] at h
    cases t with
    | nil => simp at hl
    | cons c t =>
      have h1 := hv c (by simpa using h.subset (List.mem_cons_self))
      have h2 := hk c (by simp)
      rw [h1] at h2
      cases h2

theorem strip_prefix {k s : Str} (hk : ∀ c ∈ k, isSpace c = false) (h : k <+: s) : k <+: strip s := by
  unfold strip
  cases k with
  | nil => exact List.nil_prefix
  | cons c k =>
    have : lstrip s = s := by
      apply lstrip_of_head
      obtain ⟨t, rfl⟩ := h
      intro d hd
      simp only [List.cons_append, List.head?_cons, Option.some.injEq] at hd
      subst hd
      exact hk _ (by simp)
    rw [this]
    exact rstrip_prefix hk h

theorem splitOnce_prefix {d : Char} : ∀ {k s : Str}, d ∉ k → k <+: s → ∃ p r, splitOnce d s = p :: r ∧ k <+: p
  | [], s, _, _ => by
    have : splitOnce d s ≠ [] := by
      cases s with
      | nil => simp [splitOnce]
      | cons c s =>
        simp only [splitOnce]
        split
        · simp
        · split <;> simp
    obtain ⟨p, r, h⟩ := List.exists_cons_of_ne_nil this
    exact ⟨p, r, h, List.nil_prefix⟩
  | c :: k, s, hd, h => by
    obtain ⟨t, rfl⟩ := h
    obtain ⟨p, r, h1, h2⟩ := splitOnce_prefix (d := d) (k := k) (s := k ++ t) (fun h => hd (by simp [h])) (List.prefix_append _ _)
    have hc : c ≠ d := fun h => hd (by simp [h])
    refine ⟨c :: p, r, ?_, List.prefix_cons_inj c |>.mpr h2⟩
    simp only [List.cons_append, splitOnce, if_neg hc, h1]

/-- A line that starts with the keyword is read as a line whose keyword starts with it. -/
theorem quat_parsed {w : Str} (h : startsWith w quatKey = true) :
    ∃ l, parseLine w = some l ∧ startsWith l.key quatKey = true := by
  have hq : ∀ c ∈ quatKey, isSpace c = false := by decide
  rw [startsWith_iff] at h
  have hs := strip_prefix hq h
  obtain ⟨p, r, hp, hpk⟩ := splitOnce_prefix (d := '=') (k := quatKey) (by decide) hs
  have hps := strip_prefix hq hpk
  have hne : (strip w).isEmpty = false := by
    obtain ⟨t, ht⟩ := hs
    rw [← ht]
    rfl
  have hcm : startsWith (strip w) (py "COMMENT") = false := by
    obtain ⟨t, ht⟩ := hs
    rw [← ht]
    rfl
  unfold parseLine
  simp only [hne, hcm, hp, Bool.false_eq_true, if_false]
  refine ⟨_, rfl, ?_⟩
  rw [startsWith_iff]
  split
  · rename_i key text heq
    cases heq
    split
    · split
      · exact hps
      · exact hps
    · exact hps
  · exact hps

/-- A written line that does not declare the order of quaternion components. -/
def Undeclaring (w : Str) : Prop := '\n' ∉ w ∧ startsWith w quatKey = false

theorem aem_undeclaring : LineProp (deletedKeywords .Aem) Undeclaring := ⟨⟨by simp, by decide⟩, by unfold Undeclaring; decide⟩
theorem aem_lines : LineProp (deletedKeywords .Aem) (fun w => '\n' ∉ w) := ⟨by simp, by decide⟩

theorem undeclaring_of {ws : List Str} {ls : List Line} (h : ws.filterMap parseLine = ls)
    (hl : ∀ l ∈ ls, startsWith l.key quatKey = false) : ∀ w ∈ ws, startsWith w quatKey = false := by
  intro w hw
  by_contra hc
  rw [Bool.not_eq_false] at hc
  obtain ⟨l, h1, h2⟩ := quat_parsed hc
  rw [hl l (by rw [← h]; exact List.mem_filterMap.mpr ⟨w, hw, h1⟩)] at h2
  cases h2

theorem Writes.toU {D : List Str} {x : Except PyErr (List Str)} {out : List Str} {ls : List Line} (h : Writes x out ls)
    (hd : ∀ l ∈ ls, l.key ∉ D) (hl : ∀ l ∈ ls, startsWith l.key quatKey = false) : WritesM D Undeclaring x out ls := by
  obtain ⟨ws, h1, h2, h3⟩ := h
  exact ⟨ws, h1, by rw [h2, unmarked_self hd], fun w hw => ⟨h3 w hw, undeclaring_of h2 hl w hw⟩⟩

/-- The text written so far declares the order `q` of quaternion components. -/
def QuatOut (q : Str) (out : List Str) : Prop := quatLast out = .ok (decide (q = py "LAST"))

theorem quat_stays (q : Str) : Stays Undeclaring (QuatOut q) := by
  intro out ws h hw
  unfold QuatOut quatLast at *
  rw [List.reverse_append, List.find?_append]
  have : ws.reverse.find? (fun x => startsWith x (py "QUATERNION_TYPE")) = none := by
    rw [List.find?_eq_none]
    intro x hx
    have := (hw x (by simpa using hx)).2
    unfold quatKey at this
    simp [this]
  rw [this]
  exact h

theorem quat_line (q : Str) (hq : q = py "FIRST" ∨ q = py "LAST") (out : List Str) :
    QuatOut q (out ++ [fillKvn (py "quaternion_type") q none]) := by
  unfold QuatOut quatLast
  rw [List.reverse_append]
  rcases hq with rfl | rfl <;> · simp only [List.reverse_singleton, List.singleton_append]
                                 rw [List.find?_cons_of_pos (by decide)]
                                 decide

theorem goodKeys_at {fs : List Field} {kvs : List (Str × Val)} {ls : List Line} (h : GoodKeys fs kvs ls)
    {name : Str} {c : Cls} {s : Str} (hm : (name, .enum c s) ∈ kvs) :
    ∃ fa f fb va vb la lb, fs = fa ++ f :: fb ∧ kvs = va ++ (name, .enum c s) :: vb ∧ f.name = name ∧
      GoodKeys fa va la ∧ GoodKeys fb vb lb := by
  induction h with
  | nil => simp at hm
  | @absent f fs vs ls hl hr ih =>
    rcases List.mem_cons.mp hm with h | h
    · cases h
    · obtain ⟨fa, g, fb, va, vb, la, lb, rfl, rfl, h3, h4, h5⟩ := ih h
      exact ⟨f :: fa, g, fb, (f.name, .none) :: va, vb, la, lb, rfl, rfl, h3, .absent hl h4, h5⟩
  | @value f fs v vs l ls hl hk hr ih =>
    rcases List.mem_cons.mp hm with h | h
    · cases h
      exact ⟨[], f, fs, [], vs, [], ls, rfl, rfl, rfl, .nil, hr⟩
    · obtain ⟨fa, g, fb, va, vb, la, lb, rfl, rfl, h3, h4, h5⟩ := ih h
      exact ⟨f :: fa, g, fb, (f.name, v) :: va, vb, l :: la, lb, rfl, rfl, h3, .value hl hk h4, h5⟩
  | @comments f fs texts vs ls hl hc ht hr ih =>
    rcases List.mem_cons.mp hm with h | h
    · cases h
    · obtain ⟨fa, g, fb, va, vb, la, lb, rfl, rfl, h3, h4, h5⟩ := ih h
      exact ⟨f :: fa, g, fb, _ :: va, vb, _, lb, rfl, rfl, h3, .comments hl hc ht h4, h5⟩

theorem aemKeywords_quat : ∀ k ∈ Cls.keywords .AemMetadata, startsWith k quatKey = true → k = quatKey := by decide +kernel

theorem declares_out {kvs : List (Str × Val)} {lm : List Line} (hm : GoodKeys (Cls.keyAttrs .AemMetadata) kvs lm) {c : Cls} {q : Str}
    (hq : q = py "FIRST" ∨ q = py "LAST") (hk : (py "quaternion_type", .enum c q) ∈ kvs) {out r : List Str}
    (hr : collateSub (py "metadata") out (.obj .AemMetadata kvs) = .ok r) : QuatOut q r := by
  obtain ⟨fa, f, fb, va, vb, la, lb, hfs, hkv, hf, h4, h5⟩ := goodKeys_at hm hk
  have hkey := (keyed aemMetadata_regular.members aemMetadata_regular.value aemMetadata_regular.user).field
  rw [hfs] at hkey
  have hnd := aemMetadata_facts.2.2
  rw [hfs, List.map_append, List.map_cons, List.nodup_append] at hnd
  have hfu : upper f.name = quatKey := by rw [hf]; decide
  have hvars : ∀ o, ∃ r', collateVars o kvs = .ok r' ∧ QuatOut q r' := by
    intro o
    obtain ⟨wa, ha, -, -⟩ := write_keys (fun g hg => hkey g (by simp [hg])) h4 o
    obtain ⟨wb, hb, hb2, hb3⟩ := write_keys (fun g hg => hkey g (by simp [hg])) h5 (o ++ wa ++ [fillKvn (py "quaternion_type") q none])
    refine ⟨_, ?_, quat_stays q _ wb (quat_line q hq (o ++ wa)) fun w hw => ⟨hb3 w hw, undeclaring_of hb2 ?_ w hw⟩⟩
    · rw [hkv, collateVars_append, ha]
      have : collateSub (py "quaternion_type") (o ++ wa) (.enum c q) = .ok (o ++ wa ++ [fillKvn (py "quaternion_type") q none]) := by
        simp only [collateSub]
        rfl
      simp only [Except.bind, collateVars, this, bind]
      exact hb
    · intro l hl
      have hlk := (goodKeys_key h5.text l hl).1
      by_contra hc
      rw [Bool.not_eq_false] at hc
      have := aemKeywords_quat l.key (by
        unfold Cls.keywords
        rw [hfs]
        simp only [List.map_append, List.map_cons, List.mem_append, List.mem_cons]
        exact .inr (.inr hlk)) hc
      rw [this] at hlk
      rw [← hfu] at hlk
      exact (List.nodup_cons.mp hnd.2.1).1 hlk
  have hhn : headerName .AemMetadata = some (py "META") := by decide
  have hu : kvs.any (·.1 == py "units") = false := by
    rw [any_units (fs := Cls.keyAttrs .AemMetadata) (goodKeys_names hm), List.any_eq_false]
    intro f hf
    have := (aemMetadata_regular.toBindable.attr f (by rw [aemMetadata_regular.toBindable.order]; simp [hf])).2.1
    simpa using this
  have n1 : py "metadata" ≠ py "comment" := by decide
  have n2 : py "metadata" ≠ py "user_defined" := by decide
  have n3 : isSpecialOut .AemMetadata = false := by decide
  obtain ⟨r', h1, h2⟩ := hvars (out ++ [beginLine (py "META"), []])
  simp only [collateSub, hhn, withHeader, n1, n2, n3, hu, Bool.false_eq_true, if_false, h1, bind, Except.bind, Except.map,
    pure, Except.pure, Except.ok.injEq] at hr
  subst hr
  refine quat_stays q _ _ ?_ (by
    intro w hw
    simp only [List.mem_cons, List.not_mem_nil, or_false] at hw
    rcases hw with rfl | rfl <;> exact ⟨by decide, by decide⟩)
  split
  · exact quat_stays q _ _ h2 (by
      intro w hw
      simp only [List.mem_cons, List.not_mem_nil, or_false] at hw
      subst hw
      exact ⟨by decide, by decide⟩)
  · exact h2

/-! ### Attitude states -/

theorem write_quatOrder {qc q1 q2 q3 : Dec} {q : Str} {ds : List Dec} (h : QuaternionOrder qc q1 q2 q3 q ds) {out : List Str}
    (hq : QuatOut q out) (c : Cls) (hc : c ≠ .QuaternionEulerRateType ∧ c ≠ .QuaternionDerivativeType) (rest : List (List (Str × Val))) :
    quaternionLine c ([(py "qc", .dec qc), (py "q1", .dec q1), (py "q2", .dec q2), (py "q3", .dec q3)] :: rest) out =
      .ok (ds.map Dec.toStr) := by
  unfold quaternionLine
  unfold QuatOut at hq
  rw [hq]
  cases h <;> simp only [bind, Except.bind, hc.1, hc.2, if_false, pure, Except.pure] <;> rfl

theorem write_quatRates {qc q1 q2 q3 r₁ r₂ r₃ : Dec} {a₁ a₂ a₃ : Char} {q : Str} {ds : List Dec}
    (h : QuaternionOrder qc q1 q2 q3 q ds) {out : List Str} (hq : QuatOut q out) {vs : List (Str × Val)}
    (hv : rotationRates a₁ a₂ a₃ r₁ r₂ r₃ = .obj .RotationRateType vs) :
    quaternionLine .QuaternionEulerRateType [[(py "qc", .dec qc), (py "q1", .dec q1), (py "q2", .dec q2), (py "q3", .dec q3)], vs] out =
      .ok ((ds ++ [r₁, r₂, r₃]).map Dec.toStr) := by
  unfold quaternionLine
  unfold QuatOut at hq
  rw [hq]
  cases hv
  cases h <;> simp only [bind, Except.bind, if_true, pure, Except.pure] <;> rfl

theorem attitude_out {D : AttitudeDecl} {e : Str} {ds : List Dec} {v : Val} (h : Attitude D e ds v) (htok : ∀ t ∈ e :: ds.map Dec.toStr, Token t)
    {out : List Str} (hq : D.type ∈ [py "QUATERNION", py "QUATERNION/RATE"] → QuatOut D.quaternion out) :
    ∃ vs, v = .obj .AttitudeStateType vs ∧ writeAttitude vs out = .ok [joinWith (py "  ") (e :: ds.map Dec.toStr)] := by
  have hfill := fillSingle_tokens (by simp) htok
  cases h with
  | @quaternion qc q1 q2 q3 ds hty ho =>
    refine ⟨_, rfl, ?_⟩
    have hl := write_quatOrder ho (hq (by simp [hty])) .QuaternionEphemerisType (by decide) []
    show Except.bind (quaternionLine .QuaternionEphemerisType [[(py "qc", .dec qc), (py "q1", .dec q1), (py "q2", .dec q2), (py "q3", .dec q3)]] out)
      (fun line => Except.bind (fillSingle (e :: line)) fun l => .ok [l]) = _
    rw [hl]
    simp only [Except.bind, hfill]
  | @quaternionRate qc q1 q2 q3 ds a₁ a₂ a₃ r₁ r₂ r₃ hty ho hax =>
    refine ⟨_, rfl, ?_⟩
    have hl := write_quatRates ho (hq (by simp [hty])) (a₁ := a₁) (a₂ := a₂) (a₃ := a₃) (r₁ := r₁) (r₂ := r₂) (r₃ := r₃) rfl
    show Except.bind (quaternionLine .QuaternionEulerRateType [[(py "qc", .dec qc), (py "q1", .dec q1), (py "q2", .dec q2), (py "q3", .dec q3)], _] out)
      (fun line => Except.bind (fillSingle (e :: line)) fun l => .ok [l]) = _
    rw [hl]
    simp only [Except.bind, hfill]
  | @eulerAngle a₁ a₂ a₃ d₁ d₂ d₃ hty hax =>
    refine ⟨_, rfl, ?_⟩
    show Except.bind (fillSingle (e :: [d₁, d₂, d₃].map Dec.toStr)) (fun l => .ok [l]) = _
    rw [hfill]
    rfl
  | @eulerAngleRate a₁ a₂ a₃ d₁ d₂ d₃ r₁ r₂ r₃ hty hax =>
    refine ⟨_, rfl, ?_⟩
    show Except.bind (fillSingle (e :: [d₁, d₂, d₃, r₁, r₂, r₃].map Dec.toStr)) (fun l => .ok [l]) = _
    rw [hfill]
    rfl

theorem aem_notMarker {k : Str} (h : k = py "COMMENT" ∨ k ∈ Cls.keywords .AemMetadata ∨ letterHead k = false ∨
    k ∈ Cls.keywords .NdmHeader) : k ∉ deletedKeywords .Aem := by
  have h1 : ∀ k ∈ deletedKeywords .Aem, k ≠ py "COMMENT" ∧ k ∉ Cls.keywords .AemMetadata ∧ letterHead k = true ∧
    k ∉ Cls.keywords .NdmHeader := by decide +kernel
  intro hk
  obtain ⟨a, b, c, d⟩ := h1 k hk
  rcases h with h | h | h | h
  · exact a h
  · exact b h
  · rw [c] at h; cases h
  · exact d h

theorem write_attitude {D : AttitudeDecl} {v : Val} {l : List Line} (h : AttitudeState D v l) (key : Str) {out : List Str}
    (hq : D.type ∈ [py "QUATERNION", py "QUATERNION/RATE"] → QuatOut D.quaternion out) :
    WritesM (deletedKeywords .Aem) Undeclaring (collateObj key out v) out l := by
  have hline := attitude_line h.read
  cases h with
  | @mk e ds v he hty hpl ha =>
    have htok : ∀ t ∈ e :: ds.map Dec.toStr, Token t := by
      intro t ht
      rcases List.mem_cons.mp ht with rfl | ht
      · exact he.token
      · obtain ⟨d, -, rfl⟩ := List.mem_map.mp ht
        exact token_dec d
    obtain ⟨vs, rfl, hw⟩ := attitude_out ha htok hq
    have hso : isSpecialOut .AttitudeStateType = true := by decide
    have hws : writeSpecial key .AttitudeStateType vs out = .ok [joinWith (py "  ") (e :: ds.map Dec.toStr)] := hw
    simp only [collateObj, hso, if_true, hws, bind, Except.bind, pure, Except.pure]
    obtain ⟨c, r, hcr, hdig⟩ := he.firstDigit
    have hhead : ∃ r', joinWith (py "  ") (e :: ds.map Dec.toStr) = c :: r' := by
      rw [hcr]
      cases ds with
      | nil => exact ⟨r, rfl⟩
      | cons d ds =>
        exact ⟨r ++ py "  " ++ joinWith (py "  ") ((d :: ds).map Dec.toStr), by simp only [List.map_cons, joinWith, List.cons_append]⟩
    obtain ⟨s, hs, hl, -⟩ := hline
    refine .line (parseLine_tokens (by simp) htok ?_) ?_ ⟨tokens_noNewline htok, ?_⟩
    · intro c' r' hc
      simp only [List.head?_cons, Option.some.injEq] at hc
      rw [hcr] at hc
      injection hc with hc _
      subst hc
      exact hdig.ne (by unfold DigitC; decide)
    · simp only [List.cons.injEq, and_true] at hs
      rw [hs]
      exact aem_notMarker (.inr (.inr (.inl hl)))
    · obtain ⟨r', hr'⟩ := hhead
      rw [hr', ← Bool.not_eq_true, startsWith_iff]
      rintro ⟨t, ht⟩
      have : c = 'Q' := by
        have := congrArg List.head? ht
        simp only [List.head?_cons] at this
        have h2 : (quatKey ++ t).head? = some 'Q' := rfl
        rw [h2] at this
        simpa using this.symm
      subst this
      exact hdig.ne (d := 'Q') (by unfold DigitC; decide) rfl

theorem write_aemData {D : AttitudeDecl} {v : Val} {l : List Line} (h : AemDataOk (AttitudeState D) v l) {out : List Str}
    (hq : D.type ∈ [py "QUATERNION", py "QUATERNION/RATE"] → QuatOut D.quaternion out) :
    WritesM (deletedKeywords .Aem) Undeclaring (collateSub (py "data") out v) out l := by
  have hstay : Stays Undeclaring (fun o => D.type ∈ [py "QUATERNION", py "QUATERNION/RATE"] → QuatOut D.quaternion o) :=
    fun o ws h hw ht => quat_stays _ o ws (h ht) hw
  cases h with
  | @mk texts sts lo ht hlen hne hst =>
    refine write_nested aem_undeclaring (by decide) (by decide) rfl (by decide) fun ws hws => ?_
    simp only [collateVars]
    refine ((write_comments ht _).toU ?_ ?_).thenRun fun ws2 hws2 => ?_
    · intro l hl
      obtain ⟨t, -, rfl⟩ := List.mem_map.mp hl
      exact aem_notMarker (.inl rfl)
    · intro l hl
      obtain ⟨t, -, rfl⟩ := List.mem_map.mp hl
      rfl
    · have := (write_many aem_undeclaring hstay (c := .AttitudeStateType) (key := py "attitude_state") (by decide)
        (by decide) (fun x l hx => (attitude_line hx.read).choose_spec.2.2.2.2.2) (fun x l out hx hq => write_attitude hx _ hq) hst
        (out := out ++ ws ++ ws2) (hstay _ _ (hstay _ _ hq hws) hws2)).thenRun (f := fun o => .ok o) (l2 := []) fun ws _ => .nil _
      rw [List.append_nil] at this
      exact this

theorem Attitude.order {D : AttitudeDecl} {e : Str} {ds : List Dec} {v : Val} (h : Attitude D e ds v)
    (hq : D.type ∈ [py "QUATERNION", py "QUATERNION/RATE"]) : D.quaternion = py "FIRST" ∨ D.quaternion = py "LAST" := by
  have aux : ∀ {qc q1 q2 q3 : Dec} {q : Str} {ds : List Dec}, QuaternionOrder qc q1 q2 q3 q ds → q = py "FIRST" ∨ q = py "LAST" := by
    intro _ _ _ _ q ds h
    cases h
    · exact .inl rfl
    · exact .inr rfl
  cases h with
  | quaternion _ ho => exact aux ho
  | quaternionRate _ ho => exact aux ho
  | eulerAngle ht => rw [ht] at hq; exact absurd hq (by decide)
  | eulerAngleRate ht => rw [ht] at hq; exact absurd hq (by decide)

theorem write_aemSegments {segs : List Val} {ls : List Line} (h : AemSegments AttitudeState segs ls) (out : List Str) :
    WritesM (deletedKeywords .Aem) (fun w => '\n' ∉ w) (collateSub (py "segment") out (.list segs)) out ls := by
  have heach : Each (fun x l => ∃ D m lm d ld, x = aemSegment m d ∧ l = lm ++ ld ∧
      KeyBlock .AemMetadata m lm ∧ Declares D m ∧ AemDataOk (AttitudeState D) d ld) segs ls := by
    induction h with
    | nil => exact .nil
    | @cons D m lm d ld segs ls hm hdec hd _ _ ih => exact .cons ⟨D, m, lm, d, ld, rfl, rfl, hm, hdec, hd⟩ ih
  refine write_many aem_lines stays_true (c := .AemSegment) (by decide) (by decide) ?_ ?_ heach trivial
  · rintro x l ⟨D, m, lm, d, ld, rfl, -⟩
    exact ⟨_, rfl⟩
  · rintro x l out ⟨D, m, lm, d, ld, rfl, rfl, hm, hdec, hd⟩ -
    have hso : isSpecialOut .AemSegment = false := by decide
    simp only [aemSegment, collateObj, hso, Bool.false_eq_true, if_false]
    refine WritesM.blank (by simp) ?_ _
    simp only [collateVars]
    obtain ⟨ws, hx, hu, hn⟩ := write_keyBlock aemMetadata_regular.toBindable (by decide)
      (fun _ hk => aem_notMarker (.inr (.inl hk))) aem_lines (by decide) aemMetadata_facts.1 (by decide) hm out
      (key := py "metadata")
    have hquat : D.type ∈ [py "QUATERNION", py "QUATERNION/RATE"] → QuatOut D.quaternion (out ++ ws) := by
      intro ht
      obtain ⟨e, ds, w, ha⟩ := (aemData_lines (hd.mono fun _ _ h => h.read)).2.2.2.1
      cases hm with
      | @mk kvs lm hk _ _ =>
        cases hdec with
        | mk h1 h2 h3 => exact declares_out hk (ha.order ht) (h2 ht) hx
    obtain ⟨ws', hx', hu', hn'⟩ := write_aemData hd hquat
    refine ⟨ws ++ ws', ?_, ?_, ?_⟩
    · simp only [bind, Except.bind, hx, hx']
      simp
    · rw [List.filterMap_append, unmarked_append, hu, hu']
    · intro w hw
      rcases List.mem_append.mp hw with hw | hw
      · exact hn w hw
      · exact (hn' w hw).1

theorem write_aem {h : Val} {lh ls : List Line} {segs : List Val} (hh : KeyBlock .NdmHeader h lh)
    (hs : AemSegments AttitudeState segs ls) : ∃ text raw, kvnToString (aem h segs) = .ok text ∧
      (splitChar '\n' text).filterMap parseLine = [py "CCSDS_AEM_VERS", py "1.0"] :: raw ∧ deleteMarkers .Aem raw = lh ++ ls := by
  have hk : (Cls.Aem, py "CCSDS_AEM_VERS", py "1.0") ∈ messageKinds := by decide
  have hroot := rootCls hk
  refine write_marked hroot ?_
  simp only [collateVars]
  refine (write_keyBlock ndmHeader_regular.toBindable (by decide) (fun k hk => aem_notMarker (.inr (.inr (.inr hk))))
    aem_lines (by decide) ndmHeader_facts.1 (by decide) hh _).thenRun fun ws _ => ?_
  have hbody : WritesM (deletedKeywords .Aem) (fun w => '\n' ∉ w)
      (collateSub (py "body") ([fillKvn (py "CCSDS_AEM_VERS") (py "1.0") none] ++ ws)
        (.obj .AemBody [(py "segment", .list segs)])) ([fillKvn (py "CCSDS_AEM_VERS") (py "1.0") none] ++ ws) ls := by
    refine write_nested aem_lines (by decide) (by decide) rfl (by decide) fun ws' _ => ?_
    simp only [collateVars]
    have := (write_aemSegments hs ([fillKvn (py "CCSDS_AEM_VERS") (py "1.0") none] ++ ws ++ ws')).thenRun
      (f := fun o => .ok o) (l2 := []) fun ws _ => .nil _
    rw [List.append_nil] at this
    exact this
  have := hbody.thenRun (f := fun o => .ok o) (l2 := []) fun ws _ => .nil _
  rw [List.append_nil] at this
  exact this

theorem aem_round_trip {o : Val} (h : WellFormedAem o) : ∃ text, kvnToString o = .ok text ∧ kvnFromString text = .ok o := by
  cases h with
  | @mk h lh segs ls hh hne hs =>
    obtain ⟨text, raw, h1, h2, h3⟩ := write_aem hh hs
    exact ⟨text, h1, read_aem (ver₀ := py "1.0") (by decide) (isOk_unit (by decide)) h2 h3 hh.spelled (hs.mono fun _ _ _ h => h.read) hne⟩

end Ndm
