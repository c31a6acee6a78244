import Verif.Lemmas.Eph

/-! Reading the lines of an OEM. -/

namespace Ndm

/-- The first character is an upper-case letter, as in every keyword. -/
def letterHead (k : Str) : Bool :=
  match k with
  | c :: _ => isAsciiUpper c
  | [] => false

theorem schema_letters : (Cls.all.all fun c => c.members.isSome || c.isValueClass ||
    c.keyAttrs.all fun f => letterHead (upper f.name)) = true := by decide +kernel

theorem keyword_letter {c : Cls} (ho : Bindable c) {k : Str} (h : k ∈ c.keywords) : letterHead k = true := by
  have := all_classes schema_letters c
  rw [ho.members, ho.value] at this
  simp only [Option.isSome_none, Bool.or_self, Bool.false_or, List.all_eq_true] at this
  obtain ⟨f, hf, rfl⟩ := List.mem_map.mp h
  exact this f hf

theorem not_keyword {c : Cls} (ho : Bindable c) {k : Str} (h : letterHead k = false) : k ∉ c.keywords := by
  intro hm
  rw [keyword_letter ho hm] at h
  cases h

theorem not_comment {k : Str} (h : letterHead k = false) : k ≠ py "COMMENT" := by
  rintro rfl
  revert h; decide

theorem extract_leaf {c : Cls} (ho : Bindable c) (hb : c.blockFields = []) (k : Nat) (name : Str) (il : Bool) :
    extract (k + 1) name c il = { name, cls := c, subs := [], kw := c.keywords, isList := il } := by
  have hkey := keyed ho.members ho.value ho.user
  simp only [extract, ho.value, Bool.false_eq_true, if_false, hkey.kw, hb]
  rfl

/-! ### Data lines that begin with a date -/

theorem pyGet_mid {α : Type} (pre : List α) (x : α) (rest : List α) : pyGet (pre ++ x :: rest) pre.length = .ok x := by
  unfold pyGet
  rw [List.getElem?_append_right (Nat.le_refl _)]
  simp

theorem date_range {e : Elem} (hc : e.cls = .StateVectorAccType ∨ e.cls = .AttitudeStateType) {s : Str} {r : Line}
    {t : Str} {ts : List Str} (hw : words s = t :: ts) {b : Bool} (hb : isDateStr t = .ok b) (keys : List Str)
    (pre rest : List Line) :
    rootRange e keys (pre ++ (s :: r) :: rest) pre.length =
      .ok (if b then (pre.length, pre.length + 1) else (pre.length, pre.length), e.kw) := by
  have hi : isSpecialIdent e.cls = true := by rcases hc with h | h <;> rw [h] <;> decide
  have hb2 : (decide (e.cls = .StateVectorAccType) || decide (e.cls = .AttitudeStateType)) = true := by simpa using hc
  unfold rootRange identifySpecial
  rw [hi, hb2]
  simp only [if_true, bind, Except.bind, pyGet_mid, pure, Except.pure]
  have h0 : pyGet (s :: r) 0 = .ok s := rfl
  have h1 : pyGet (words s) 0 = .ok t := by rw [hw]; rfl
  simp only [h0, h1, hb]

theorem stop_date {e : Elem} (hc : e.cls = .StateVectorAccType ∨ e.cls = .AttitudeStateType) (hs : e.subs = []) {s : Str}
    {r : Line} {t : Str} {ts : List Str} (hw : words s = t :: ts) (hb : isDateStr t = .ok false) (rest : List Line) :
    StopAt e ((s :: r) :: rest) := by
  intro pre
  rw [identElem_eq, date_range hc hw hb]
  simp only [Except.bind, hs, identSubs]
  exact ⟨_, _, _, rfl, .inl ⟨rfl, rfl⟩⟩

/-! ### State vectors -/

/-- An epoch followed by numbers. -/
def epochFields (as : List (Str × Cls)) : List Field → Bool
  | f :: fs => decide (f.name = py "epoch") && decide (f.ty = .str) && !f.isList && numberFields as fs
  | [] => false

theorem epoch_keys {as : List (Str × Cls)} {fs : List Field} (h : epochFields as fs = true) {e : Str} (he : XmlText e)
    {ts : List Str} {ds : List Dec} (hs : List.Forall₂ Spells ts ds) (hd : ds.length ≤ as.length) :
    KeysOf KeyText fs ((py "epoch", .str e) :: numbered as ds)
      (zipLines (fs.map fun f => upper f.name) (e :: ts)) := by
  cases fs with
  | nil => cases h
  | cons f fs =>
    simp only [epochFields, Bool.and_eq_true, decide_eq_true_eq, Bool.not_eq_true'] at h
    obtain ⟨⟨⟨h1, h2⟩, h3⟩, h4⟩ := h
    have := KeysOf.value h3 (KeyText.str (f := f) (s := e) (by rw [h2]; simp) (by rw [h2]; exact .str e) he)
      (numbered_keys h4 hs hd)
    rw [h1] at this
    simp only [List.map_cons, h1]
    exact this

theorem sv_bindable : Bindable .StateVectorAccType := bindable_iff (by decide +kernel)
theorem sv_blocks : Cls.blockFields .StateVectorAccType = [] ∧ Cls.blockAttrs .StateVectorAccType = [] := by decide +kernel
theorem sv_fields : epochFields stateAttrs (Cls.keyAttrs .StateVectorAccType) = true := by decide +kernel

theorem stateVector_tokens {e : Str} {ds : List Dec} (he : DateText e) : ∀ t ∈ e :: ds.map Dec.toStr, Token t := by
  intro t ht
  rcases List.mem_cons.mp ht with rfl | ht
  · exact he.token
  · obtain ⟨d, -, rfl⟩ := List.mem_map.mp ht
    exact token_dec d

/-- What is written for a state vector states it. -/
theorem StateVector.text {v : Val} {l : List Line} (h : StateVector v l) : StateText v l := by
  cases h with
  | @mk e ds he h6 h9 =>
    refine .mk he (words_tokens_join (stateVector_tokens he)) ?_ (spells_toStr ds) h9
    cases ds with
    | nil => simp at h6
    | cons d ds => exact joinWith_blank

theorem read_stateVector {v : Val} {l post : List Line} (h : StateText v l) (k : Nat) (name : Str) (il : Bool) :
    ItemRead 1 (extract (k + 1) name .StateVectorAccType il) v l post := by
  cases h with
  | @mk e s ts ds he hw hb hs hlen =>
    rw [extract_leaf sv_bindable sv_blocks.1]
    refine item_special (syn := zipLines (Cls.keywords .StateVectorAccType) (e :: ts)) sv_bindable sv_blocks.2
      rfl rfl (by decide) ?_ (by simp) ?_ ?_
    · intro pre
      rw [List.append_assoc, List.singleton_append, date_range (.inl rfl) hw he.isDate]
      simp
    · intro keys lines mm hi
      unfold sectionDoc
      simp only [reduceCtorEq, if_false, if_true, stateVectorLines, bind, Except.bind]
      have h0 : ∀ s : Str, pyGet [[s]] 0 = .ok [s] := fun _ => rfl
      have h1 : ∀ s : Str, pyGet [s] 0 = .ok s := fun _ => rfl
      simp only [h0, h1, hw, pure, Except.pure]
      cases xmlifyList name (zipLines (Cls.keywords .StateVectorAccType) (e :: ts)) none <;> rfl
    · exact epoch_keys sv_fields he.asPlain.xml hs hlen

/-! ### Covariance matrices -/

theorem cov_bindable : Bindable .OemCovarianceMatrixType := bindable_iff (by decide +kernel)
theorem cov_blocks : Cls.blockFields .OemCovarianceMatrixType = [] ∧ Cls.blockAttrs .OemCovarianceMatrixType = [] := by
  decide +kernel

/-- Comments, an epoch, a reference frame and numbers. -/
def matrixFields (as : List (Str × Cls)) : List Field → Bool
  | fc :: fe :: fr :: fs => decide (fc.name = py "comment") && fc.isList && decide (fe.name = py "epoch") &&
      decide (fe.ty = .str) && !fe.isList && decide (fr.name = py "cov_ref_frame") && !fr.isList && numberFields as fs
  | _ => false

theorem cov_fields : matrixFields covarianceAttrs (Cls.keyAttrs .OemCovarianceMatrixType) = true := by decide +kernel

theorem matrix_keys {as : List (Str × Cls)} {fs : List Field} (h : matrixFields as fs = true) {e : Str} (he : XmlText e)
    {ts : List Str} {ds : List Dec} (hs : List.Forall₂ Spells ts ds) (hd : ds.length ≤ as.length) :
    KeysOf KeyText fs ((py "comment", .list []) :: (py "epoch", .str e) :: (py "cov_ref_frame", .none) :: numbered as ds)
      ([py "EPOCH", e] :: zipLines ((fs.map fun f => upper f.name).drop 3) ts) := by
  match fs, h with
  | fc :: fe :: fr :: fs, h =>
    simp only [matrixFields, Bool.and_eq_true, decide_eq_true_eq, Bool.not_eq_true'] at h
    obtain ⟨⟨⟨⟨⟨⟨⟨h1, h2⟩, h3⟩, h4⟩, h5⟩, h6⟩, h7⟩, h8⟩ := h
    have h9 : upper (py "epoch") = py "EPOCH" := by decide
    have := KeysOf.comments (texts := []) h2 h1 (by simp)
      (.value h5 (KeyText.str (f := fe) (s := e) (by rw [h4]; simp) (by rw [h4]; exact .str e) he)
        (.absent h7 (numbered_keys h8 hs hd)))
    rw [h1, h3, h6, h9] at this
    exact this

theorem zipLines_epoch (e : Str) (kw : List Str) (vs : List Str) :
    zipLines (py "EPOCH" :: kw) (e :: vs) = [py "EPOCH", e] :: zipLines kw vs := rfl

theorem flatten_lowerTriangle {α : Type} {l : List α} (h : l.length = 21) : (lowerTriangle l).flatten = l := by
  have e : ∀ (a b : Nat), l.drop a = (l.drop a).take b ++ l.drop (a + b) := by
    intro a b
    rw [← List.drop_drop, List.take_append_drop]
  have e0 := e 0 1
  have e1 := e 1 2
  have e2 := e 3 3
  have e3 := e 6 4
  have e4 := e 10 5
  have e5 := e 15 6
  have e6 : l.drop (15 + 6) = [] := List.drop_eq_nil_of_le (by omega)
  rw [List.drop_zero] at e0
  simp only [lowerTriangle, List.flatten_cons, List.flatten_nil]
  rw [e6] at e5
  rw [← e5, ← e4, ← e3, ← e2, ← e1, ← e0]

theorem lowerTriangle_mem {α : Type} {l : List α} (h : l.length = 21) : ∀ row ∈ lowerTriangle l, row ≠ [] ∧ ∀ x ∈ row, x ∈ l := by
  intro row hr
  simp only [lowerTriangle, List.mem_cons, List.not_mem_nil, or_false] at hr
  have key : ∀ a b : Nat, a < 21 → 0 < b → (l.drop a).take b ≠ [] ∧ ∀ x ∈ (l.drop a).take b, x ∈ l := by
    intro a b ha hb
    refine ⟨?_, fun x hx => List.mem_of_mem_drop (List.mem_of_mem_take hx)⟩
    intro h0
    have := congrArg List.length h0
    rw [List.length_take, List.length_drop, List.length_nil] at this
    omega
  rcases hr with rfl | rfl | rfl | rfl | rfl | rfl
  · simpa using key 0 1 (by omega) (by omega)
  · exact key 1 2 (by omega) (by omega)
  · exact key 3 3 (by omega) (by omega)
  · exact key 6 4 (by omega) (by omega)
  · exact key 10 5 (by omega) (by omega)
  · exact key 15 6 (by omega) (by omega)

theorem floatOk_fin (neg : Bool) (coef : Nat) (exp : Int) : floatOk (Dec.toStr (.fin neg coef exp)) = true := by
  have hnum := dec_toStr_num (.fin neg coef exp)
  have hu : ∀ c ∈ Dec.toStr (.fin neg coef exp), c ≠ '_' := fun c hc => (hnum c hc).plain.2.1
  have hstrip : strip (Dec.toStr (.fin neg coef exp)) = Dec.toStr (.fin neg coef exp) :=
    strip_noSpace fun c hc => (hnum c hc).plain.1
  unfold floatOk
  simp only [hstrip, underscoresOk_none hu, Bool.not_true, Bool.false_eq_true, if_false, filter_no_us hu]
  have hsign : takeSign (Dec.toStr (.fin neg coef exp)) = (neg, Dec.body coef exp) := by
    rw [dec_toStr_fin]
    obtain ⟨c, r, hb, hc⟩ := body_head coef exp
    rw [hb]
    exact takeSign_sign (hc.ne (by unfold DigitC; decide)) (hc.ne (by unfold DigitC; decide))
  rw [hsign]
  have hparse : (parseNumber neg (Dec.body coef exp)).isSome = true := by
    have h := dec_parse_toStr (.fin neg coef exp)
    unfold Dec.parse at h
    simp only [hstrip, filter_no_us hu, hsign] at h
    obtain ⟨c, r, hb, hc⟩ := body_head coef exp
    rw [hb] at h ⊢
    split at h
    · cases h
    · split at h
      · cases h
      · split at h
        · cases h
        · rw [h]; rfl
  simp [hparse]

/-- A token that starts with a digit or a sign. -/
theorem finite_head {d : Dec} (h : d.Finite) : letterHead d.toStr = false ∧ isAlpha d.toStr = false ∧ floatOk d.toStr = true := by
  cases d with
  | inf neg => cases h
  | nan neg s p => cases h
  | fin neg coef exp =>
    refine ⟨?_, ?_, floatOk_fin neg coef exp⟩
    · rw [dec_toStr_fin]
      obtain ⟨c, r, hb, hc⟩ := body_head coef exp
      rw [hb]
      cases neg with
      | true => rfl
      | false =>
        show isAsciiUpper c = false
        unfold DigitC at hc
        unfold isAsciiUpper
        simp
        omega
    · rw [dec_toStr_fin]
      obtain ⟨c, r, hb, hc⟩ := body_head coef exp
      rw [hb]
      have : ∀ x ∈ signStr neg ++ c :: r, x = c → (if isAscii x then isAsciiUpper x || isAsciiLower x else uniIsAlpha x) = false := by
        rintro x - rfl
        unfold DigitC at hc
        have : isAscii x = true := by unfold isAscii; simp; omega
        rw [if_pos this]
        unfold isAsciiUpper isAsciiLower
        simp
        omega
      unfold isAlpha
      rw [Bool.and_eq_false_iff]
      right
      rw [List.all_eq_false]
      exact ⟨c, by simp, by rw [this c (by simp) rfl]; simp⟩

theorem isAlpha_join {t : Str} {ts : List Str} (h : isAlpha t = false) (hne : t ≠ []) : isAlpha (joinWith (py "  ") (t :: ts)) = false := by
  have ht : t.all (fun c => if isAscii c then isAsciiUpper c || isAsciiLower c else uniIsAlpha c) = false := by
    unfold isAlpha at h
    rw [isEmpty_false hne] at h
    simpa using h
  unfold isAlpha
  rw [Bool.and_eq_false_iff]
  right
  rw [List.all_eq_false] at ht ⊢
  obtain ⟨x, hx, h⟩ := ht
  refine ⟨x, ?_, h⟩
  cases ts with
  | nil => exact hx
  | cons u us => simp only [joinWith, List.mem_append]; exact .inl (.inl hx)

theorem letterHead_join {t : Str} {ts : List Str} (hne : t ≠ []) : letterHead (joinWith (py "  ") (t :: ts)) = letterHead t := by
  have := joinWith_head (sep := py "  ") (ts := ts) hne
  cases t with
  | nil => exact absurd rfl hne
  | cons c r =>
    cases hj : joinWith (py "  ") ((c :: r) :: ts) with
    | nil => rw [hj] at this; simp at this
    | cons a b =>
      rw [hj] at this
      simp at this
      subst this
      rfl

theorem finite_start {d : Dec} (h : d.Finite) : ∃ c r, d.toStr = c :: r ∧ (isAsciiDigit c = true ∨ c ∈ ['+', '-', '.']) := by
  cases d with
  | inf neg => cases h
  | nan neg s p => cases h
  | fin neg coef exp =>
    rw [dec_toStr_fin]
    obtain ⟨c, r, hb, hc⟩ := body_head coef exp
    rw [hb]
    cases neg with
    | true => exact ⟨'-', c :: r, rfl, .inr (by decide)⟩
    | false =>
      refine ⟨c, r, rfl, .inl ?_⟩
      unfold DigitC at hc
      simp only [isAsciiDigit, Bool.and_eq_true, decide_eq_true_eq]
      exact hc

theorem element_toStr {ds : List Dec} (hf : ∀ d ∈ ds, d.Finite) : List.Forall₂ Element (ds.map Dec.toStr) ds := by
  induction ds with
  | nil => exact .nil
  | cons d ds ih =>
    refine .cons ⟨⟨dec_parse_toStr d, num_xml (dec_toStr_num d)⟩, (finite_head (hf d (by simp))).2.2, finite_start (hf d (by simp))⟩
      (ih fun d hd => hf d (by simp [hd]))

/-- The row begins with a number, as `float` understands it, that begins with a digit, a sign or the point. -/
def RowText (s : Str) : Prop :=
  letterHead s = false ∧ isAlpha s = false ∧ ∃ t ts, words s = t :: ts ∧ floatOk t = true

theorem wordsGo_head {cur : Str} (hcur : cur ≠ []) : ∀ {s t : Str} {ts : List Str}, wordsGo cur s = t :: ts →
    ∃ w, t = cur.reverse ++ w := by
  intro s
  induction s generalizing cur with
  | nil =>
    intro t ts h
    simp only [wordsGo, List.isEmpty_iff, if_neg hcur, List.cons.injEq] at h
    exact ⟨[], by rw [← h.1, List.append_nil]⟩
  | cons c s ih =>
    intro t ts h
    rw [wordsGo] at h
    cases hc : isSpace c with
    | true =>
      rw [hc, if_pos rfl, if_neg (by simpa using hcur)] at h
      simp only [List.cons.injEq] at h
      exact ⟨[], by rw [← h.1, List.append_nil]⟩
    | false =>
      rw [hc, if_neg (by simp)] at h
      obtain ⟨w, rfl⟩ := ih (by simp) h
      exact ⟨c :: w, by simp⟩

theorem words_head {s t : Str} {ts : List Str} (h : words s = t :: ts) : ∃ c r, s = c :: r ∧ (isSpace c = true ∨ ∃ w, t = c :: w) := by
  cases s with
  | nil => cases h
  | cons c r =>
    refine ⟨c, r, rfl, ?_⟩
    cases hc : isSpace c with
    | true => exact .inl rfl
    | false =>
      right
      unfold words at h
      rw [wordsGo, hc, if_neg (by simp)] at h
      obtain ⟨w, rfl⟩ := wordsGo_head (by simp) h
      exact ⟨w, rfl⟩

theorem wordsGo_chars {cur : Str} : ∀ {s t : Str}, t ∈ wordsGo cur s → ∀ c ∈ t, c ∈ cur ∨ c ∈ s := by
  intro s
  induction s generalizing cur with
  | nil =>
    intro t h c hc
    rw [wordsGo] at h
    split at h
    · cases h
    · simp only [List.mem_singleton] at h
      subst h
      exact .inl (by simpa using hc)
  | cons x s ih =>
    intro t h c hc
    rw [wordsGo] at h
    split at h
    · split at h
      · rcases ih h c hc with h' | h'
        · cases h'
        · exact .inr (List.mem_cons_of_mem _ h')
      · rcases List.mem_cons.mp h with rfl | h
        · exact .inl (by simpa using hc)
        · rcases ih h c hc with h' | h'
          · cases h'
          · exact .inr (List.mem_cons_of_mem _ h')
    · rcases ih h c hc with h' | h'
      · rcases List.mem_cons.mp h' with rfl | h'
        · exact .inr (by simp)
        · exact .inl h'
      · exact .inr (List.mem_cons_of_mem _ h')

theorem start_upper {c : Char} (h : isSpace c = true ∨ isAsciiDigit c = true ∨ c ∈ ['+', '-', '.']) : isAsciiUpper c = false := by
  rcases h with h | h | h
  · revert h
    simp only [isSpace, isAsciiUpper, Bool.or_eq_true, Bool.and_eq_true, decide_eq_true_eq, beq_iff_eq, Bool.and_eq_false_iff,
      decide_eq_false_iff_not]
    omega
  · revert h
    simp only [isAsciiDigit, isAsciiUpper, Bool.and_eq_true, decide_eq_true_eq, Bool.and_eq_false_iff, decide_eq_false_iff_not]
    omega
  · simp only [List.mem_cons, List.not_mem_nil, or_false] at h
    rcases h with rfl | rfl | rfl <;> decide

theorem start_alpha {c : Char} (h : isAsciiDigit c = true ∨ c ∈ ['+', '-', '.']) :
    (if isAscii c then isAsciiUpper c || isAsciiLower c else uniIsAlpha c) = false := by
  have hc : isAscii c = true ∧ isAsciiLower c = false := by
    rcases h with h | h
    · revert h
      simp only [isAsciiDigit, isAscii, isAsciiLower, Bool.and_eq_true, decide_eq_true_eq, Bool.and_eq_false_iff,
        decide_eq_false_iff_not]
      omega
    · simp only [List.mem_cons, List.not_mem_nil, or_false] at h
      rcases h with rfl | rfl | rfl <;> decide
  rw [if_pos hc.1, hc.2, start_upper (.inr h)]
  rfl

theorem row_text {s t : Str} {ts : List Str} (hw : words s = t :: ts) (hf : floatOk t = true)
    (hs : ∃ c r, t = c :: r ∧ (isAsciiDigit c = true ∨ c ∈ ['+', '-', '.'])) : RowText s := by
  obtain ⟨c', r', rfl, hc'⟩ := hs
  have hmem : c' ∈ s := by
    rcases wordsGo_chars (cur := []) (s := s) (t := c' :: r') (by show _ ∈ words s; rw [hw]; simp) c' (by simp) with h | h
    · cases h
    · exact h
  refine ⟨?_, ?_, _, ts, hw, hf⟩
  · obtain ⟨c, r, rfl, hc⟩ := words_head hw
    refine start_upper ?_
    rcases hc with hc | ⟨w, h⟩
    · exact .inl hc
    · cases h
      exact .inr hc'
  · unfold isAlpha
    rw [Bool.and_eq_false_iff]
    right
    rw [List.all_eq_false]
    exact ⟨c', hmem, by rw [start_alpha hc']; simp⟩

theorem rows_text {rows ts : List Str} {ds : List Dec} (hr : rows.map words = lowerTriangle ts) (hl : ds.length = 21)
    (he : List.Forall₂ Element ts ds) : ∀ row ∈ rows, RowText row := by
  intro row hrow
  have hm : words row ∈ lowerTriangle ts := hr ▸ List.mem_map_of_mem hrow
  obtain ⟨h1, h2⟩ := lowerTriangle_mem (by rw [he.length_eq]; exact hl) _ hm
  obtain ⟨t, us, hw⟩ := List.exists_cons_of_ne_nil h1
  have ht : t ∈ ts := h2 t (by rw [hw]; simp)
  have key : ∀ {ts : List Str} {ds : List Dec}, List.Forall₂ Element ts ds → ∀ t ∈ ts, ∃ d, Element t d := by
    intro ts ds h
    induction h with
    | nil => simp
    | cons h _ ih =>
      intro t ht
      rcases List.mem_cons.mp ht with rfl | ht
      · exact ⟨_, h⟩
      · exact ih t ht
  obtain ⟨d, hd⟩ := key he t ht
  exact row_text hw hd.float hd.start

/-- What is written for a covariance matrix states it. -/
theorem Covariance.text {v : Val} {l : List Line} (h : Covariance v l) : CovarianceText v l := by
  cases h with
  | @mk e ds he hlen hfin =>
    have := CovarianceText.mk (e := e) (rows := (lowerTriangle (ds.map Dec.toStr)).map (joinWith (py "  ")))
      (ts := ds.map Dec.toStr) (ds := ds) he.xml ?_ hlen (element_toStr hfin)
    · rw [List.map_map] at this
      exact this
    · rw [List.map_map]
      conv_rhs => rw [← List.map_id (lowerTriangle _)]
      apply List.map_congr_left
      intro row hr
      obtain ⟨h1, h2⟩ := lowerTriangle_mem (by simpa using hlen) row hr
      apply words_tokens_join
      intro t ht
      obtain ⟨d, -, rfl⟩ := List.mem_map.mp (h2 t ht)
      exact token_dec d

/-- A keyword line, or nothing. -/
def NoFloat (post : List Line) : Prop :=
  ∀ l, post.head? = some l → ∃ s r t ts, l = s :: r ∧ words s = t :: ts ∧ floatOk t = false

theorem countFloat_rows {post : List Line} (hp : NoFloat post) : ∀ {rows : List Str}, (∀ row ∈ rows, RowText row) →
    countFloatLines (rows.map (fun row => [row]) ++ post) = rows.length
  | [], _ => by
    cases post with
    | nil => rfl
    | cons l post =>
      obtain ⟨s, r, t, ts, rfl, hw, hf⟩ := hp l rfl
      simp [countFloatLines, hw, hf]
  | row :: rows, h => by
    obtain ⟨-, -, t, ts, hw, hf⟩ := h row (by simp)
    have := countFloat_rows hp (rows := rows) (fun r hr => h r (by simp [hr]))
    simp only [List.map_cons, List.cons_append, countFloatLines, List.head?_cons, Option.map_some, hw, hf, if_true, this,
      List.length_cons]

/-- The keywords of an OEM that can follow a data line. -/
def oemKeywords : List Str := py "EPOCH" :: Cls.keywords .OemMetadata

theorem oemKeywords_ok : ∀ k ∈ oemKeywords, words k = [k] ∧ floatOk k = false ∧
    (match isDateStr k with | .ok b => b == false | .error _ => false) = true ∧ k ≠ [] ∧ isAlpha (py "EPOCH") = true := by decide +kernel

theorem oemKeyword_date {k : Str} (h : k ∈ oemKeywords) : isDateStr k = .ok false := by
  have := (oemKeywords_ok k h).2.2.1
  split at this
  · rename_i b hb
    rw [hb]
    simpa using this
  · cases this

/-- A line with a keyword of the OEM or a data line. -/
def OemKey (k : Str) : Prop := letterHead k = true → k ∈ oemKeywords

/-- The lines begin with a keyword line. -/
def KeywordFirst (post : List Line) : Prop := ∀ l, post.head? = some l → l.key ∈ oemKeywords

theorem KeywordFirst.noFloat {post : List Line} (h : KeywordFirst post) : NoFloat post := by
  intro l hl
  have hk := h l hl
  obtain ⟨h1, h2, -, h4, -⟩ := oemKeywords_ok _ hk
  cases l with
  | nil => exact absurd rfl h4
  | cons s r => exact ⟨s, r, s, [], rfl, h1, h2⟩

theorem cov_oem : ∀ k ∈ oemKeywords, k ∈ Cls.keywords .OemCovarianceMatrixType → k = py "EPOCH" ∨ k = py "COMMENT" := by
  decide +kernel

theorem cov_nodup : (Cls.keywords .OemCovarianceMatrixType).Nodup ∧ py "EPOCH" ∈ Cls.keywords .OemCovarianceMatrixType ∧
    Cls.keywords .OemCovarianceMatrixType ≠ [py "COMMENT"] := by decide +kernel

theorem read_covariance {v : Val} {l post : List Line} (h : CovarianceText v l) (hpost : ∀ m ∈ post, OemKey m.key)
    (hfirst : KeywordFirst post) (k : Nat) (name : Str) (il : Bool) :
    ItemRead 1 (extract (k + 1) name .OemCovarianceMatrixType il) v l post := by
  cases h with
  | @mk e rows ts ds he hR hlen hel =>
    rw [extract_leaf cov_bindable cov_blocks.1]
    have hrows := rows_text hR hlen hel
    have hflat : rows.flatMap words = ts := by
      rw [List.flatMap_def, hR]
      exact flatten_lowerTriangle (by rw [hel.length_eq]; exact hlen)
    refine item_special (syn := [py "EPOCH", e] :: zipLines ((Cls.keywords .OemCovarianceMatrixType).drop 3) ts)
      cov_bindable cov_blocks.2 rfl rfl (by decide) ?_ (by simp) ?_ ?_
    · intro pre
      have hb : BlockAt (Cls.keywords .OemCovarianceMatrixType) [py "EPOCH"]
          (keysOf (rows.map (fun row => [row]) ++ post)) := by
        refine ⟨?_, ?_, ?_, cov_nodup.2.2, ?_, ?_, ?_, ?_⟩
        · exact (List.nodup_singleton _).filter _
        · intro t ht htc hk
          obtain ⟨m, hm, rfl⟩ := mem_keysOf.mp hk
          rcases List.mem_append.mp hm with hm | hm
          · exfalso
            obtain ⟨row, hrow, rfl⟩ := List.mem_map.mp hm
            exact not_keyword cov_bindable (hrows row hrow).1 ht
          · have := cov_oem _ (hpost m hm (keyword_letter cov_bindable ht)) ht
            rcases this with h | h
            · rw [h]; simp
            · exact absurd h htc
        · intro hc
          exact absurd hc (by decide)
        · intro t ht
          simp at ht
          subst ht
          exact cov_nodup.2.1
        · intro t ht
          simp at ht
          subst ht
          exact ⟨cov_nodup.2.1, by decide⟩
        · exact (List.nodup_singleton _).filter _
        · intro t ht hn
          simp at ht
          subst ht
          exact absurd cov_nodup.2.1 hn
      have := getMinMax_block (tags := Cls.keywords .OemCovarianceMatrixType) (pre := keysOf pre) (pref := none) hb (by simp)
      rw [keysOf_length] at this
      have e1 : pre ++ ([py "EPOCH", e] :: rows.map fun row => [row]) ++ post =
          pre ++ [[py "EPOCH", e]] ++ (rows.map (fun row => [row]) ++ post) := by simp
      have e2 : keysOf (pre ++ [[py "EPOCH", e]] ++ (rows.map (fun row => [row]) ++ post)) =
          keysOf pre ++ [py "EPOCH"] ++ keysOf (rows.map (fun row => [row]) ++ post) := by
        rw [keysOf_append, keysOf_append]; rfl
      rw [e1, e2]
      unfold rootRange identifySpecial
      have hsi : isSpecialIdent .OemCovarianceMatrixType = true := by decide
      have hpf : prefixOf .OemCovarianceMatrixType = none := by decide
      simp only [hsi, if_true, reduceCtorEq, decide_false, Bool.or_self, Bool.false_eq_true, if_false, hpf, Option.isSome_none]
      rw [this]
      simp only [bind, Except.bind]
      rw [if_neg (by simp)]
      have hdrop : (pre ++ [[py "EPOCH", e]] ++ (rows.map (fun row => [row]) ++ post)).drop
          (pre.length + [py "EPOCH"].length) = rows.map (fun row => [row]) ++ post := by
        have : pre.length + [py "EPOCH"].length = (pre ++ [[py "EPOCH", e]]).length := by simp
        rw [this, drop_pre]
      rw [hdrop, countFloat_rows hfirst.noFloat hrows]
      simp [pure, Except.pure, Nat.add_assoc, Nat.add_comm 1, withPrefix]
    · intro keys lines mm hi
      unfold sectionDoc
      simp only [reduceCtorEq, if_false, if_true, bind, Except.bind]
      have hal : ∀ l ∈ rows.map (fun row => [row]), isAlpha (l.headD []) = false := by
        intro l hl
        obtain ⟨row, hrow, rfl⟩ := List.mem_map.mp hl
        exact (hrows row hrow).2.1
      have hepoch : isAlpha (py "EPOCH") = true := by decide
      have hdata : (rows.map (fun row => [row])).flatMap (fun l => words (l.headD [])) = ts := by
        rw [List.flatMap_map]
        exact hflat
      have hcl : covarianceLines (Cls.keywords .OemCovarianceMatrixType)
          ([py "EPOCH", e] :: rows.map fun row => [row]) =
          [py "EPOCH", e] :: zipLines ((Cls.keywords .OemCovarianceMatrixType).drop 3) ts := by
        unfold covarianceLines
        rw [List.filter_cons_of_neg (by simp [hepoch]), List.filter_cons_of_pos (by simp [hepoch])]
        rw [List.filter_eq_self.mpr (by intro l hl; rw [hal l hl]; rfl),
          List.filter_eq_nil_iff.mpr (by intro l hl; rw [hal l hl]; simp), hdata]
        rfl
      rw [hcl]
      cases xmlifyList name _ none <;> rfl
    · exact matrix_keys cov_fields he (hel.imp fun _ _ h => h.spells) (by rw [hlen]; decide)

theorem stop_covariance {post : List Line} (hpost : ∀ m ∈ post, OemKey m.key)
    (hhead : ∀ l, post.head? = some l → l.key ∈ Cls.keywords .OemMetadata)
    (hc : post.head?.map Line.key = some (py "COMMENT") → ∀ l ∈ post, l.key ≠ py "EPOCH") (k : Nat) (name : Str) (il : Bool) :
    StopAt (extract (k + 1) name .OemCovarianceMatrixType il) post := by
  have hsi : isSpecialIdent .OemCovarianceMatrixType = true := by decide
  have hpf : prefixOf .OemCovarianceMatrixType = none := by decide
  have hep : py "EPOCH" ∉ Cls.keywords .OemMetadata := by decide +kernel
  intro pre
  rw [extract_leaf cov_bindable cov_blocks.1, identElem_eq]
  have hr : ∃ lo hi, getMinMax (Cls.keywords .OemCovarianceMatrixType) pre.length (keysOf (pre ++ post)) none false =
      .ok ((lo, hi), Cls.keywords .OemCovarianceMatrixType) ∧ (lo = pre.length ∧ hi = pre.length ∨ pre.length < lo ∧ lo < hi) := by
    rw [keysOf_append]
    have hno : (∀ l ∈ post, l.key ≠ py "EPOCH") → ∃ lo hi, getMinMax (Cls.keywords .OemCovarianceMatrixType) pre.length
        (keysOf pre ++ keysOf post) none false = .ok ((lo, hi), Cls.keywords .OemCovarianceMatrixType) ∧
        (lo = pre.length ∧ hi = pre.length ∨ pre.length < lo ∧ lo < hi) := by
      intro hno
      have := getMinMax_absent (tags := Cls.keywords .OemCovarianceMatrixType) (pre := keysOf pre) (rest := keysOf post)
        (pref := none) (single := false) ?_ (by simp) cov_nodup.2.2
      · rw [keysOf_length] at this
        exact ⟨_, _, this, .inl ⟨rfl, rfl⟩⟩
      · intro t ht htc hk
        obtain ⟨m, hm, rfl⟩ := mem_keysOf.mp hk
        rcases cov_oem _ (hpost m hm (keyword_letter cov_bindable ht)) ht with h | h
        · exact hno m hm h
        · exact htc h
    cases hpo : post with
    | nil => exact hpo ▸ hno (by simp [hpo])
    | cons l rest =>
      rw [hpo] at hc hhead
      by_cases hlc : l.key = py "COMMENT"
      · rw [← hpo]
        exact hno (by rw [hpo]; exact hc (by simp [hlc]))
      · have hm := hhead l rfl
        have := getMinMax_later (tags := Cls.keywords .OemCovarianceMatrixType) (pre := keysOf pre) (rest := keysOf (l :: rest))
          (k := l.key) cov_nodup.1 cov_nodup.2.2 rfl (by
            intro hk
            rcases cov_oem _ (List.mem_cons_of_mem _ hm) hk with h | h
            · exact hep (h ▸ hm)
            · exact hlc h)
        rw [keysOf_length] at this
        exact this
  obtain ⟨lo, hi, hg, hcase⟩ := hr
  unfold rootRange identifySpecial
  simp only [hsi, if_true, reduceCtorEq, decide_false, Bool.or_self, Bool.false_eq_true, if_false, hpf, Option.isSome_none,
    hg, bind, Except.bind, identSubs]
  rcases hcase with ⟨rfl, rfl⟩ | ⟨h1, h2⟩
  · rw [if_pos rfl]
    exact ⟨_, _, _, rfl, .inl ⟨rfl, rfl⟩⟩
  · rw [if_neg (by omega)]
    exact ⟨_, _, _, rfl, .inr ⟨h1, by simp only; omega⟩⟩

/-! ### Segments -/

theorem each_items {P : Val → List Line → Prop} {n : Nat} {s : Elem} {post : List Line} {Q : List Line → Prop}
    (hne : ∀ x l, P x l → l ≠ []) (hread : ∀ x l tail, P x l → Q tail → ItemRead n s x l tail) (hpost : Q post)
    (hq : ∀ x l tail, P x l → Q tail → Q (l ++ tail)) {xs : List Val} {ls : List Line} (h : Each P xs ls) :
    ItemsRead n s post xs ls ∧ Q (ls ++ post) := by
  induction h with
  | nil => exact ⟨.nil, hpost⟩
  | @cons x l xs ls hx _ ih =>
    refine ⟨.cons (hread x l _ hx ih.2) (hne x l hx) ih.1, ?_⟩
    rw [List.append_assoc]
    exact hq x l _ hx ih.2

theorem each_truthy {P : Val → List Line → Prop} (hP : ∀ x l, P x l → x.truthy = true) {xs : List Val} {ls : List Line}
    (h : Each P xs ls) : ∀ x ∈ xs, x.truthy = true := by
  induction h with
  | nil => simp
  | @cons x l xs ls hx _ ih =>
    intro y hy
    rcases List.mem_cons.mp hy with rfl | hy
    · exact hP _ _ hx
    · exact ih y hy

/-- The lines hold keywords of an OEM and data, and begin with a keyword. -/
def OemTail (tail : List Line) : Prop := (∀ m ∈ tail, OemKey m.key) ∧ KeywordFirst tail

theorem stateVector_key {v : Val} {l : List Line} (h : StateText v l) :
    ∃ s, l = [[s]] ∧ letterHead s = false ∧ ' ' ∈ s ∧ (∃ t ts, words s = t :: ts ∧ isDateStr t = .ok true) := by
  cases h with
  | @mk e s ts ds he hw hb hs h9 =>
    refine ⟨_, rfl, ?_, hb, _, _, hw, he.isDate⟩
    obtain ⟨c, r, rfl, hc⟩ := words_head hw
    refine start_upper ?_
    rcases hc with hc | ⟨w, rfl⟩
    · exact .inl hc
    · obtain ⟨a, b, c', d, r', h1, h2⟩ := he.year
      cases h1
      exact .inr (.inl (h2 _ (by simp)))

theorem covariance_tail {v : Val} {l tail : List Line} (h : CovarianceText v l) (ht : OemTail tail) : OemTail (l ++ tail) := by
  cases h with
  | @mk e rows ts ds he hR hlen hel =>
    refine ⟨?_, ?_⟩
    · intro m hm
      simp only [List.cons_append, List.mem_cons, List.mem_append] at hm
      rcases hm with rfl | hm | hm
      · intro _
        exact List.mem_cons_self
      · intro hl
        obtain ⟨row, hrow, rfl⟩ := List.mem_map.mp hm
        exfalso
        have : letterHead row = true := hl
        rw [(rows_text hR hlen hel row hrow).1] at this
        cases this
      · exact ht.1 m hm
    · intro m hm
      simp only [List.cons_append, List.head?_cons, Option.some.injEq] at hm
      subst hm
      exact List.mem_cons_self

theorem covariance_ne {v : Val} {l : List Line} (h : CovarianceText v l) : l ≠ [] ∧ v.truthy = true := by
  cases h; exact ⟨by simp, rfl⟩

theorem stateVector_ne {v : Val} {l : List Line} (h : StateText v l) : l ≠ [] ∧ v.truthy = true := by
  cases h; exact ⟨by simp, rfl⟩

theorem keywordFirst_stop {e : Elem} (hc : e.cls = .StateVectorAccType ∨ e.cls = .AttitudeStateType) (hs : e.subs = [])
    {post : List Line} (h : KeywordFirst post) (hne : post ≠ []) : StopAt e post := by
  obtain ⟨l, rest, rfl⟩ := List.exists_cons_of_ne_nil hne
  have hk := h l rfl
  obtain ⟨h1, -, -, h4, -⟩ := oemKeywords_ok _ hk
  cases l with
  | nil => exact absurd rfl h4
  | cons s r => exact stop_date hc hs (t := s) (ts := []) h1 (oemKeyword_date hk) rest

theorem oemData_regular : Regular .OemData := regular_iff (by decide +kernel)
theorem oemData_blocks : blocksAre (Cls.blockAttrs .OemData)
    [(py "state_vector", .StateVectorAccType, true), (py "covariance_matrix", .OemCovarianceMatrixType, true)] = true := by decide +kernel

/-- The only keyword of the class is its list of comments. -/
def commentOnly (fs : List Field) : Bool :=
  match fs with
  | [f] => decide (f.name = py "comment") && f.isList
  | _ => false

theorem commentOnly_keys {fs : List Field} (h : commentOnly fs = true) {texts : List Str} (ht : ∀ t ∈ texts, PlainComment t) :
    KeysOf KeyText fs [(py "comment", .list (texts.map .str))] (texts.map fun t => [py "COMMENT", t]) ∧
      fs.map (·.name) = [py "comment"] ∧ fs.map (fun f => upper f.name) = [py "COMMENT"] := by
  match fs, h with
  | [f], h =>
    simp only [commentOnly, Bool.and_eq_true, decide_eq_true_eq] at h
    have := KeysOf.comments (R := KeyText) h.2 h.1 ht .nil
    rw [h.1, List.append_nil] at this
    refine ⟨this, by simp [h.1], ?_⟩
    simp only [List.map_cons, List.map_nil, h.1]
    rw [show upper (py "comment") = py "COMMENT" by decide]

theorem oemData_keys : commentOnly (Cls.keyAttrs .OemData) = true := by decide +kernel

/-- What must hold of the lines after the data of a segment. -/
structure OemAfter (post : List Line) : Prop where
  keys : ∀ m ∈ post, OemKey m.key
  head : ∀ l, post.head? = some l → l.key ∈ Cls.keywords .OemMetadata
  comment : post.head?.map Line.key = some (py "COMMENT") → ∀ l ∈ post, l.key ≠ py "EPOCH"

theorem OemAfter.tail {post : List Line} (h : OemAfter post) : OemTail post :=
  ⟨h.keys, fun l hl => List.mem_cons_of_mem _ (h.head l hl)⟩

theorem read_oemData {v : Val} {l post : List Line} (h : OemDataOf StateText CovarianceText v l) (hpost : OemAfter post) (k : Nat) (name : Str)
    (il : Bool) : ItemRead 2 (extract (k + 2) name .OemData il) v l post := by
  cases h with
  | @mk texts svs lsv cms lcm ht hlen hne hsv hcm =>
    have hp := extract_plain oemData_regular (k + 1) name il
    obtain ⟨hkeys, hnames, hkw⟩ := commentOnly_keys oemData_keys ht
    obtain ⟨hcov, htail⟩ := each_items (n := 1) (s := extract (k + 1) (py "covariance_matrix") .OemCovarianceMatrixType true)
      (Q := OemTail) (fun x l h => (covariance_ne h).1) (fun x l tail h hq => read_covariance h hq.1 hq.2 k _ _)
      hpost.tail (fun x l tail h hq => covariance_tail h hq) hcm
    obtain ⟨hsvr, -⟩ := each_items (n := 1) (s := extract (k + 1) (py "state_vector") .StateVectorAccType true)
      (post := lcm ++ post) (Q := fun _ => True) (fun x l h => (stateVector_ne h).1)
      (fun x l tail h _ => read_stateVector h k _ _) trivial (fun x l tail h hq => trivial) hsv
    have hparts : PartsRead 1 (k + 1) post
        [(py "state_vector", .StateVectorAccType, true), (py "covariance_matrix", .OemCovarianceMatrixType, true)]
        [(py "state_vector", .list svs), (py "covariance_matrix", .list cms)] (lsv ++ lcm) := by
      refine .cons (.many (each_truthy (fun x l h => (stateVector_ne h).2) hsv) hsvr ?_)
        (.one (.many (each_truthy (fun x l h => (covariance_ne h).2) hcm) hcov fun _ =>
          stop_covariance hpost.keys hpost.head hpost.comment k _ _))
      intro hor
      refine keywordFirst_stop (.inl ?_) ?_ htail.2 (hor.resolve_left hne)
      · rw [extract_leaf sv_bindable sv_blocks.1]
      · rw [extract_leaf sv_bindable sv_blocks.1]
    obtain ⟨hsubs, hbv⟩ := parts_subs oemData_blocks hparts
    have hhead : ∃ l, (lsv ++ lcm).head? = some l ∧ l.key ≠ py "COMMENT" := by
      cases hsv with
      | nil => exact absurd rfl hne
      | @cons x l xs ls hx _ =>
        obtain ⟨s, rfl, hs, -⟩ := stateVector_key hx
        exact ⟨_, rfl, not_comment hs⟩
    refine item_of_parts oemData_regular hp hkeys ?_ ?_ (n := 1) (avoid := fun _ => False) ?_ (by simp) hbv ?_
    · unfold Laid
      rw [if_pos hnames]
      exact ⟨by simpa using hlen, fun _ => hhead⟩
    · intro m _ hc hm
      rw [hp.kw, hkw] at hm
      simp at hm
      exact absurd hm hc
    · rw [extract_ordinary oemData_regular]
      exact hsubs
    · intro _
      exact parts_nonempty oemData_blocks hparts (by simpa using hne)

theorem oemMetadata_regular : Regular .OemMetadata := regular_iff (by decide +kernel)
theorem oemMetadata_facts : Cls.blockAttrs .OemMetadata = [] ∧ (Cls.keyAttrs .OemMetadata).map (·.name) ≠ [py "comment"] ∧
    py "EPOCH" ∉ Cls.keywords .OemMetadata ∧ py "COMMENT" ∈ Cls.keywords .OemMetadata := by
  decide +kernel
theorem oemSegment_regular : Regular .OemSegment := regular_iff (by decide +kernel)
theorem oemSegment_blocks : Cls.keyAttrs .OemSegment = [] ∧ blocksAre (Cls.blockAttrs .OemSegment)
    [(py "metadata", .OemMetadata, false), (py "data", .OemData, false)] = true := by decide +kernel
theorem oemBody_regular : Regular .OemBody := regular_iff (by decide +kernel)
theorem oemBody_blocks : Cls.keyAttrs .OemBody = [] ∧ blocksAre (Cls.blockAttrs .OemBody)
    [(py "segment", .OemSegment, true)] = true := by decide +kernel

theorem keyBlock_keys {c : Cls} {v : Val} {ls : List Line} (h : KeyBlockOf Spelled c v ls) :
    (∀ m ∈ ls, m.key ∈ c.keywords) ∧ ls ≠ [] ∧ ∃ vs, v = .obj c vs := by
  cases h with
  | mk hk hne hlast =>
    obtain ⟨own₀, hk, hro⟩ := hk
    exact ⟨fun m hm => (goodKeys_key hk m (hro.mem.mpr hm)).1, hne, _, rfl⟩

/-- The keys of the lines of data: comments, epochs and data lines. -/
theorem oemData_lines {v : Val} {l : List Line} (h : OemDataOf StateText CovarianceText v l) :
    (∀ m ∈ l, m.key = py "COMMENT" ∨ m.key = py "EPOCH" ∨ letterHead m.key = false) ∧ l ≠ [] ∧ (∃ vs, v = .obj .OemData vs) ∧
    (l.head?.map Line.key = some (py "COMMENT") ∨
      ∃ s rest, l = [s] :: rest ∧ ' ' ∈ s ∧ letterHead s = false) := by
  cases h with
  | @mk texts svs lsv cms lcm ht hlen hne hsv hcm =>
    have h1 : ∀ m ∈ lsv, letterHead m.key = false := by
      clear hne
      induction hsv with
      | nil => simp
      | cons hx _ ih =>
        obtain ⟨s, rfl, hs, -⟩ := stateVector_key hx
        intro m hm
        rcases List.mem_append.mp hm with hm | hm
        · simp at hm; subst hm; exact hs
        · exact ih m hm
    have h2 : ∀ m ∈ lcm, m.key = py "EPOCH" ∨ letterHead m.key = false := by
      induction hcm with
      | nil => simp
      | cons hx _ ih =>
        intro m hm
        rcases List.mem_append.mp hm with hm | hm
        · cases hx with
          | @mk e rows ts ds he hR hlen hel =>
            rcases List.mem_cons.mp hm with rfl | hm
            · exact .inl rfl
            · right
              obtain ⟨row, hrow, rfl⟩ := List.mem_map.mp hm
              exact (rows_text hR hlen hel row hrow).1
        · exact ih m hm
    obtain ⟨s, rest, hl, hb, hs⟩ : ∃ s rest, lsv ++ lcm = [s] :: rest ∧ ' ' ∈ s ∧ letterHead s = false := by
      cases hsv with
      | nil => exact absurd rfl hne
      | @cons x l xs ls hx _ =>
        obtain ⟨s, rfl, hs, hb, -⟩ := stateVector_key hx
        exact ⟨_, _, rfl, hb, hs⟩
    refine ⟨?_, ?_, ⟨_, rfl⟩, ?_⟩
    · intro m hm
      rcases List.mem_append.mp hm with hm | hm
      · obtain ⟨t, -, rfl⟩ := List.mem_map.mp hm
        exact .inl rfl
      · rcases List.mem_append.mp hm with hm | hm
        · exact .inr (.inr (h1 m hm))
        · exact .inr (h2 m hm)
    · rw [hl]; simp
    · cases texts with
      | nil => exact .inr ⟨s, rest, hl, hb, hs⟩
      | cons t ts => exact .inl rfl

theorem oemSegments_after {segs : List Val} {ls : List Line} (h : OemSegmentsOf Spelled StateText CovarianceText segs ls)
    (hc : ls.head?.map Line.key = some (py "COMMENT") → ∀ l ∈ ls, l.key ≠ py "EPOCH") : OemAfter ls := by
  have hkeys : ∀ m ∈ ls, OemKey m.key := by
    clear hc
    induction h with
    | nil => simp
    | @cons m lm d ld segs ls hm hd hs h1 h2 ih =>
      intro x hx hl
      rcases List.mem_append.mp hx with hx | hx
      · rcases List.mem_append.mp hx with hx | hx
        · exact List.mem_cons_of_mem _ ((keyBlock_keys hm).1 x hx)
        · rcases (oemData_lines hd).1 x hx with h | h | h
          · rw [h]; exact List.mem_cons_of_mem _ oemMetadata_facts.2.2.2
          · rw [h]; exact List.mem_cons_self
          · rw [hl] at h; cases h
      · exact ih x hx hl
  refine ⟨hkeys, ?_, hc⟩
  intro l hl
  cases h with
  | nil => simp at hl
  | @cons m lm d ld segs ls hm hd hs h1 h2 =>
    obtain ⟨hk, hne, -⟩ := keyBlock_keys hm
    obtain ⟨a, b, rfl⟩ := List.exists_cons_of_ne_nil hne
    simp at hl
    subst hl
    exact hk a (by simp)

theorem read_oemSegments {segs : List Val} {ls : List Line} (h : OemSegmentsOf Spelled StateText CovarianceText segs ls) (k : Nat) (name : Str) :
    ItemsRead 3 (extract (k + 3) name .OemSegment true) [] segs ls := by
  induction h with
  | nil => exact .nil
  | @cons m lm d ld segs ls hm hd hs h1 h2 ih =>
    have hafter := oemSegments_after hs h2
    obtain ⟨hdk, hdn, ⟨vd, hvd⟩, hdh⟩ := oemData_lines hd
    obtain ⟨hmk, hmn, ⟨vm, hvm⟩⟩ := keyBlock_keys hm
    refine .cons ?_ (by simp [hmn]) ih
    rw [List.append_nil]
    have hrd := read_oemData hd hafter k (py "data") false
    have hrm := (read_keyBlock oemMetadata_regular oemMetadata_facts.1 oemMetadata_facts.2.1 hm (post := ld ++ ls) (by
      rcases hdh with hc | ⟨s, rest, hl, hb, hs⟩
      · left
        intro x hx hxc hxk
        rcases List.mem_append.mp hx with hx | hx
        · exfalso
          rcases hdk x hx with h | h | h
          · exact hxc h
          · exact oemMetadata_facts.2.2.1 (h ▸ hxk)
          · exact not_keyword oemMetadata_regular.toBindable h hxk
        · exact h1 hc x hx hxc hxk
      · right
        refine ⟨[[s]], rest ++ ls, by rw [hl]; rfl, .inl ⟨s, by simp [keysOf, Line.key], hb⟩, ?_⟩
        intro l h
        rw [List.mem_singleton.mp h]
        exact not_keyword oemMetadata_regular.toBindable hs)
      (k + 1) (py "metadata") false).mono (show 1 ≤ 2 by omega)
    subst hvm hvd
    have hparts := PartsRead.cons (.single hrm) (PartsRead.one (.single hrd))
    obtain ⟨hsubs, hbv⟩ := parts_subs oemSegment_blocks.2 hparts
    exact read_container oemSegment_regular oemSegment_blocks.1 hsubs hbv
      (parts_nonempty oemSegment_blocks.2 hparts (by simp)) name true

theorem oemSegments_truthy {segs : List Val} {ls : List Line} (h : OemSegmentsOf Spelled StateText CovarianceText segs ls) : ∀ x ∈ segs, x.truthy = true := by
  induction h with
  | nil => simp
  | cons _ _ _ _ _ ih =>
    intro x hx
    rcases List.mem_cons.mp hx with rfl | hx
    · rfl
    · exact ih x hx

theorem read_oemBody {segs : List Val} {ls : List Line} (h : OemSegmentsOf Spelled StateText CovarianceText segs ls) (hne : segs ≠ []) (k : Nat) (name : Str)
    (il : Bool) : ItemRead 4 (extract (k + 4) name .OemBody il) (.obj .OemBody [(py "segment", .list segs)]) ls [] := by
  have hparts := PartsRead.one (PartRead.many (a := py "segment") (oemSegments_truthy h) (read_oemSegments h k _) (by
    rintro (h | h)
    · exact absurd h hne
    · exact absurd rfl h))
  obtain ⟨hsubs, hbv⟩ := parts_subs oemBody_blocks.2 hparts
  exact read_container oemBody_regular oemBody_blocks.1 hsubs hbv
    (parts_nonempty oemBody_blocks.2 hparts (by simpa using hne)) name il

theorem ndmHeader_regular : Regular .NdmHeader := regular_iff (by decide +kernel)
theorem ndmHeader_facts : Cls.blockAttrs .NdmHeader = [] ∧ (Cls.keyAttrs .NdmHeader).map (·.name) ≠ [py "comment"] ∧
    ∀ k ∈ oemKeywords, k ∈ Cls.keywords .NdmHeader → k = py "COMMENT" := by
  decide +kernel
theorem oem_blocks : blocksAre (Cls.blockAttrs .Oem) [(py "header", .NdmHeader, false), (py "body", .OemBody, false)] = true := by
  decide +kernel

theorem Each.mono {P Q : Val → List Line → Prop} (hPQ : ∀ x l, P x l → Q x l) {xs : List Val} {ls : List Line} (h : Each P xs ls) :
    Each Q xs ls := by
  induction h with
  | nil => exact .nil
  | cons hx _ ih => exact .cons (hPQ _ _ hx) ih

theorem OemSegmentsOf.text {segs : List Val} {ls : List Line} (h : OemSegmentsOf Written StateVector Covariance segs ls) :
    OemSegmentsOf Spelled StateText CovarianceText segs ls := by
  induction h with
  | nil => exact .nil
  | cons hm hd _ h1 h2 ih =>
    refine .cons hm.spelled ?_ ih h1 h2
    cases hd with
    | mk ht hl hne hs hc => exact .mk ht hl hne (hs.mono fun _ _ h => h.text) (hc.mono fun _ _ h => h.text)

theorem read_oem {src : Str} {raw lh ls : List Line} {h : Val} {segs : List Val} {id ver₀ ver : Str}
    (hk : (Cls.Oem, id, ver₀) ∈ messageKinds) (hver : xmlCheck ver = .ok ())
    (hsrc : (splitChar '\n' src).filterMap parseLine = [id, ver] :: raw) (hdel : deleteMarkers .Oem raw = lh ++ ls)
    (hh : KeyBlockOf Spelled .NdmHeader h lh) (hs : OemSegmentsOf Spelled StateText CovarianceText segs ls) (hne : segs ≠ []) :
    kvnFromString src = .ok (.obj .Oem [(py "header", h), (py "body", .obj .OemBody [(py "segment", .list segs)])]) := by
  obtain ⟨-, -, ⟨vh, rfl⟩⟩ := keyBlock_keys hh
  have hkeys : ∀ m ∈ ls, OemKey m.key := by
    intro m hm
    cases hs with
    | nil => simp at hm
    | cons h1 h2 h3 h4 h5 =>
      have := (oemSegments_after h3 h5).keys
      intro hl
      rcases List.mem_append.mp hm with hx | hx
      · rcases List.mem_append.mp hx with hx | hx
        · exact List.mem_cons_of_mem _ ((keyBlock_keys h1).1 m hx)
        · rcases (oemData_lines h2).1 m hx with h | h | h
          · rw [h]; exact List.mem_cons_of_mem _ oemMetadata_facts.2.2.2
          · rw [h]; exact List.mem_cons_self
          · rw [hl] at h; cases h
      · exact this m hx hl
  have hrh := (read_keyBlock ndmHeader_regular ndmHeader_facts.1 ndmHeader_facts.2.1 hh (post := ls ++ []) (by
    left
    intro m hm hc hk
    rw [List.append_nil] at hm
    exact absurd (ndmHeader_facts.2.2 _ (hkeys m hm (keyword_letter ndmHeader_regular.toBindable hk)) hk) hc)
    8 (py "header") false).mono (show 1 ≤ 4 by omega)
  have hrb := read_oemBody hs hne 5 (py "body") false
  obtain ⟨hsubs, hbv⟩ := parts_subs oem_blocks (PartsRead.cons (.single hrh) (PartsRead.one (.single hrb)))
  exact read_root (rootCls hk) hver hsrc hdel (n := 4) (by decide) hsubs hbv ⟨by simp, by simp⟩ (by decide)

end Ndm
