import Verif.Lemmas.EphOem

/-! Writing segments of keyword lines followed by data lines. -/

namespace Ndm

/-- The marker lines of a message class are left out. -/
def unmarked (D : List Str) (ls : List Line) : List Line := ls.filter fun l => !D.contains (l.headD [])

/-- `x` is `out` extended with text lines satisfying `φ` that read as `ls` and marker lines. -/
def WritesM (D : List Str) (φ : Str → Prop) (x : Except PyErr (List Str)) (out : List Str) (ls : List Line) : Prop :=
  ∃ ws, x = .ok (out ++ ws) ∧ unmarked D (ws.filterMap parseLine) = ls ∧ ∀ w ∈ ws, φ w

/-- A property of written lines: the blank line and the marker lines have it. -/
structure LineProp (D : List Str) (φ : Str → Prop) : Prop where
  blank : φ []
  marker : ∀ w ∈ D, φ w

theorem unmarked_append (D : List Str) (a b : List Line) : unmarked D (a ++ b) = unmarked D a ++ unmarked D b := by
  simp [unmarked]

theorem unmarked_self {D : List Str} {ls : List Line} (h : ∀ l ∈ ls, l.key ∉ D) : unmarked D ls = ls := by
  unfold unmarked
  rw [List.filter_eq_self]
  intro l hl
  have := h l hl
  simp only [Line.key] at this
  simpa using this

theorem Writes.toM {D : List Str} {x : Except PyErr (List Str)} {out : List Str} {ls : List Line} (h : Writes x out ls)
    (hd : ∀ l ∈ ls, l.key ∉ D) : WritesM D (fun w => '\n' ∉ w) x out ls := by
  obtain ⟨ws, h1, h2, h3⟩ := h
  exact ⟨ws, h1, by rw [h2, unmarked_self hd], h3⟩

namespace WritesM

variable {D : List Str} {φ : Str → Prop}

theorem nil (out : List Str) : WritesM D φ (.ok out) out [] := ⟨[], by simp, rfl, by simp⟩

theorem line {out : List Str} {w : Str} {l : Line} (h : parseLine w = some l) (hd : l.key ∉ D) (hw : φ w) :
    WritesM D φ (.ok (out ++ [w])) out [l] :=
  ⟨[w], rfl, by
    rw [List.filterMap_cons_some h, List.filterMap_nil]
    exact unmarked_self (by simpa using hd), by simpa using hw⟩

theorem thenRun {x : Except PyErr (List Str)} {f : List Str → Except PyErr (List Str)} {out : List Str}
    {l1 l2 : List Line} (h1 : WritesM D φ x out l1) (h2 : ∀ ws, (∀ w ∈ ws, φ w) → WritesM D φ (f (out ++ ws)) (out ++ ws) l2) :
    WritesM D φ (x.bind f) out (l1 ++ l2) := by
  obtain ⟨ws, hx, hl, hn⟩ := h1
  obtain ⟨ws2, hx2, hl2, hn2⟩ := h2 ws hn
  refine ⟨ws ++ ws2, by simp [hx, Except.bind, hx2], by rw [List.filterMap_append, unmarked_append, hl, hl2], ?_⟩
  intro w hw
  rcases List.mem_append.mp hw with h | h
  · exact hn w h
  · exact hn2 w h

theorem blank (hφ : φ []) {x : Except PyErr (List Str)} {out : List Str} {ls : List Line} (h : WritesM D φ x out ls) (b : Prop)
    [Decidable b] : WritesM D φ (x.bind fun o => .ok (if b then o ++ [[]] else o)) out ls := by
  obtain ⟨ws, hx, hl, hn⟩ := h
  by_cases hb : b
  · refine ⟨ws ++ [[]], by simp [hx, Except.bind, hb], ?_, ?_⟩
    · rw [List.filterMap_append, unmarked_append, hl]
      have : parseLine [] = none := by decide
      simp [this, unmarked]
    · intro w hw
      rcases List.mem_append.mp hw with h | h
      · exact hn w h
      · simp at h; subst h; exact hφ
  · exact ⟨ws, by simp [hx, Except.bind, hb], hl, hn⟩

theorem mono {ψ : Str → Prop} (h : ∀ w, φ w → ψ w) {x : Except PyErr (List Str)} {out : List Str} {ls : List Line}
    (hw : WritesM D φ x out ls) : WritesM D ψ x out ls := by
  obtain ⟨ws, h1, h2, h3⟩ := hw
  exact ⟨ws, h1, h2, fun w hw => h w (h3 w hw)⟩

end WritesM

/-- A text line that is read as a marker. -/
def isMarker (D : List Str) (w : Str) : Bool := decide (parseLine w = some [w]) && D.contains w

theorem markers_nothing {D : List Str} {ws : List Str} (h : ∀ w ∈ ws, w = [] ∨ isMarker D w = true) :
    unmarked D (ws.filterMap parseLine) = [] := by
  induction ws with
  | nil => rfl
  | cons w ws ih =>
    have hb : parseLine [] = none := by decide
    have ih := ih (fun w hw => h w (by simp [hw]))
    rcases h w (by simp) with rfl | hw
    · rw [List.filterMap_cons_none hb]
      exact ih
    · simp only [isMarker, Bool.and_eq_true, decide_eq_true_eq] at hw
      rw [List.filterMap_cons_some hw.1]
      unfold unmarked
      rw [List.filter_cons_of_neg (by simp only [List.headD_cons, hw.2]; simp)]
      exact ih

theorem withHeader_writes {D : List Str} {φ : Str → Prop} (hφ : LineProp D φ) {h : Option Str}
    (hh : ∀ n, h = some n → isMarker D (beginLine n) = true ∧ isMarker D (endLine n) = true)
    {before after : Str → List Str} (hb : ∀ n, ∀ w ∈ before n, w = [] ∨ w = beginLine n)
    (ha : ∀ n, ∀ w ∈ after n, w = [] ∨ w = endLine n) {out : List Str} {body : List Str → Except PyErr (List Str)}
    {ls : List Line} (hbody : ∀ ws, (∀ w ∈ ws, φ w) → WritesM D φ (body (out ++ ws)) (out ++ ws) ls) :
    WritesM D φ (withHeader h before after out body) out ls := by
  cases h with
  | none =>
    have := hbody [] (by simp)
    rw [List.append_nil] at this
    exact this
  | some n =>
    obtain ⟨h1, h2⟩ := hh n rfl
    have hmark : ∀ w, isMarker D w = true → φ w := by
      intro w hw
      simp only [isMarker, Bool.and_eq_true, List.contains_iff_mem] at hw
      exact hφ.marker w hw.2
    have hbφ : ∀ w ∈ before n, φ w := by
      intro w hw
      rcases hb n w hw with rfl | rfl
      · exact hφ.blank
      · exact hmark _ h1
    have haφ : ∀ w ∈ after n, φ w := by
      intro w hw
      rcases ha n w hw with rfl | rfl
      · exact hφ.blank
      · exact hmark _ h2
    obtain ⟨ws, hx, hl, hn⟩ := hbody (before n) hbφ
    refine ⟨before n ++ ws ++ after n, ?_, ?_, ?_⟩
    · simp only [withHeader, hx, Except.map]
      simp
    · rw [List.filterMap_append, List.filterMap_append, unmarked_append, unmarked_append, hl,
        markers_nothing (fun w hw => (hb n w hw).imp id (fun h => h ▸ h1)),
        markers_nothing (fun w hw => (ha n w hw).imp id (fun h => h ▸ h2))]
      simp
    · intro w hw
      rcases List.mem_append.mp hw with hw | hw
      · rcases List.mem_append.mp hw with hw | hw
        · exact hbφ w hw
        · exact hn w hw
      · exact haφ w hw

/-- A condition on what has been written so far that stays true when lines with `φ` are added. -/
def Stays (φ : Str → Prop) (H : List Str → Prop) : Prop := ∀ out ws, H out → (∀ w ∈ ws, φ w) → H (out ++ ws)

/-- The markers of a class are among those left out. -/
def marksOf (D : List Str) (c : Cls) : Bool :=
  match headerName c with
  | some n => isMarker D (beginLine n) && isMarker D (endLine n)
  | none => true

theorem marks_of {D : List Str} {c : Cls} (h : marksOf D c = true) :
    ∀ n, headerName c = some n → isMarker D (beginLine n) = true ∧ isMarker D (endLine n) = true := by
  intro n hn
  unfold marksOf at h
  rw [hn] at h
  simpa using h

/-- Writing a nested object. -/
theorem write_nested {D : List Str} {φ : Str → Prop} (hφ : LineProp D φ) {c : Cls} {vs : List (Str × Val)} {ls : List Line}
    (ho : isSpecialOut c = false) (hm : marksOf D c = true) (hu : vs.any (·.1 == py "units") = false) {key : Str}
    (hk : key ≠ py "comment" ∧ key ≠ py "user_defined") {out : List Str}
    (hw : ∀ ws, (∀ w ∈ ws, φ w) → WritesM D φ (collateVars (out ++ ws) vs) (out ++ ws) ls) :
    WritesM D φ (collateSub key out (.obj c vs)) out ls := by
  simp only [collateSub]
  refine withHeader_writes hφ (marks_of hm) ?_ ?_ ?_
  · intro n w hw; simp at hw; exact hw.symm
  · intro n w hw; simp at hw; exact hw.symm
  · intro ws hws
    simp only [hk.1, hk.2, hu, ho, Bool.false_eq_true, if_false]
    exact (hw ws hws).blank hφ.blank _

/-- Writing a list of objects. -/
theorem write_many {D : List Str} {φ : Str → Prop} (hφ : LineProp D φ) {H : List Str → Prop} (hH : Stays φ H) {c : Cls}
    (hm : marksOf D c = true) {key : Str} (hk : key ≠ py "comment" ∧ key ≠ py "user_defined")
    {P : Val → List Line → Prop} (hcls : ∀ x l, P x l → ∃ vs, x = .obj c vs)
    (hw : ∀ x l out, P x l → H out → WritesM D φ (collateObj key out x) out l) {xs : List Val} {ls : List Line}
    (h : Each P xs ls) {out : List Str} (h0 : H out) : WritesM D φ (collateSub key out (.list xs)) out ls := by
  have items : ∀ {xs : List Val} {ls : List Line}, Each P xs ls → ∀ {out}, H out → WritesM D φ (collateItems key out xs) out ls := by
    intro xs ls h
    induction h with
    | nil => intro out _; exact .nil out
    | @cons x l xs ls hx _ ih =>
      intro out h0
      simp only [collateItems]
      exact (hw x l out hx h0).thenRun (fun ws hws => ih (hH _ _ h0 hws))
  cases h with
  | nil =>
    simp only [collateSub, hk.1, hk.2, if_false]
    exact .nil out
  | @cons x l xs ls hx hxs =>
    simp only [collateSub, hk.1, hk.2, if_false]
    obtain ⟨vs, rfl⟩ := hcls x l hx
    simp only [headerOf]
    refine withHeader_writes hφ (marks_of hm) ?_ ?_ ?_
    · intro n w hw; simp at hw; tauto
    · intro n w hw; simp at hw; tauto
    · intro ws hws
      exact (hw _ l _ hx (hH _ _ h0 hws)).thenRun (fun ws' hws' => items hxs (hH _ _ (hH _ _ h0 hws) hws'))

/-- Writing a message. -/
theorem write_marked {c : Cls} {id ver : Str} (h : RootCls c id ver) {vs : List (Str × Val)} {ls : List Line}
    (hw : WritesM (deletedKeywords c) (fun w => '\n' ∉ w) (collateVars [fillKvn id ver none] vs) [fillKvn id ver none] ls) :
    ∃ text raw, kvnToString (.obj c vs) = .ok text ∧ (splitChar '\n' text).filterMap parseLine = [id, ver] :: raw ∧
      deleteMarkers c raw = ls := by
  obtain ⟨n, hn, hn'⟩ := h.name
  have hobj : WritesM (deletedKeywords c) (fun w => '\n' ∉ w) (collateObj [] [fillKvn id ver none] (.obj c vs))
      [fillKvn id ver none] ls := by
    simp only [collateObj, h.ord.out, Bool.false_eq_true, if_false]
    exact hw.blank (by simp) _
  obtain ⟨ws, he, hl, hnl⟩ := hobj
  refine ⟨joinWith (py "\n") ([fillKvn id ver none] ++ ws), ws.filterMap parseLine, ?_, ?_, hl⟩
  · have hkl : kvnLines (.obj c vs) = .ok ([fillKvn id ver none] ++ ws) := by
      simp only [kvnLines, hn, if_neg hn', h.idv]
      exact he
    simp only [kvnToString, hkl, bind, Except.bind, pure, Except.pure]
  · have : py "\n" = ['\n'] := by decide
    rw [this, splitChar_joinWith (by simp)]
    · rw [List.filterMap_append]
      simp [h.line]
    · intro l hl'
      simp only [List.mem_append, List.mem_singleton] at hl'
      rcases hl' with rfl | hl'
      · exact h.oneLine
      · exact hnl l hl'

/-! ### Orbit ephemeris messages -/

theorem oem_lines : LineProp (deletedKeywords .Oem) (fun w => '\n' ∉ w) := ⟨by simp, by decide⟩
theorem stays_true {φ : Str → Prop} : Stays φ (fun _ => True) := fun _ _ _ _ => trivial

theorem oem_notMarker {k : Str} (h : OemKey k ∨ k ∈ Cls.keywords .NdmHeader) : k ∉ deletedKeywords .Oem := by
  have h1 : ∀ k ∈ deletedKeywords .Oem, letterHead k = true ∧ k ∉ oemKeywords ∧ k ∉ Cls.keywords .NdmHeader := by decide +kernel
  intro hk
  obtain ⟨a, b, c⟩ := h1 k hk
  rcases h with h | h
  · exact b (h a)
  · exact c h

theorem numbered_text : ∀ {as : List (Str × Cls)} {ds : List Dec}, ds.length ≤ as.length →
    ((numbered as ds).filter (·.2.truthy)).map (fun p => pyStr (valueOr p.2)) = ds.map Dec.toStr
  | [], [], _ => rfl
  | [], _ :: _, h => by simp at h
  | (a, c) :: as, [], h => by
    rw [numbered, List.filter_cons_of_neg (by simp [Val.truthy])]
    exact numbered_text (by simp)
  | (a, c) :: as, d :: ds, h => by
    rw [numbered, List.filter_cons_of_pos (by simp [number, Val.truthy]), List.map_cons, List.map_cons,
      numbered_text (by simpa using h)]
    rfl

theorem numbered_values : ∀ {as : List (Str × Cls)} {ds : List Dec}, ds.length ≤ as.length →
    ((numbered as ds).filterMap fun p => valueAttr? p.2).map pyStr = ds.map Dec.toStr
  | [], [], _ => rfl
  | [], _ :: _, h => by simp at h
  | (a, c) :: as, [], h => by
    rw [numbered, List.filterMap_cons_none rfl]
    exact numbered_values (by simp)
  | (a, c) :: as, d :: ds, h => by
    have h1 : valueAttr? (number c d) = some (.dec d) := rfl
    rw [numbered, List.filterMap_cons_some (f := fun p : Str × Val => valueAttr? p.2) h1, List.map_cons, List.map_cons,
      numbered_values (by simpa using h)]
    rfl

theorem tokens_noNewline {ts : List Str} (h : ∀ t ∈ ts, Token t) : '\n' ∉ joinWith (py "  ") ts := by
  intro hm
  rcases mem_joinWith hm with h' | ⟨t, ht, hc⟩
  · revert h'; decide
  · have := ((h t ht).2 _ hc).1
    revert this; decide

theorem fillSingle_tokens {ts : List Str} (hne : ts ≠ []) (h : ∀ t ∈ ts, Token t) :
    fillSingle ts = .ok (joinWith (py "  ") ts) := by
  obtain ⟨t, rest, rfl⟩ := List.exists_cons_of_ne_nil hne
  have : t ≠ py "\n" := by
    rintro rfl
    have := ((h (py "\n") (by simp)).2 '\n' (by decide)).1
    revert this; decide
  simp only [fillSingle, pyGet, List.getElem?_cons_zero, bind, Except.bind, pure, Except.pure, if_neg this]

theorem write_stateVector {v : Val} {l : List Line} (h : StateVector v l) (key : Str) (out : List Str) :
    WritesM (deletedKeywords .Oem) (fun w => '\n' ∉ w) (collateObj key out v) out l := by
  cases h with
  | @mk e ds he h6 h9 =>
    have htok := stateVector_tokens (ds := ds) he
    have hso : isSpecialOut .StateVectorAccType = true := by decide
    have ht : (Val.str e).truthy = true := by
      obtain ⟨c, r, rfl, -⟩ := he.firstDigit
      rfl
    have hline : writeStateVector ((py "epoch", .str e) :: numbered stateAttrs ds) =
        .ok [joinWith (py "  ") (e :: ds.map Dec.toStr)] := by
      unfold writeStateVector
      rw [List.filter_cons_of_pos (by simpa using ht), List.map_cons, numbered_text h9]
      have e1 : pyStr (valueOr (Val.str e)) = e := rfl
      simp only [e1]
      rw [fillSingle_tokens (by simp) htok]
      rfl
    simp only [collateObj, hso, if_true, writeSpecial, hline, bind, Except.bind, pure, Except.pure]
    refine .line (parseLine_tokens (by simp) htok ?_) ?_ (tokens_noNewline htok)
    · intro c r hc
      simp only [List.head?_cons, Option.some.injEq] at hc
      obtain ⟨c', r', h1, h2⟩ := he.firstDigit
      rw [h1] at hc
      injection hc with hc _
      subst hc
      exact h2.ne (by unfold DigitC; decide)
    · refine oem_notMarker (.inl fun hl => ?_)
      exfalso
      obtain ⟨s, hs, hl', -⟩ := stateVector_key (StateVector.mk he h6 h9).text
      simp only [List.cons.injEq, and_true] at hs
      rw [hs] at hl
      simp only [Line.key, List.headD_cons] at hl
      rw [hl] at hl'
      cases hl'

theorem triRows_lowerTriangle {l : List Str} (h : l.length = 21) : triRows (l.length + 1) 1 l = lowerTriangle l := by
  rw [h]
  simp only [triRows, List.length_drop, h, List.drop_drop, Nat.reduceAdd, Nat.reduceSub, Nat.reduceLT, if_false, if_true, lowerTriangle]

theorem mapM_fillSingle {rows : List (List Str)} (h : ∀ r ∈ rows, r ≠ [] ∧ ∀ t ∈ r, Token t) :
    rows.mapM fillSingle = Except.ok (rows.map (joinWith (py "  "))) := by
  induction rows with
  | nil => rfl
  | cons r rows ih =>
    rw [List.mapM_cons, fillSingle_tokens (h r (by simp)).1 (h r (by simp)).2, ih (fun r hr => h r (by simp [hr]))]
    rfl

theorem epoch_keyword : Keyword (upper (py "epoch")) := by
  have h : ∃ f ∈ Cls.keyAttrs .OemCovarianceMatrixType, f.name = py "epoch" ∧ f.isList = false := by decide +kernel
  obtain ⟨f, hf, hn, hl⟩ := h
  have := ((keyed cov_bindable.members cov_bindable.value cov_bindable.user).field f hf).keyword hl
  rw [hn] at this
  exact this

theorem rows_lowerTriangle {ds : List Dec} (h : ds.length = 21) (hf : ∀ d ∈ ds, d.Finite) :
    ∀ row ∈ lowerTriangle (ds.map Dec.toStr), row ≠ [] ∧ ∀ t ∈ row, ∃ d : Dec, d.Finite ∧ t = d.toStr := by
  intro row hr
  obtain ⟨h1, h2⟩ := lowerTriangle_mem (by simpa using h) row hr
  refine ⟨h1, fun t ht => ?_⟩
  obtain ⟨d, hd, rfl⟩ := List.mem_map.mp (h2 t ht)
  exact ⟨d, hf d hd, rfl⟩

theorem write_covariance {v : Val} {l : List Line} (h : Covariance v l) (key : Str) (out : List Str) :
    WritesM (deletedKeywords .Oem) (fun w => '\n' ∉ w) (collateObj key out v) out l := by
  cases h with
  | @mk e ds he hlen hfin =>
    have hso : isSpecialOut .OemCovarianceMatrixType = true := by decide
    have hlen' : (ds.map Dec.toStr).length = 21 := by simpa using hlen
    have hrows := rows_lowerTriangle hlen hfin
    have htok : ∀ r ∈ lowerTriangle (ds.map Dec.toStr), r ≠ [] ∧ ∀ t ∈ r, Token t := by
      intro r hr
      refine ⟨(hrows r hr).1, fun t ht => ?_⟩
      obtain ⟨d, -, rfl⟩ := (hrows r hr).2 t ht
      exact token_dec d
    have hline : writeCovariance key ((py "comment", .list []) :: (py "epoch", .str e) ::
        (py "cov_ref_frame", .none) :: numbered covarianceAttrs ds) =
        .ok (fillKvn (py "epoch") e none :: (lowerTriangle (ds.map Dec.toStr)).map (joinWith (py "  "))) := by
      have a1 : attrGet (py "comment") ((py "comment", Val.list []) :: (py "epoch", .str e) ::
          (py "cov_ref_frame", .none) :: numbered covarianceAttrs ds) = .ok (.list []) := rfl
      have a2 : attrGet (py "epoch") ((py "comment", Val.list []) :: (py "epoch", .str e) ::
          (py "cov_ref_frame", .none) :: numbered covarianceAttrs ds) = .ok (.str e) := rfl
      have a3 : attrGet (py "cov_ref_frame") ((py "comment", Val.list []) :: (py "epoch", .str e) ::
          (py "cov_ref_frame", .none) :: numbered covarianceAttrs ds) = .ok .none := rfl
      have a4 : (((py "comment", Val.list []) :: (py "epoch", .str e) ::
          (py "cov_ref_frame", .none) :: numbered covarianceAttrs ds).filterMap fun p => valueAttr? p.2).map pyStr =
          ds.map Dec.toStr := by
        rw [List.filterMap_cons_none rfl, List.filterMap_cons_none rfl, List.filterMap_cons_none rfl,
          numbered_values (by rw [hlen]; decide)]
      unfold writeCovariance
      simp only [bind, Except.bind, a1, a2, a3, iterList, a4, triRows_lowerTriangle hlen', mapM_fillSingle htok, pure,
        Except.pure]
      rfl
    have hws : writeSpecial key .OemCovarianceMatrixType ((py "comment", .list []) :: (py "epoch", .str e) ::
        (py "cov_ref_frame", .none) :: numbered covarianceAttrs ds) out =
        .ok (fillKvn (py "epoch") e none :: (lowerTriangle (ds.map Dec.toStr)).map (joinWith (py "  "))) := hline
    simp only [collateObj, hso, if_true, hws, bind, Except.bind, pure, Except.pure]
    have hfirst := C08_value (py "epoch") e epoch_keyword he.trimmed he.noUnit
    have hall := (covariance_tail (Covariance.mk he hlen hfin).text (tail := []) ⟨by simp, by intro l hl; simp at hl⟩).1
    rw [List.append_nil] at hall
    refine ⟨_, rfl, ?_, ?_⟩
    · rw [List.filterMap_cons_some hfirst]
      have : ((lowerTriangle (ds.map Dec.toStr)).map (joinWith (py "  "))).filterMap parseLine =
          (lowerTriangle (ds.map Dec.toStr)).map fun row => [joinWith (py "  ") row] := by
        rw [List.filterMap_map]
        have : ∀ row ∈ lowerTriangle (ds.map Dec.toStr), (parseLine ∘ joinWith (py "  ")) row = some [joinWith (py "  ") row] := by
          intro row hr
          obtain ⟨h1, h2⟩ := htok row hr
          refine parseLine_tokens h1 h2 ?_
          intro c r hc hcC
          subst hcC
          obtain ⟨u, us, rfl⟩ := List.exists_cons_of_ne_nil h1
          obtain ⟨d, hd, rfl⟩ := (hrows _ hr).2 u (by simp)
          simp only [List.head?_cons, Option.some.injEq] at hc
          have := (finite_head hd).1
          rw [hc] at this
          revert this
          show isAsciiUpper 'C' = false → False
          decide
        rw [List.filterMap_congr this]
        simp
      rw [this]
      exact unmarked_self (fun l hl => oem_notMarker (.inl (hall l hl)))
    · intro w hw
      rcases List.mem_cons.mp hw with rfl | hw
      · exact fillKvn_noNewline (by decide) he.oneLine (by simp)
      · obtain ⟨row, hr, rfl⟩ := List.mem_map.mp hw
        exact tokens_noNewline (htok row hr).2

theorem write_oemData {v : Val} {l : List Line} (h : OemDataOk v l) (out : List Str) :
    WritesM (deletedKeywords .Oem) (fun w => '\n' ∉ w) (collateSub (py "data") out v) out l := by
  cases h with
  | @mk texts svs lsv cms lcm ht hlen hne hsv hcm =>
    refine write_nested oem_lines (by decide) (by decide) rfl (by decide) fun ws _ => ?_
    simp only [collateVars]
    refine ((write_comments ht _).toM ?_).thenRun fun ws2 _ => ?_
    · intro l hl
      obtain ⟨t, -, rfl⟩ := List.mem_map.mp hl
      exact oem_notMarker (.inl fun _ => List.mem_cons_of_mem _ oemMetadata_facts.2.2.2)
    · refine (write_many oem_lines stays_true (c := .StateVectorAccType) (by decide) (by decide)
        (fun x l hx => by cases hx; exact ⟨_, rfl⟩) (fun x l out hx _ => write_stateVector hx _ out) hsv trivial).thenRun
        fun ws3 _ => ?_
      have := (write_many oem_lines stays_true (c := .OemCovarianceMatrixType) (key := py "covariance_matrix") (by decide)
        (by decide) (fun x l hx => by cases hx; exact ⟨_, rfl⟩) (fun x l out hx _ => write_covariance hx _ out) hcm
        (out := out ++ ws ++ ws2 ++ ws3) trivial).thenRun (f := fun o => .ok o) (l2 := []) fun ws _ => .nil _
      rw [List.append_nil] at this
      exact this

theorem write_keyBlock {c : Cls} (ho : Bindable c) (hso : isSpecialOut c = false) {D : List Str} (hD : ∀ k ∈ c.keywords, k ∉ D)
    (hl : LineProp D (fun w => '\n' ∉ w)) (hm : marksOf D c = true) (hb : c.blockAttrs = []) {key : Str}
    (hk : key ≠ py "comment" ∧ key ≠ py "user_defined") {v : Val} {ls : List Line} (h : KeyBlock c v ls) (out : List Str) :
    WritesM D (fun w => '\n' ∉ w) (collateSub key out v) out ls := by
  cases h with
  | @mk kvs _ hkv hne hlast =>
    have hkey := keyed ho.members ho.value ho.user
    refine write_nested hl hso hm ?_ hk fun ws _ => ?_
    · rw [any_units (fs := c.keyAttrs) (goodKeys_names hkv), List.any_eq_false]
      intro f hf
      have := (ho.attr f (by rw [ho.order]; simp [hf])).2.1
      simpa using this
    · exact (write_keys hkey.field hkv _).toM fun l hl => hD _ (goodKeys_key hkv.text l hl).1

theorem write_oemMetadata {v : Val} {ls : List Line} (h : KeyBlock .OemMetadata v ls) (out : List Str) :
    WritesM (deletedKeywords .Oem) (fun w => '\n' ∉ w) (collateSub (py "metadata") out v) out ls :=
  write_keyBlock oemMetadata_regular.toBindable (by decide)
    (fun _ hk => oem_notMarker (.inl fun _ => List.mem_cons_of_mem _ hk)) oem_lines (by decide) oemMetadata_facts.1
    (by decide) h out

theorem write_oemSegments {segs : List Val} {ls : List Line} (h : OemSegments segs ls) (out : List Str) :
    WritesM (deletedKeywords .Oem) (fun w => '\n' ∉ w) (collateSub (py "segment") out (.list segs)) out ls := by
  have heach : Each (fun x l => ∃ m lm d ld, x = .obj .OemSegment [(py "metadata", m), (py "data", d)] ∧ l = lm ++ ld ∧
      KeyBlock .OemMetadata m lm ∧ OemDataOk d ld) segs ls := by
    induction h with
    | nil => exact .nil
    | @cons m lm d ld segs ls hm hd _ _ _ ih => exact .cons ⟨m, lm, d, ld, rfl, rfl, hm, hd⟩ ih
  refine write_many oem_lines stays_true (c := .OemSegment) (by decide) (by decide) ?_ ?_ heach trivial
  · rintro x l ⟨m, lm, d, ld, rfl, -⟩
    exact ⟨_, rfl⟩
  · rintro x l out ⟨m, lm, d, ld, rfl, rfl, hm, hd⟩ -
    have hso : isSpecialOut .OemSegment = false := by decide
    simp only [collateObj, hso, Bool.false_eq_true, if_false]
    refine WritesM.blank (by simp) ?_ _
    simp only [collateVars]
    refine (write_oemMetadata hm out).thenRun fun ws _ => ?_
    have := (write_oemData hd (out ++ ws)).thenRun (f := fun o => .ok o) (l2 := []) fun ws _ => .nil _
    rw [List.append_nil] at this
    exact this

theorem write_oem {h : Val} {lh ls : List Line} {segs : List Val} (hh : KeyBlock .NdmHeader h lh)
    (hs : OemSegmentsOf Written StateVector Covariance segs ls) : ∃ text raw, kvnToString (oem h segs) = .ok text ∧
      (splitChar '\n' text).filterMap parseLine = [py "CCSDS_OEM_VERS", py "2.0"] :: raw ∧ deleteMarkers .Oem raw = lh ++ ls := by
  have hk : (Cls.Oem, py "CCSDS_OEM_VERS", py "2.0") ∈ messageKinds := by decide
  have hroot := rootCls hk
  refine write_marked hroot ?_
  simp only [collateVars]
  refine (write_keyBlock ndmHeader_regular.toBindable (by decide) (fun k hk => oem_notMarker (.inr hk)) oem_lines (by decide)
    ndmHeader_facts.1 (by decide) hh _).thenRun fun ws _ => ?_
  have hbody : WritesM (deletedKeywords .Oem) (fun w => '\n' ∉ w)
      (collateSub (py "body") ([fillKvn (py "CCSDS_OEM_VERS") (py "2.0") none] ++ ws)
        (.obj .OemBody [(py "segment", .list segs)])) ([fillKvn (py "CCSDS_OEM_VERS") (py "2.0") none] ++ ws) ls := by
    refine write_nested oem_lines (by decide) (by decide) rfl (by decide) fun ws' _ => ?_
    simp only [collateVars]
    have := (write_oemSegments hs ([fillKvn (py "CCSDS_OEM_VERS") (py "2.0") none] ++ ws ++ ws')).thenRun
      (f := fun o => .ok o) (l2 := []) fun ws _ => .nil _
    rw [List.append_nil] at this
    exact this
  have := hbody.thenRun (f := fun o => .ok o) (l2 := []) fun ws _ => .nil _
  rw [List.append_nil] at this
  exact this

theorem oem_round_trip {o : Val} (h : WellFormedOem o) : ∃ text, kvnToString o = .ok text ∧ kvnFromString text = .ok o := by
  cases h with
  | @mk h lh segs ls hh hne hs =>
    obtain ⟨text, raw, h1, h2, h3⟩ := write_oem hh hs
    have hk : (Cls.Oem, py "CCSDS_OEM_VERS", py "2.0") ∈ messageKinds := by decide
    exact ⟨text, h1, read_oem hk (rootCls hk).xver h2 h3 hh.spelled hs.text hne⟩

end Ndm
