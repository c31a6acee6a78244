import Verif.Lemmas.FromBind

/-! Where built data comes from: documents made of lines, identified trees, building. -/

namespace Ndm

variable {M : Cls} {L : List Line} {att : Bool}

/-- A line whose content may be used: it states what it says, and (`sp`) is a line of the message. -/
structure OkLine (M : Cls) (L : List Line) (sp : Bool) (l : Line) : Prop where
  st : ∀ k t r, l = k :: t :: r → Stated M L k t (unitOf r)
  rot : ∀ k t r, l = k :: t :: r → k ∈ rotationNames → StatedRotation M L k t (unitOf r)
  mem : sp = true → l ∈ L

theorem okLine_mem {sp : Bool} {l : Line} (h : l ∈ L) : OkLine M L sp l :=
  ⟨fun _ _ _ e => .line (e ▸ h), fun _ _ _ e _ => .line (e ▸ h), fun _ => h⟩

theorem two_items {l : Line} {k t : Str} (h0 : pyGet l 0 = .ok k) (h1 : pyGet l 1 = .ok t) : ∃ r, l = k :: t :: r := by
  match l, h0, h1 with
  | [], h0, _ => cases h0
  | [_], _, h1 => cases h1
  | a :: b :: r, h0, h1 => cases h0; cases h1; exact ⟨r, rfl⟩

theorem unitAttrs_ok {k t : Str} {r : List Str} {A : List (Str × Str)}
    (h : unitAttrs (k :: t :: r)[2]? = .ok A) : A = unitOf r := by
  cases r with
  | nil => cases h; rfl
  | cons u r =>
    unfold unitAttrs at h
    simp only [List.getElem?_cons_succ, List.getElem?_cons_zero] at h
    obtain ⟨_, -, h⟩ := bind_ok_iff.mp h
    cases h; rfl

theorem xmlifyItem_items {l : Line} {x : XLeaf} (h : xmlifyItem l = .ok x) :
    ∃ r, l = x.tag :: x.text :: r ∧ x.attrs = unitOf r := by
  unfold xmlifyItem at h
  obtain ⟨k, hk, h⟩ := bind_ok_iff.mp h
  obtain ⟨_, -, h⟩ := bind_ok_iff.mp h
  obtain ⟨A, hA, h⟩ := bind_ok_iff.mp h
  obtain ⟨t, ht, h⟩ := bind_ok_iff.mp h
  obtain ⟨_, -, h⟩ := bind_ok_iff.mp h
  cases h
  obtain ⟨r, rfl⟩ := two_items hk ht
  exact ⟨r, rfl, unitAttrs_ok hA⟩

theorem xmlifyPrefixItem_items {p : Str} {l : Line} {x : XLeaf} (h : xmlifyPrefixItem p l = .ok x) :
    ∃ k r, l = k :: x.text :: r ∧ x.tag = p ∧ x.attrs = [(py "parameter", removeAll (p ++ py "_") k)] := by
  unfold xmlifyPrefixItem at h
  obtain ⟨k, hk, h⟩ := bind_ok_iff.mp h
  obtain ⟨_, -, h⟩ := bind_ok_iff.mp h
  obtain ⟨t, ht, h⟩ := bind_ok_iff.mp h
  obtain ⟨_, -, h⟩ := bind_ok_iff.mp h
  cases h
  obtain ⟨r, rfl⟩ := two_items hk ht
  exact ⟨k, r, rfl, rfl, rfl⟩

/-- A document made of lines that state what they say. -/
structure OkDoc (M : Cls) (L : List Line) (d : XDoc) : Prop where
  attrs : d.attrs = []
  text : d.text = []
  children : ∀ x ∈ d.children, Stated M L x.tag x.text x.attrs

theorem xmlifyList_ok {tag : Str} {items : List Line} {d : XDoc}
    (hi : ∀ l ∈ items, ∀ k t r, l = k :: t :: r → Stated M L k t (unitOf r)) (h : xmlifyList tag items none = .ok d) :
    OkDoc M L d := by
  unfold xmlifyList at h
  obtain ⟨xs, hxs, h⟩ := bind_ok_iff.mp h
  cases h
  refine ⟨rfl, rfl, ?_⟩
  intro x hx
  obtain ⟨l, hl, hf⟩ := mapM_mem hxs x hx
  obtain ⟨r, he, hA⟩ := xmlifyItem_items hf
  rw [hA]
  exact hi l hl _ _ _ he

theorem xmlifyList_user_ok {tag : Str} {items : List Line} {d : XDoc} (hi : ∀ l ∈ items, l ∈ L)
    (h : xmlifyList tag items (some (py "USER_DEFINED")) = .ok d) : OkDoc M L d := by
  unfold xmlifyList at h
  obtain ⟨xs, hxs, h⟩ := bind_ok_iff.mp h
  cases h
  refine ⟨rfl, rfl, ?_⟩
  intro x hx
  obtain ⟨l, hl, hf⟩ := mapM_mem hxs x hx
  obtain ⟨k, r, he, ht, hA⟩ := xmlifyPrefixItem_items hf
  rw [hA, ht]
  exact .user (he ▸ hi l hl)

theorem zipLines_mem {a b : List Str} {l : Line} (h : l ∈ zipLines a b) : ∃ k w, l = [k, w] ∧ k ∈ a ∧ w ∈ b := by
  obtain ⟨⟨k, w⟩, hp, rfl⟩ := List.mem_map.mp h
  exact ⟨k, w, rfl, (List.of_mem_zip hp).1, (List.of_mem_zip hp).2⟩

theorem stated_pair {k w : Str} (h : Stated M L k w []) : ∀ k' t r, [k, w] = k' :: t :: r → Stated M L k' t (unitOf r) := by
  intro k' t r e
  cases e
  exact h

theorem stateVector_ok {kw : List Str} {loc ls : List Line} (hM : M = .Oem) (hkw : ∀ k ∈ kw, k ∈ columnKeywords) (hm : ∀ l ∈ loc, l ∈ L)
    (h : stateVectorLines kw loc = .ok ls) : ∀ l ∈ ls, ∀ k t r, l = k :: t :: r → Stated M L k t (unitOf r) := by
  unfold stateVectorLines at h
  obtain ⟨l0, h0, h⟩ := bind_ok_iff.mp h
  obtain ⟨s, hs, h⟩ := bind_ok_iff.mp h
  cases h
  intro l hl
  obtain ⟨k, w, rfl, hk, hw⟩ := zipLines_mem hl
  have hmem := hm l0 (pyGet_mem h0)
  match l0, hs, hmem with
  | s' :: r, hs, hmem => cases hs; exact stated_pair (.word (hM ▸ List.mem_cons_self) (hkw k hk) hmem hw)

theorem headD_cons {l : Line} {w : Str} (h : w ∈ words (l.headD [])) : ∃ s r, l = s :: r ∧ w ∈ words s := by
  match l, h with
  | [], h => exact absurd h (List.not_mem_nil (a := w))
  | s :: r, h => exact ⟨s, r, rfl, h⟩

theorem covariance_ok {kw : List Str} {loc : List Line} (hM : M = .Oem) (hkw : ∀ k ∈ kw.drop 3, k ∈ columnKeywords)
    (hm : ∀ l ∈ loc, l ∈ L) :
    ∀ l ∈ covarianceLines kw loc, ∀ k t r, l = k :: t :: r → Stated M L k t (unitOf r) := by
  intro l hl
  unfold covarianceLines at hl
  simp only [List.mem_append] at hl
  rcases hl with hl | hl
  · intro k t r e
    exact .line (e ▸ hm l (List.mem_of_mem_filter hl))
  · obtain ⟨k, w, rfl, hk, hw⟩ := zipLines_mem hl
    obtain ⟨l0, hl0, hw⟩ := List.mem_flatMap.mp hw
    obtain ⟨s, r, rfl, hw⟩ := headD_cons hw
    exact stated_pair (.word (hM ▸ List.mem_cons_self) (hkw k hk) (hm _ (List.mem_of_mem_filter hl0)) hw)

theorem observation_ok {loc ls : List Line} (hM : M = .Tdm) (hm : ∀ l ∈ loc, l ∈ L)
    (h : observationLines loc = .ok ls) : ∀ l ∈ ls, ∀ k t r, l = k :: t :: r → Stated M L k t (unitOf r) := by
  unfold observationLines at h
  obtain ⟨l0, h0, h⟩ := bind_ok_iff.mp h
  obtain ⟨k, hk, h⟩ := bind_ok_iff.mp h
  obtain ⟨s, hs, h⟩ := bind_ok_iff.mp h
  cases h
  have hmem := hm l0 (pyGet_mem h0)
  obtain ⟨r, rfl⟩ := two_items hk hs
  intro l hl
  unfold zipLines at hl
  cases hw : words s with
  | nil => rw [hw] at hl; cases hl
  | cons w ws =>
    rw [hw] at hl
    cases ws with
    | nil =>
      simp only [List.zip_cons_cons, List.zip_nil_right, List.map_cons, List.map_nil, List.mem_singleton] at hl
      subst hl
      exact stated_pair (.time hM hmem hw)
    | cons x ws =>
      simp only [List.zip_cons_cons, List.zip_nil_left, List.map_cons, List.map_nil, List.mem_cons,
        List.not_mem_nil, or_false] at hl
      rcases hl with rfl | rfl
      · exact stated_pair (.time hM hmem hw)
      · exact stated_pair (.observed hM hmem hw)

/-! ## Trees -/

/-- Neither a special class nor user-defined parameters occur in the tree. -/
inductive PlainTree : Elem → Prop
  | mk {e : Elem} (hb : isSpecialBuild e.cls = false) (hu : prefixOf e.cls = none)
      (hs : ∀ s ∈ e.subs, PlainTree s) : PlainTree e

theorem PlainTree.inst {e e' : Elem} (h : PlainTree e) (hi : Inst e e') : PlainTree e' := by
  induction hi with
  | @mk e e' hname hcls hlist hsingle htmpl f hf hi ih =>
    cases h with
    | mk hb hu hs => exact .mk (by rw [hcls]; exact hb) (by rw [hcls]; exact hu) fun s hs' => ih s hs' (hs _ (hf s hs'))

/-- An attitude line template consists of column keywords, and its rotation names stem from a stated rotation
sequence. -/
def TemplateOk (M : Cls) (L : List Line) (t : List Str) : Prop :=
  M = .Aem ∧ ∀ k ∈ t, k ∈ columnKeywords ∧ (k ∈ rotationNames → ∃ seq r c, (py "EULER_ROT_SEQ" :: seq :: r) ∈ L ∧ c ∈ seq ∧ AxisOf c k)

/-- The keyword lists of state vectors and covariance matrices consist of column keywords (a matrix has three other
keywords first); these and the other special classes are in their own kinds of messages. -/
def Columns (M cls : Cls) (kw : List Str) : Prop :=
  (cls = .StateVectorAccType → M = .Oem ∧ ∀ k ∈ kw, k ∈ columnKeywords) ∧
  (cls = .OemCovarianceMatrixType → M = .Oem ∧ ∀ k ∈ kw.drop 3, k ∈ columnKeywords) ∧
  (cls = .TrackingDataObservationType → M = .Tdm) ∧ (cls = .AemSegment → M = .Aem)

/-- Single elements are rotations, all others blocks. -/
def KindOk (cls : Cls) (single : Option Str) : Prop :=
  (single.isSome = true → cls ∈ rotationClasses) ∧ (single = none → cls.IsBlock)

/-- What the reader relies on: single elements are rotations, attitude states contain plain elements only, and
templates are justified. -/
inductive SoundTree (M : Cls) (L : List Line) : Elem → Prop
  | mk {e : Elem} (h1 : e.single.isSome = true → prefixOf e.cls = none ∧ ∀ k ∈ e.kw, k ∈ rotationNames)
      (h2 : ∀ t, e.template = some t → TemplateOk M L t)
      (h3 : e.cls = .AttitudeStateType → ∀ s ∈ e.subs, PlainTree s)
      (h4 : py "id" ∉ e.kw ∧ KindOk e.cls e.single) (h5 : e.single.isSome = true → e.subs = []) (h6 : Columns M e.cls e.kw)
      (hs : ∀ s ∈ e.subs, SoundTree M L s) : SoundTree M L e

theorem getMinMax_kw {tags kw : List Str} {start : Nat} {keys : List Str} {pref : Option Str} {single : Bool}
    {mm : Nat × Nat} (h : getMinMax tags start keys pref single = .ok (mm, kw)) : kw = withPrefix tags start keys pref := by
  unfold getMinMax at h
  obtain ⟨idx, hidx, h⟩ := bind_ok_iff.mp h
  obtain ⟨idx', hidx', h⟩ := bind_ok_iff.mp h
  cases h
  rfl

/-- Identification leaves the keyword list alone, except that the names of user-defined parameters join it. -/
theorem rootRange_keywords {e : Elem} {keys : List Str} {lines : List Line} {init : Nat} {mm : Nat × Nat} {kw : List Str}
    (h : rootRange e keys lines init = .ok (mm, kw)) : kw = withPrefix e.kw init keys (prefixOf e.cls) ∨ kw = e.kw := by
  unfold rootRange at h
  split at h
  · unfold identifySpecial at h
    split at h
    · obtain ⟨l, hl', h⟩ := bind_ok_iff.mp h
      obtain ⟨s, -, h⟩ := bind_ok_iff.mp h
      obtain ⟨d, -, h⟩ := bind_ok_iff.mp h
      obtain ⟨b, -, h⟩ := bind_ok_iff.mp h
      cases h; exact Or.inr rfl
    · split at h
      · obtain ⟨l, hl', h⟩ := bind_ok_iff.mp h
        obtain ⟨s, -, h⟩ := bind_ok_iff.mp h
        obtain ⟨d, -, h⟩ := bind_ok_iff.mp h
        obtain ⟨b, -, h⟩ := bind_ok_iff.mp h
        cases h; exact Or.inr rfl
      · split at h
        · obtain ⟨⟨⟨lo, hi'⟩, kw'⟩, hg, h⟩ := bind_ok_iff.mp h
          have := getMinMax_kw hg
          simp only at h
          split at h <;> (cases h; exact Or.inl this)
        · cases h
  · exact Or.inl (getMinMax_kw h)

/-- The conditions of `SoundTree` on the keyword list of one element. -/
structure KwOk (M cls : Cls) (one : Option Str) (kw : List Str) : Prop where
  single : one.isSome = true → prefixOf cls = none ∧ ∀ k ∈ kw, k ∈ rotationNames
  id : py "id" ∉ kw ∧ KindOk cls one
  columns : Columns M cls kw

theorem KwOk.range {e : Elem} {keys : List Str} {lines : List Line} {init : Nat} {mm : Nat × Nat} {kw : List Str}
    (hk : KwOk M e.cls e.single e.kw) (h : rootRange e keys lines init = .ok (mm, kw)) : KwOk M e.cls e.single kw := by
  rcases rootRange_keywords h with rfl | rfl
  · cases hp : prefixOf e.cls with
    | none => exact hk
    | some p =>
      refine ⟨fun hs => ?_, ?_, ?_, ?_, ?_, ?_⟩
      · have := (hk.single hs).1
        rw [hp] at this; cases this
      · refine ⟨?_, hk.id.2⟩
        simp only [withPrefix, List.mem_append, List.mem_filter, not_or, not_and]
        refine ⟨hk.id.1, fun _ => ?_⟩
        unfold prefixOf at hp
        split at hp
        · cases hp; decide
        · cases hp
      · intro hc; rw [hc] at hp; cases hp
      · intro hc; rw [hc] at hp; cases hp
      · exact hk.columns.2.2.1
      · exact hk.columns.2.2.2
  · exact hk

theorem SoundTree.kw {e : Elem} (h : SoundTree M L e) : KwOk M e.cls e.single e.kw := by
  cases h with
  | mk h1 h2 h3 h4 h5 h6 hs => exact ⟨h1, h4, h6⟩

theorem SoundTree.setRange {e : Elem} {mm : Option (Nat × Nat)} {kw : List Str} (h : SoundTree M L e)
    (hk : KwOk M e.cls e.single kw) : SoundTree M L { e with minMax := mm, kw := kw } := by
  cases h with
  | mk h1 h2 h3 h4 h5 h6 hs => exact .mk hk.single h2 h3 hk.id h5 hk.columns hs

theorem listLoop_sound {ident : Nat → Except PyErr (Nat × (Nat × Nat) × Elem)} {nLines : Nat}
    (hid : ∀ i mx mm e, ident i = .ok (mx, mm, e) → SoundTree M L e) :
    ∀ (fuel init : Nat) (acc : List Elem) (r : Nat) (es : List Elem), (∀ s ∈ acc, SoundTree M L s) →
      listLoop ident nLines fuel init acc = .ok (r, es) → ∀ s ∈ es, SoundTree M L s
  | 0, _, _, _, _, _, h => by cases h
  | fuel + 1, init, acc, r, es, hacc, h => by
    unfold listLoop at h
    obtain ⟨⟨mx, mm, e⟩, hid', h⟩ := bind_ok_iff.mp h
    have hrev : ∀ (l : List Elem), (∀ s ∈ l, SoundTree M L s) → ∀ s ∈ l.reverse, SoundTree M L s :=
      fun l hl s hs => hl s (List.mem_reverse.mp hs)
    simp only at h
    split at h
    · cases h; exact hrev _ hacc
    · split at h
      · cases h; exact hrev _ hacc
      · have hacc' : ∀ s ∈ ({ e with minMax := some mm } :: acc), SoundTree M L s := by
          intro s hs
          rcases List.mem_cons.mp hs with rfl | hs
          · have := hid init mx mm e hid'
            exact this.setRange this.kw
          · exact hacc s hs
        split at h
        · cases h; exact hrev _ hacc'
        · exact listLoop_sound hid fuel mx _ r es hacc' h

mutual
theorem identElem_sound {keys : List Str} {lines : List Line} : ∀ (e : Elem) (init mx : Nat) (mm : Nat × Nat)
    (e' : Elem), SoundTree M L e → identElem keys lines e init = .ok (mx, mm, e') → SoundTree M L e'
  | ⟨name, cls, subs, kw, isList, single, minMax, template⟩, init, mx, mm, e', hs, h => by
    simp only [identElem] at h
    obtain ⟨⟨mm', kw'⟩, hr, h⟩ := bind_ok_iff.mp h
    obtain ⟨⟨mx', subs'⟩, hs', h⟩ := bind_ok_iff.mp h
    cases h
    have hk := hs.kw.range hr
    cases hs with
    | mk h1 h2 h3 h4 h5 h6 hs =>
      refine .mk hk.single h2 ?_ hk.id ?_ hk.columns (identSubs_sound subs mm'.1 mm'.2 mx' subs' hs hs')
      swap
      · intro hsg
        have := h5 hsg
        simp only at this
        subst this
        simp only [identSubs] at hs'
        cases hs'
        rfl
      intro hc s hsm
      obtain ⟨t, ht, hi⟩ := identSubs_inst subs mm'.1 mm'.2 mx' subs' hs' s hsm
      exact (h3 hc t ht).inst hi

theorem identSubs_sound {keys : List Str} {lines : List Line} : ∀ (ss : List Elem) (rootMin init mx : Nat)
    (es : List Elem), (∀ s ∈ ss, SoundTree M L s) → identSubs keys lines rootMin ss init = .ok (mx, es) →
    ∀ s ∈ es, SoundTree M L s
  | [], rootMin, init, mx, es, _, h => by
    simp only [identSubs] at h
    cases h
    intro s hs; cases hs
  | s :: rest, rootMin, init, mx, es, hs, h => by
    simp only [identSubs] at h
    split at h
    · obtain ⟨⟨m1, es1⟩, h1, h⟩ := bind_ok_iff.mp h
      obtain ⟨⟨m2, es2⟩, h2, h⟩ := bind_ok_iff.mp h
      cases h
      have r1 := listLoop_sound (fun i mx mm e h => identElem_sound s i mx mm e (hs s (by simp)) h) _ init [] m1 es1
        (by intro s hs; cases hs) h1
      have r2 := identSubs_sound rest rootMin m1 m2 es2 (fun x hx => hs x (by simp [hx])) h2
      intro x hx
      rcases List.mem_append.mp hx with hx | hx
      · exact r1 x hx
      · exact r2 x hx
    · obtain ⟨⟨m1, mm1, s1⟩, h1, h⟩ := bind_ok_iff.mp h
      obtain ⟨⟨mm2, kw2⟩, h2, h⟩ := bind_ok_iff.mp h
      obtain ⟨⟨m3, es3⟩, h3, h⟩ := bind_ok_iff.mp h
      cases h
      have r1 := identElem_sound s init m1 mm1 s1 (hs s (by simp)) h1
      have r3 := identSubs_sound rest rootMin m1 m3 es3 (fun x hx => hs x (by simp [hx])) h3
      intro x hx
      rcases List.mem_cons.mp hx with rfl | hx
      · refine r1.setRange ?_
        unfold researchRange at h2
        split at h2
        · exact r1.kw.range h2
        · cases h2; exact r1.kw
      · exact r3 x hx
end

/-! ## Templates -/

theorem metaValue_mem {key : Str} {keys : List Str} {lines : List Line} {start : Nat} {v : Str}
    (hk : keys = keysOf lines) (hne : ∀ l ∈ lines, l ≠ []) (h : metaValue key keys lines start = .ok v) :
    ∃ r, (key :: v :: r) ∈ lines := by
  unfold metaValue at h
  split at h
  · cases h
  · rename_i i hi
    obtain ⟨l, hl, h⟩ := bind_ok_iff.mp h
    have hki := (findFrom_some hi).2.2.1
    rw [hk] at hki
    unfold keysOf at hki
    rw [List.getElem?_map, pyGet_ok_iff.mp hl] at hki
    simp only [Option.map_some, Option.some.injEq] at hki
    have hmem := pyGet_mem hl
    have hnl := hne l hmem
    match l, hnl, hki, h, hmem with
    | k :: rest, _, hki, h, hmem =>
      simp only [List.headD_cons] at hki
      subst hki
      obtain ⟨r, he⟩ := two_items (l := k :: rest) rfl h
      exact ⟨r, he ▸ hmem⟩

theorem eulerId_axis {suffix : Str} {c : Char} {k : Str} (hs : suffix = py "_ANGLE" ∨ suffix = py "_RATE")
    (h : eulerId suffix c = .ok k) : AxisOf c k := by
  unfold eulerId at h
  split at h
  · rename_i hc; subst hc; cases h
    rcases hs with rfl | rfl
    · exact .x1
    · exact .x2
  · split at h
    · rename_i hc; subst hc; cases h
      rcases hs with rfl | rfl
      · exact .y1
      · exact .y2
    · split at h
      · rename_i hc; subst hc; cases h
        rcases hs with rfl | rfl
        · exact .z1
        · exact .z2
      · cases h

theorem AxisOf.column {c : Char} {k : Str} (h : AxisOf c k) : k ∈ columnKeywords := by
  cases h <;> decide

theorem quaternionTemplate_names (a q : Str) :
    ∀ k ∈ quaternionTemplate a q, k ∈ columnKeywords ∧ k ∉ rotationNames := by
  have : ∀ x ∈ [py "QC", py "Q1", py "Q2", py "Q3", py "QC_DOT", py "Q1_DOT", py "Q2_DOT", py "Q3_DOT"],
      x ∈ columnKeywords ∧ x ∉ rotationNames := by decide
  intro k hk
  refine this k ?_
  unfold quaternionTemplate at hk
  rcases List.mem_append.mp hk with h | h
  · refine (show ∀ x ∈ _, x ∈ _ from ?_) k h
    split <;> decide
  · refine (show ∀ x ∈ _, x ∈ _ from ?_) k h
    split
    · split <;> decide
    · decide

theorem attTemplate_ok {keys : List Str} {lines : List Line} {start : Nat} {t : List Str} {av : Option Str}
    (hM : M = .Aem) (hk : keys = keysOf lines) (hne : ∀ l ∈ lines, l ≠ [])
    (hL : ∀ seq r, (py "EULER_ROT_SEQ" :: seq :: r) ∈ lines → (py "EULER_ROT_SEQ" :: seq :: r) ∈ L)
    (h : attTemplate keys lines start = .ok (t, av)) : TemplateOk M L t := by
  unfold attTemplate at h
  obtain ⟨ty, -, h⟩ := bind_ok_iff.mp h
  obtain ⟨q, hq, h⟩ := bind_ok_iff.mp h
  obtain ⟨e, he, h⟩ := bind_ok_iff.mp h
  cases h
  refine ⟨hM, ?_⟩
  intro k hkm
  rcases List.mem_cons.mp hkm with rfl | hkm
  · exact ⟨by decide, fun hrot => absurd hrot (by decide)⟩
  · rcases List.mem_append.mp hkm with hkm | hkm
    · unfold quaternionPart at hq
      split at hq
      · obtain ⟨qt, -, hq⟩ := bind_ok_iff.mp hq
        cases hq
        obtain ⟨h1, h2⟩ := quaternionTemplate_names _ _ k hkm
        exact ⟨h1, fun hrot => absurd hrot h2⟩
      · cases hq; cases hkm
    · unfold eulerPart at he
      split at he
      · obtain ⟨seq, hseq, he⟩ := bind_ok_iff.mp he
        obtain ⟨r, hr⟩ := metaValue_mem hk hne hseq
        unfold eulerTemplate at he
        obtain ⟨a, ha, he⟩ := bind_ok_iff.mp he
        obtain ⟨b, hb, he⟩ := bind_ok_iff.mp he
        cases he
        rcases List.mem_append.mp hkm with hkm | hkm
        · obtain ⟨c, hc, hck⟩ := mapM_mem ha k hkm
          split at hc
          · have hax := eulerId_axis (Or.inl rfl) hck
            exact ⟨hax.column, fun _ => ⟨seq, r, c, hL _ _ hr, hc, hax⟩⟩
          · cases hc
        · obtain ⟨c, hc, hck⟩ := mapM_mem hb k hkm
          split at hc
          · have hax := eulerId_axis (Or.inr rfl) hck
            exact ⟨hax.column, fun _ => ⟨seq, r, c, hL _ _ hr, hc, hax⟩⟩
          · cases hc
      · cases he; cases hkm

theorem prepare_sound {keys : List Str} {lines : List Line} {e : Elem} {start : Nat} {subs : List Elem}
    (hM : M = .Aem) (hk : keys = keysOf lines) (hne : ∀ l ∈ lines, l ≠ [])
    (hL : ∀ seq r, (py "EULER_ROT_SEQ" :: seq :: r) ∈ lines → (py "EULER_ROT_SEQ" :: seq :: r) ∈ L)
    (hs : SoundTree M L e) (h : prepareAemSegment keys lines e start = .ok subs) : ∀ s ∈ subs, SoundTree M L s := by
  unfold prepareAemSegment at h
  obtain ⟨data, hd, h⟩ := bind_ok_iff.mp h
  obtain ⟨⟨tm, av⟩, htm, h⟩ := bind_ok_iff.mp h
  have hok := attTemplate_ok hM hk hne hL htm
  cases h
  cases hs with
  | mk h1 h2 h3 h4 h5 h6 hs =>
    intro s hsm
    rcases List.mem_or_eq_of_mem_set hsm with hsm | rfl
    · exact hs s hsm
    · cases hs data (pyGet_mem hd) with
      | mk d1 d2 d3 d4 d5 d6 ds =>
        refine .mk d1 d2 ?_ d4 (fun hsg => by simp only [d5 hsg, List.map_nil]) d6 ?_
        · intro hc x hx
          obtain ⟨x', hx', rfl⟩ := List.mem_map.mp hx
          cases d3 hc x' hx' with
          | mk p1 p2 p3 => exact .mk p1 p2 fun y hy => p3 y (List.mem_of_mem_filter hy)
        · intro x hx
          obtain ⟨x', hx', rfl⟩ := List.mem_map.mp hx
          cases ds x' hx' with
          | mk x1 x2 x3 x4 x5 x6 xs =>
            refine .mk x1 ?_ ?_ x4 (fun hsg => by simp only [x5 hsg, List.filter_nil]) x6 fun y hy => xs y (List.mem_of_mem_filter hy)
            · intro t ht
              cases ht
              exact hok
            · intro hc y hy
              exact x3 hc y (List.mem_of_mem_filter hy)

/-! ## Ranges -/

/-- No non-empty range in the tree starts before line `b`. -/
inductive Low (b : Nat) : Elem → Prop
  | mk {e : Elem} (h : ∀ lo hi, e.minMax = some (lo, hi) → lo < hi → b ≤ lo) (hs : ∀ s ∈ e.subs, Low b s) : Low b e

theorem Ranged.low {n b : Nat} {e : Elem} (h : Ranged n b e) : Low b e := by
  induction h with
  | @mk base e a c hmm h1 h2 h3 hs ih =>
    refine .mk ?_ ?_
    · intro lo hi he _
      rw [hmm] at he
      cases he
      exact h1
    · intro s hsm
      have mono : ∀ {x : Elem}, Low a x → Low base x := by
        intro x hx
        induction hx with
        | mk h hs ih => exact .mk (fun lo hi he hlt => Nat.le_trans h1 (h lo hi he hlt)) ih
      exact mono (ih s hsm)

theorem prepare_low {keys : List Str} {lines : List Line} {e : Elem} {start b : Nat} {subs : List Elem}
    (hd : ∀ s ∈ e.subs, Low b s) (h : prepareAemSegment keys lines e start = .ok subs) : ∀ s ∈ subs, Low b s := by
  intro s hs
  rcases prepare_subs h s hs with hs | ⟨d, hds, tm, av, rfl⟩
  · exact hd s hs
  · cases hd d hds with
    | mk h1 hs1 =>
      refine .mk h1 ?_
      intro x hx
      obtain ⟨x', hx', rfl⟩ := List.mem_map.mp hx
      cases hs1 x' hx' with
      | mk h2 hs2 => exact .mk h2 fun y hy => hs2 y (List.mem_of_mem_filter hy)

/-! ## Building -/

theorem plainDoc_from {e : Elem} {loc : List Line} {d : XDoc} {v : Val} {sp : Bool} (hs : SoundTree M L e)
    (hsp : sp = false → prefixOf e.cls = none) (hloc : ∀ l ∈ loc, OkLine M L sp l) (h : plainDoc e loc = .ok (some d))
    (hb : bindDoc e.cls d = .ok v) :
    ∃ vs, v = .obj e.cls vs ∧ (e.cls.IsBlock ∧ FieldsFrom M L att e.cls vs ∨ e.single.isSome = true ∧ From M L att v) := by
  have h1 := hs.kw.single
  obtain ⟨h4, hrc, hbl⟩ := hs.kw.id
  unfold plainDoc at h
  simp only at h
  generalize hfl : (if (prefixOf e.cls).isSome = true then loc else
    loc.filter (fun l => e.kw.contains (l.headD []))) = fl at h
  have hmem : ∀ l ∈ fl, l ∈ loc := by
    intro l hl
    rw [← hfl] at hl
    split at hl
    · exact hl
    · exact List.mem_of_mem_filter hl
  split at h
  · cases h
  · split at h
    · rename_i he
      exact absurd (by rw [he]; simp) h4
    · split at h
      · rename_i p hp
        obtain ⟨d', hd, he⟩ := map_ok_iff.mp h
        cases he
        obtain ⟨hpn, hrot⟩ := h1 (by rw [hp]; rfl)
        unfold xmlifySingle at hd
        obtain ⟨item, hi, hd⟩ := bind_ok_iff.mp hd
        obtain ⟨text, ht, hd⟩ := bind_ok_iff.mp hd
        obtain ⟨_, -, hd⟩ := bind_ok_iff.mp hd
        obtain ⟨key, hk, hd⟩ := bind_ok_iff.mp hd
        obtain ⟨_, -, hd⟩ := bind_ok_iff.mp hd
        obtain ⟨r, rfl⟩ := two_items hk ht
        have hil := pyGet_mem hi
        have hkey : key ∈ rotationNames := by
          rw [← hfl, hpn] at hil
          simp only [Option.isSome_none, Bool.false_eq_true, if_false] at hil
          have := (List.mem_filter.mp hil).2
          exact hrot _ (by simpa using this)
        have hr := (hloc _ (hmem _ hil)).rot key text r rfl hkey
        have hdoc : d.children = [] ∧ d.text = text ∧ d.attrs = (p, key) :: unitOf r := by
          cases r with
          | nil =>
            simp only [List.getElem?_cons_succ, List.getElem?_nil] at hd
            cases hd
            exact ⟨rfl, rfl, rfl⟩
          | cons u r =>
            simp only [List.getElem?_cons_succ, List.getElem?_cons_zero] at hd
            obtain ⟨_, -, hd⟩ := bind_ok_iff.mp hd
            cases hd
            exact ⟨rfl, rfl, rfl⟩
        obtain ⟨vs, rfl, hsf⟩ := bindDoc_simple (att := att) hdoc.1 hb
        rw [hdoc.2.1, hdoc.2.2] at hsf
        exact ⟨vs, rfl, Or.inr ⟨by rw [hp]; rfl, .rotation (hrc (by rw [hp]; rfl)) hr hsf⟩⟩
      · rename_i hsg
        obtain ⟨d', hd, he⟩ := map_ok_iff.mp h
        cases he
        have hok : OkDoc M L d := by
          cases hpn : prefixOf e.cls with
          | none =>
            rw [hpn] at hd
            exact xmlifyList_ok (fun l hl => (hloc l (hmem l hl)).st) hd
          | some p =>
            have hspt : sp = true := by
              cases sp with
              | true => rfl
              | false => rw [hsp rfl] at hpn; cases hpn
            rw [hpn] at hd
            have hp : p = py "USER_DEFINED" := by
              unfold prefixOf at hpn
              split at hpn
              · cases hpn; rfl
              · cases hpn
            subst hp
            exact xmlifyList_user_ok (fun l hl => (hloc l (hmem l hl)).mem hspt) hd
        obtain ⟨vs, rfl, hf⟩ := bindDoc_from (att := att) (Or.inl hok.attrs) hok.text hok.children hb
        exact ⟨vs, rfl, Or.inl ⟨hbl hsg, hf⟩⟩

theorem slot_kind {c d : Cls} {name : Str} (hd : d.members = none) (hslot : HasSlot c name d) :
    ∀ f ∈ c.fields, f.name = name → f.kind = .elem := by
  obtain ⟨g, hga, hgn, hgt⟩ := hslot
  intro f hf hn
  have : f = g := eq_of_name (names_nodup c) hf (mem_attrs hga) (by rw [hn, hgn])
  subst this
  by_contra hk
  have := (leaf_field hf hk).1
  rw [hgt] at this
  simp [FTy.isBlock, hd] at this

theorem sectionDoc_from {keys : List Str} {lines : List Line} {e : Elem} {loc : List Line} {hi : Nat} {doc : XDoc}
    {subs : List Elem} {v : Val} (hs : SoundTree M L e) (hpl : att = true → PlainTree e)
    (hloc : ∀ l ∈ loc, OkLine M L (!att) l) (h : sectionDoc keys lines e loc hi = .ok (some (doc, subs)))
    (hb : bindDoc e.cls doc = .ok v) :
    ∃ vs, v = .obj e.cls vs ∧ (e.cls.IsBlock ∧ FieldsFrom M L att e.cls vs ∨ subs = [] ∧ From M L att v) := by
  have fin : e.cls ∉ rotationClasses → OkDoc M L doc → ∃ vs, v = .obj e.cls vs ∧ (e.cls.IsBlock ∧ FieldsFrom M L att e.cls vs ∨ subs = [] ∧ From M L att v) := by
    intro hnr hok
    obtain ⟨vs, rfl, hf⟩ := bindDoc_from (att := att) (Or.inl hok.attrs) hok.text hok.children hb
    refine ⟨vs, rfl, Or.inl ⟨hs.kw.id.2.2 ?_, hf⟩⟩
    cases hsg : e.single with
    | none => rfl
    | some p => exact absurd (hs.kw.id.2.1 (by rw [hsg]; rfl)) hnr
  have hspecial : isSpecialBuild e.cls = true → ∀ l ∈ loc, l ∈ L := by
    intro hsp l hl
    refine (hloc l hl).mem ?_
    cases att with
    | false => rfl
    | true =>
      cases hpl rfl with
      | mk hb _ _ => rw [hsp] at hb; cases hb
  unfold sectionDoc at h
  split at h
  · rename_i hc
    obtain ⟨ss, hss, h⟩ := bind_ok_iff.mp h
    obtain ⟨d, hd, h⟩ := bind_ok_iff.mp h
    cases h
    exact fin (by rw [hc]; decide) (xmlifyList_ok (fun l hl => (hloc l hl).st) hd)
  · split at h
    · rename_i hc
      obtain ⟨ls, hls, h⟩ := bind_ok_iff.mp h
      obtain ⟨d, hd, h⟩ := bind_ok_iff.mp h
      cases h
      exact fin (by rw [hc]; decide) (xmlifyList_ok (stateVector_ok (hs.kw.columns.1 hc).1 (hs.kw.columns.1 hc).2 (hspecial (by rw [hc]; rfl)) hls) hd)
    · split at h
      · rename_i hc
        obtain ⟨d, hd, h⟩ := bind_ok_iff.mp h
        cases h
        exact fin (by rw [hc]; decide) (xmlifyList_ok (covariance_ok (hs.kw.columns.2.1 hc).1 (hs.kw.columns.2.1 hc).2 (hspecial (by rw [hc]; rfl))) hd)
      · split at h
        · rename_i hc
          obtain ⟨ls, hls, h⟩ := bind_ok_iff.mp h
          obtain ⟨d, hd, h⟩ := bind_ok_iff.mp h
          cases h
          exact fin (by rw [hc]; decide) (xmlifyList_ok (observation_ok (hs.kw.columns.2.2.1 hc) (hspecial (by rw [hc]; rfl)) hls) hd)
        · obtain ⟨d, hd, h⟩ := bind_ok_iff.mp h
          cases d with
          | none => cases h
          | some d =>
            cases h
            obtain ⟨vs, rfl, hv⟩ := plainDoc_from (att := att) (sp := !att) hs (fun hsp => by
              cases att with
              | false => cases hsp
              | true => cases hpl rfl with | mk _ hu _ => exact hu) hloc hd hb
            refine ⟨vs, rfl, hv.imp id fun hf => ⟨?_, hf.2⟩⟩
            cases hs with
            | mk _ _ _ _ h5 _ => exact h5 hf.1

/-- Everything built from a sound tree was stated by the lines. -/
theorem build_from {keys : List Str} {lines : List Line} (hk : keys = keysOf lines) (hne : ∀ l ∈ lines, l ≠ [])
    (hL : ∀ seq r, (py "EULER_ROT_SEQ" :: seq :: r) ∈ lines → (py "EULER_ROT_SEQ" :: seq :: r) ∈ L) :
    ∀ (fuel : Nat) (e : Elem) (full : List Line) (att : Bool) (b : Nat) (v : Val), Typed e → SoundTree M L e →
      (att = true → PlainTree e) → (b = 0 ∨ Low b e) → (∀ l ∈ full.drop b, OkLine M L (!att) l) →
      build keys lines fuel e full = .ok v → v = .none ∨ ∃ vs, v = .obj e.cls vs ∧ From M L att v
  | 0, _, _, _, _, _, _, _, _, _, _, h => by cases h
  | fuel + 1, e, full, att, b, v, ht, hst, hpl, hlow, hfull, h => by
    have hm : e.cls.members = none := by cases ht; assumption
    unfold build at h
    split at h
    · cases h
    · rename_i lo hi hmm
      simp only at h
      split at h
      · cases h; exact Or.inl rfl
      · have hloc : ∀ l ∈ (full.drop lo).take (hi - lo), OkLine M L (!att) l := by
          intro l hl
          by_cases hlt : lo < hi
          · have hb : b ≤ lo := by
              rcases hlow with rfl | hlow
              · exact Nat.zero_le _
              · cases hlow with
                | mk hlw _ => exact hlw lo hi hmm hlt
            refine hfull l ?_
            have := List.mem_of_mem_take hl
            obtain ⟨k, rfl⟩ := Nat.exists_eq_add_of_le hb
            rw [← List.drop_drop] at this
            exact List.mem_of_mem_drop this
          · rw [show hi - lo = 0 by omega] at hl
            simp at hl
        generalize hlc : (full.drop lo).take (hi - lo) = loc at h hloc
        split at h
        · rename_i hcls
          right
          have hatt : att = false := by
            cases att with
            | false => rfl
            | true =>
              cases hpl rfl with
              | mk hb _ _ => rw [hcls] at hb; cases hb
          subst hatt
          obtain ⟨tm, htm, h⟩ := bind_ok_iff.mp h
          obtain ⟨l, hl, h⟩ := bind_ok_iff.mp h
          obtain ⟨s, hs, h⟩ := bind_ok_iff.mp h
          obtain ⟨⟨mx, mm, e'⟩, hid, h⟩ := bind_ok_iff.mp h
          obtain ⟨s0, hs0, h⟩ := bind_ok_iff.mp h
          obtain ⟨inner, hin, h⟩ := bind_ok_iff.mp h
          obtain ⟨at', hatt, h⟩ := bind_ok_iff.mp h
          cases h
          have hlm : l ∈ L := (hloc l (pyGet_mem hl)).mem rfl
          obtain ⟨r, rfl⟩ : ∃ r, l = s :: r := by
            match l, hs with
            | a :: r, hs => cases hs; exact ⟨r, rfl⟩
          have hi := identElem_inst _ _ _ _ _ hid
          have ht' := ht.inst hi
          have hst' := identElem_sound (L := L) _ _ _ _ _ hst hid
          have hplain : PlainTree s0 := by
            obtain ⟨t, htm, hit⟩ := hi.sub (pyGet_mem hs0)
            cases hst with
            | mk _ _ h3 _ _ _ _ => exact (h3 hcls t htm).inst hit
          have htok : TemplateOk M L tm := by
            unfold templateOf at htm
            cases hst with
            | mk _ h2 _ _ _ _ _ =>
              cases hte : e.template with
              | none => rw [hte] at htm; cases htm
              | some t => rw [hte] at htm; cases htm; exact h2 _ hte
          cases ht' with
          | mk hm' hslot hty =>
            have h0 := pyGet_mem hs0
            have hsl := hslot s0 h0
            rw [hi.cls] at hsl
            have hsynth : ∀ x ∈ (zipLines tm (words s)).drop 0, OkLine M L (!true) x := by
              intro x hx
              rw [List.drop_zero] at hx
              obtain ⟨k, w, rfl, hkt, hw⟩ := zipLines_mem hx
              refine ⟨stated_pair (.word (htok.1 ▸ List.mem_cons_of_mem _ List.mem_cons_self) (htok.2 k hkt).1 hlm hw), ?_, by simp⟩
              intro k' t' r' he hrot
              cases he
              obtain ⟨seq, r2, c, hseq, hc, hax⟩ := (htok.2 _ hkt).2 hrot
              exact .word htok.1 hlm hw hseq hc hax
            have hinner := build_from hk hne hL fuel s0 _ true 0 inner (hty s0 h0)
              (by cases hst' with | mk _ _ _ _ _ _ hss => exact hss s0 h0) (fun _ => hplain) (Or.inl rfl) hsynth hin
            have hm0 : s0.cls.members = none := by cases hty s0 h0; assumption
            obtain ⟨dvs, hdv, hdf⟩ := default_from (L := L) (att := true) e.cls
            rw [hdv] at hatt
            obtain ⟨vs', rfl, hf'⟩ := attach_from hdf (slot_kind hm0 hsl) hsl hinner hatt
            have := from_recode (From.block (by rw [hcls]; unfold Cls.IsBlock; decide) hf')
            refine ⟨_, by simp only [attRecode]; rfl, ?_⟩
            simp only [attRecode] at this ⊢
            rw [hcls] at this ⊢
            exact .attitude this
        · obtain ⟨doc?, hdoc, h⟩ := bind_ok_iff.mp h
          split at h
          · cases h; exact Or.inl rfl
          · rename_i doc subs
            obtain ⟨obj, hobj, h⟩ := bind_ok_iff.mp h
            right
            have hsubs : ∀ s ∈ subs, Typed s ∧ HasSlot e.cls s.name s.cls ∧ SoundTree M L s ∧ (att = true → PlainTree s) ∧
                (b = 0 ∨ Low b s) := by
              intro s hs
              rcases sectionDoc_subs hdoc with rfl | ⟨hcls, hp⟩
              · refine ⟨?_, ?_, ?_, ?_, ?_⟩
                · cases ht with | mk _ _ hty => exact hty s hs
                · cases ht with | mk _ hslot _ => exact hslot s hs
                · cases hst with | mk _ _ _ _ _ _ hss => exact hss s hs
                · intro ha
                  cases hpl ha with | mk _ _ hps => exact hps s hs
                · refine hlow.imp id fun hl => ?_
                  cases hl with | mk _ hls => exact hls s hs
              · have h1 := prepare_typed ht hp s hs
                refine ⟨h1.1, h1.2, prepare_sound (hst.kw.columns.2.2.2 hcls) hk hne hL hst hp s hs, ?_, ?_⟩
                · intro ha
                  cases hpl ha with | mk hb _ _ => rw [hcls] at hb; cases hb
                · refine hlow.imp id fun hl => ?_
                  cases hl with | mk _ hls => exact prepare_low hls hp s hs
            obtain ⟨ovs, rfl, ho⟩ := sectionDoc_from (att := att) hst hpl hloc hdoc hobj
            rcases ho with ⟨hblk, ho⟩ | ⟨hnil, ho⟩
            · have := foldlM_inv (P := fun o => ∃ vs, o = .obj e.cls vs ∧ FieldsFrom M L att e.cls vs) ?_ ⟨ovs, rfl, ho⟩ h
              · obtain ⟨vs, rfl, hf⟩ := this
                exact ⟨vs, rfl, .block hblk hf⟩
              · rintro s hs _ r ⟨vs, rfl, hf⟩ hr
                obtain ⟨sub, hsub, hr⟩ := bind_ok_iff.mp hr
                obtain ⟨h1, h2, h3, h4, h5⟩ := hsubs s hs
                have hms : s.cls.members = none := by cases h1; assumption
                exact attach_from hf (slot_kind hms h2) h2
                  (build_from hk hne hL fuel s full att b sub h1 h3 h4 h5 hfull hsub) hr
            · subst hnil
              rw [List.foldlM_nil] at h
              cases h
              exact ⟨_, rfl, ho⟩

end Ndm
