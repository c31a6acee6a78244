import Verif.SpecEph
import Verif.Lemmas.Chop
import Verif.Lemmas.Root
import Verif.Lemmas.GoodCheck

/-! Reading segments of keyword lines followed by data lines. -/

namespace Ndm

/-- What is checked of a class whose keyword lines are bound. -/
def Cls.bindableB (c : Cls) : Bool :=
  c.members.isNone && !c.isValueClass && decide (c ≠ .UserDefinedType) && decide (c.attrs = c.keyAttrs ++ c.blockAttrs) &&
  decide (c.elemFields = c.attrs) && decide ((c.attrs.map (·.xmlName)).Nodup) &&
  c.attrs.all (fun f => decide (f.kind = .elem) && f.name != py "units" && f.name != py "value")

def Cls.regularB (c : Cls) : Bool :=
  c.bindableB && !isSpecialIdent c && !isSpecialBuild c && decide (c.blockFields = c.blockAttrs)

theorem bindable_iff {c : Cls} (h : c.bindableB = true) : Bindable c := by
  unfold Cls.bindableB at h
  simp only [Bool.and_eq_true, decide_eq_true_eq, List.all_eq_true, Bool.not_eq_true', bne_iff_ne, ne_eq,
    Option.isNone_iff_eq_none] at h
  obtain ⟨⟨⟨⟨⟨⟨h1, h2⟩, h3⟩, h4⟩, h5⟩, h6⟩, h7⟩ := h
  exact ⟨h1, h2, h3, h4, h5, h6, fun f hf => ⟨(h7 f hf).1.1, (h7 f hf).1.2, (h7 f hf).2⟩⟩

theorem regular_iff {c : Cls} (h : c.regularB = true) : Regular c := by
  unfold Cls.regularB at h
  simp only [Bool.and_eq_true, decide_eq_true_eq, Bool.not_eq_true'] at h
  exact ⟨bindable_iff h.1.1.1, h.1.1.2, h.1.2, h.2⟩

/-- The keywords of a class. -/
def Cls.keywords (c : Cls) : List Str := c.keyAttrs.map fun f => upper f.name

/-- Reading a leaf element whose lines are turned into the keyword lines `syn`. -/
theorem item_special {c : Cls} (ho : Bindable c) (hb : c.blockAttrs = []) {e : Elem} (hc : e.cls = c) (hs : e.subs = [])
    (hna : c ≠ .AttitudeStateType) {kvs : List (Str × Val)} {blk post syn : List Line}
    (hrange : ∀ pre : List Line, rootRange e (keysOf (pre ++ blk ++ post)) (pre ++ blk ++ post) pre.length =
      .ok ((pre.length, pre.length + blk.length), e.kw))
    (hne : blk ≠ [])
    (hdoc : ∀ keys lines mm hi, sectionDoc keys lines { e with minMax := mm } blk hi =
      (xmlifyList e.name syn none).map fun d => some (d, []))
    (hk : KeysOf KeyText c.keyAttrs kvs syn) : ItemRead 1 e (.obj c kvs) blk post := by
  intro pre
  have hr := hrange pre
  generalize hL : pre ++ blk ++ post = L at *
  have hpos := List.length_pos_of_ne_nil hne
  have hse : ({ e with subs := [], kw := e.kw } : Elem) = e := by
    obtain ⟨name, cls, subs, kw, isList, single, minMax, template⟩ := e
    simp only at hs
    rw [hs]
  refine ⟨(pre.length, pre.length + blk.length), e, ?_, rfl, ?_, rfl, ?_⟩
  · rw [identElem_eq, hr]
    simp only [Except.bind, hs, identSubs]
    rw [hse]
  · intro h
    simp only at h
    omega
  · intro fuel hf
    obtain ⟨fuel, rfl⟩ : ∃ f, fuel = f + 1 := ⟨fuel - 1, by omega⟩
    have hloc : (L.drop pre.length).take (pre.length + blk.length - pre.length) = blk := by
      rw [← hL, List.append_assoc, drop_pre, Nat.add_sub_cancel_left]
      simp
    obtain ⟨doc, hxml, hbind⟩ := bind_own ho hk e.name
    subst hc
    unfold build
    simp only [hloc]
    rw [if_neg (fun h => hne h.1), if_neg hna, hdoc, hxml]
    simp only [Except.map, bind, Except.bind, hbind, hb]
    simp [pure, Except.pure]

/-- The range of keyword lines followed by data lines. -/
theorem range_chop {c : Cls} (ho : Regular c) {e : Elem} (he : PlainElem e c) {kvs : List (Str × Val)}
    {own₀ own gap rest : List Line} (hk : KeysOf KeyText c.keyAttrs kvs own₀) (hro : Reordered own₀ own)
    (hne : own ≠ [])
    (hlast : own.getLast?.map Line.key ≠ some (py "COMMENT")) (hg : Breaks (keysOf gap))
    (hgk : ∀ l ∈ gap, l.key ∉ c.keywords) (pre : List Line) :
    rootRange e (keysOf (pre ++ own ++ (gap ++ rest))) (pre ++ own ++ (gap ++ rest)) pre.length =
      .ok ((pre.length, pre.length + own.length), e.kw) := by
  have hkey := keyed ho.members ho.value ho.user
  unfold rootRange
  rw [he.cls, ho.ident, prefixOf_none ho.user, he.single]
  simp only [Bool.false_eq_true, if_false, Option.isSome_none]
  rw [keysOf_append, keysOf_append, keysOf_append]
  have := getMinMax_chop (tags := e.kw) (pre := keysOf pre) (blk := keysOf own) (gap := keysOf gap) (post := keysOf rest)
    (by rw [he.kw]; exact hkey.nodup) (((hro.perm.map _).filter _).nodup (goodKeys_nodup hk hkey.nodup)) (by
      intro t ht
      obtain ⟨m, hm, rfl⟩ := mem_keysOf.mp ht
      rw [he.kw]
      exact (goodKeys_key hk m (hro.mem.mpr hm)).1) (by simpa [keysOf] using hne) (by
      intro t ht htc
      rw [getLast?_keysOf] at ht
      exact hlast (by rw [ht, htc])) hg (by
      intro t ht
      obtain ⟨m, hm, rfl⟩ := mem_keysOf.mp ht
      rw [he.kw]
      exact hgk m hm)
  rw [keysOf_length, keysOf_length] at this
  exact this

theorem laid_block {c : Cls} {own bls : List Line} (hn : c.keyAttrs.map (·.name) ≠ [py "comment"]) (hne : own ≠ [])
    (hlast : own.getLast?.map Line.key ≠ some (py "COMMENT")) : Laid c own bls := by
  unfold Laid
  rw [if_neg hn]
  exact ⟨hlast, fun _ => hne⟩

/-- Reading a block of keyword lines. -/
theorem read_keyBlock {c : Cls} (ho : Regular c) (hb : c.blockAttrs = []) (hn : c.keyAttrs.map (·.name) ≠ [py "comment"])
    {v : Val} {ls post : List Line} (h : KeyBlockOf Spelled c v ls)
    (hpost : (∀ m ∈ post, m.key ≠ py "COMMENT" → m.key ∈ c.keywords → ∃ m' ∈ ls, m'.key = m.key) ∨
      ∃ gap rest, post = gap ++ rest ∧ Breaks (keysOf gap) ∧ ∀ l ∈ gap, l.key ∉ c.keywords)
    (k : Nat) (name : Str) (il : Bool) : ItemRead 1 (extract (k + 1) name c il) v ls post := by
  cases h with
  | @mk kvs _ hk hne hlast =>
    obtain ⟨own₀, hk, hro⟩ := hk
    have hp := extract_plain ho k name il
    have hsub : (extract (k + 1) name c il).subs = [] := by rw [extract_ordinary ho]; simp [hb, subElems]
    have := item_of_range_any (own := ls) (bls := []) (post := post) (bvs := []) ho hp hk hro (n := 0) (avoid := fun _ => False) ?_ ?_
      (by simp) (by rw [hb]; exact .nil) (fun h => absurd h hne)
    · simpa using this
    · intro pre
      rcases hpost with hpost | ⟨gap, rest, rfl, h1, h2⟩
      · refine own_range_any ho hp hk hro (laid_block hn hne hlast) ?_ pre
        intro m hm hc hkw
        rw [hp.kw] at hkw
        exact hpost m (by simpa using hm) hc hkw
      · exact range_chop ho hp hk hro hne hlast h1 h2 pre
    · rw [hsub, hb]
      exact subsRead_nil

/-- Reading an object without keyword lines of its own. -/
theorem read_container {c : Cls} (ho : Regular c) (hk : c.keyAttrs = []) {bvs : List (Str × Val)} {bls post : List Line}
    {k n : Nat} {avoid : Str → Prop} (hs : SubsRead n (subElems k c.blockAttrs) (attachments c.blockAttrs bvs) bls post avoid)
    (hbv : BlockVals c.blockAttrs bvs) (hne : attachments c.blockAttrs bvs ≠ []) (name : Str) (il : Bool) :
    ItemRead (n + 1) (extract (k + 1) name c il) (.obj c bvs) bls post := by
  have hp := extract_plain ho k name il
  have hkw : (extract (k + 1) name c il).kw = [] := by rw [hp.kw, hk]; rfl
  have hne0 : c.blockAttrs ≠ [] := by
    intro h
    rw [h] at hne
    cases bvs <;> exact hne rfl
  have hlaid : Laid c [] bls := by
    unfold Laid
    rw [hk, if_neg (by simp)]
    exact ⟨by simp, fun h => absurd h hne0⟩
  have := item_of_parts (own := []) (kvs := []) (bls := bls) (post := post) (bvs := bvs) ho hp (by rw [hk]; exact .nil) hlaid
    (by intro m _ _ hm; rw [hkw] at hm; simp at hm) (n := n) (avoid := avoid) (by
      rw [extract_ordinary ho]
      exact hs) (by simp) hbv (fun _ => hne)
  simpa using this

/-! ### Nested objects one after the other -/

/-- The expected nested attributes of a class. -/
def blocksAre (fs : List Field) (ds : List (Str × Cls × Bool)) : Bool :=
  decide (fs.map (fun f => (f.name, f.ty, f.isList)) = ds.map fun d => (d.1, FTy.cls d.2.1, d.2.2))

/-- The nested attribute `d` of the value `v` is read from `ls`. -/
def PartRead (n k : Nat) (d : Str × Cls × Bool) (v : Val) (ls post : List Line) : Prop :=
  if d.2.2 then ∃ xs, v = .list xs ∧ (∀ x ∈ xs, x.truthy = true) ∧
    ItemsRead n (extract k (d.1) d.2.1 true) post xs ls ∧ (xs = [] ∨ post ≠ [] → StopAt (extract k (d.1) d.2.1 true) post)
  else (∃ c vs, v = .obj c vs) ∧ ItemRead n (extract k (d.1) d.2.1 false) v ls post

/-- Nested attributes one after the other. -/
inductive PartsRead (n k : Nat) (post : List Line) : List (Str × Cls × Bool) → List (Str × Val) → List Line → Prop
  | nil : PartsRead n k post [] [] []
  | cons {d ds v vs l ls} : PartRead n k d v l (ls ++ post) → PartsRead n k post ds vs ls →
      PartsRead n k post (d :: ds) ((d.1, v) :: vs) (l ++ ls)

theorem parts_subs {n k : Nat} {post : List Line} : ∀ {fs : List Field} {ds : List (Str × Cls × Bool)} {vs : List (Str × Val)}
    {ls : List Line}, blocksAre fs ds = true → PartsRead n k post ds vs ls →
    SubsRead n (subElems k fs) (attachments fs vs) ls post (fun _ => False) ∧ BlockVals fs vs
  | [], [], _, _, _, h => by cases h; exact ⟨subsRead_nil, .nil⟩
  | [], _ :: _, _, _, hb, _ => by simp [blocksAre] at hb
  | _ :: _, [], _, _, hb, _ => by simp [blocksAre] at hb
  | f :: fs, d :: ds, _, _, hb, h => by
    simp only [blocksAre, List.map_cons, decide_eq_true_eq, List.cons.injEq, Prod.mk.injEq] at hb
    obtain ⟨⟨h1, h2, h3⟩, hb⟩ := hb
    cases h with
    | @cons _ _ v vs l ls hd hds =>
      obtain ⟨ih1, ih2⟩ := parts_subs (fs := fs) (by simp only [blocksAre, decide_eq_true_eq]; exact hb) hds
      rw [subElems_cons h2, ← h1]
      unfold PartRead at hd
      rw [← h1, ← h3] at hd
      cases hl : f.isList with
      | true =>
        rw [hl, if_pos rfl] at hd
        obtain ⟨xs, rfl, ht, hi, hst⟩ := hd
        refine ⟨?_, .list hl ht ih2⟩
        have := subsRead_cons (subsRead_items (avoid := fun _ => False) (extract_isList _ _ _ _) hi hst) ih1
          (av := fun _ => False) (by simp) (by simp)
        rw [extract_name] at this
        simp only [attachments, hl, if_true]
        exact this
      | false =>
        rw [hl, if_neg (by simp)] at hd
        obtain ⟨⟨c, vs', rfl⟩, hi⟩ := hd
        refine ⟨?_, .single hl (by intro xs h; cases h) ih2⟩
        have := subsRead_cons (subsRead_item (avoid := fun _ => False) (extract_isList _ _ _ _) hi) ih1
          (av := fun _ => False) (by simp) (by simp)
        rw [extract_name] at this
        simp only [attachments]
        exact this

theorem parts_nonempty {n k : Nat} {post : List Line} {fs : List Field} {d : Str × Cls × Bool}
    {ds : List (Str × Cls × Bool)} {v : Val} {vs : List (Str × Val)} {ls : List Line}
    (hb : blocksAre fs (d :: ds) = true) (h : PartsRead n k post (d :: ds) ((d.1, v) :: vs) ls) (hv : v ≠ .list []) :
    attachments fs ((d.1, v) :: vs) ≠ [] := by
  cases fs with
  | nil => simp [blocksAre] at hb
  | cons f fs =>
    simp only [blocksAre, List.map_cons, decide_eq_true_eq, List.cons.injEq, Prod.mk.injEq] at hb
    obtain ⟨⟨-, -, h3⟩, -⟩ := hb
    cases h with
    | cons hd _ =>
      unfold PartRead at hd
      rw [← h3] at hd
      cases hl : f.isList with
      | true =>
        rw [hl, if_pos rfl] at hd
        obtain ⟨xs, rfl, -⟩ := hd
        cases xs with
        | nil => exact absurd rfl hv
        | cons x xs => simp [attachments, hl]
      | false =>
        rw [hl, if_neg (by simp)] at hd
        obtain ⟨⟨c, vs', rfl⟩, -⟩ := hd
        simp [attachments]

theorem PartsRead.one {n k : Nat} {post : List Line} {d : Str × Cls × Bool} {v : Val} {l : List Line}
    (h : PartRead n k d v l post) : PartsRead n k post [d] [(d.1, v)] l := by
  have := PartsRead.cons (n := n) (k := k) (post := post) (d := d) (v := v) (l := l) (by simpa using h) .nil
  simpa using this

theorem PartRead.single {n k : Nat} {a : Str} {c c' : Cls} {vs : List (Str × Val)} {ls post : List Line}
    (h : ItemRead n (extract k a c false) (.obj c' vs) ls post) : PartRead n k (a, c, false) (.obj c' vs) ls post :=
  ⟨⟨_, _, rfl⟩, h⟩

theorem PartRead.many {n k : Nat} {a : Str} {c : Cls} {xs : List Val} {ls post : List Line}
    (ht : ∀ x ∈ xs, x.truthy = true) (h : ItemsRead n (extract k a c true) post xs ls)
    (hst : xs = [] ∨ post ≠ [] → StopAt (extract k a c true) post) : PartRead n k (a, c, true) (.list xs) ls post :=
  ⟨xs, rfl, ht, h, hst⟩

/-- Attributes holding numbers, as fields. -/
def numberFields (as : List (Str × Cls)) (fs : List Field) : Bool :=
  match as, fs with
  | [], [] => true
  | (a, c) :: as, f :: fs => decide (f.name = a) && !f.isList && decide (f.ty = .cls c) && (unitsOf c).isSome && numberFields as fs
  | _, _ => false

theorem numbered_keys : ∀ {as : List (Str × Cls)} {fs : List Field}, numberFields as fs = true →
    ∀ {ts : List Str} {ds : List Dec}, List.Forall₂ Spells ts ds → ds.length ≤ as.length →
    KeysOf KeyText fs (numbered as ds) (zipLines (fs.map fun f => upper f.name) ts)
  | [], [], _, ts, ds, hs, hd => by
    have : ds = [] := List.eq_nil_of_length_eq_zero (by simpa using hd)
    subst this
    cases hs
    exact .nil
  | [], _ :: _, h, _, _, _, _ => by cases h
  | _ :: _, [], h, _, _, _, _ => by cases h
  | (a, c) :: as, f :: fs, h, ts, ds, hs, hd => by
    simp only [numberFields, Bool.and_eq_true, decide_eq_true_eq, Bool.not_eq_true', Option.isSome_iff_exists] at h
    obtain ⟨⟨⟨⟨h1, h2⟩, h3⟩, u, h4⟩, h5⟩ := h
    cases hs with
    | nil =>
      have := numbered_keys h5 .nil (by simp)
      simp only [zipLines, List.map_nil, List.zip_nil_right] at this ⊢
      rw [numbered, ← h1]
      exact .absent h2 this
    | cons ht hs =>
      have := numbered_keys h5 hs (by simpa using hd)
      rw [numbered, ← h1]
      exact .value h2 (.number h3 (quantity_of_units h4) ht.1 ht.2) this

theorem spells_toStr (ds : List Dec) : List.Forall₂ Spells (ds.map Dec.toStr) ds := by
  induction ds with
  | nil => exact .nil
  | cons d ds ih => exact .cons ⟨dec_parse_toStr d, num_xml (dec_toStr_num d)⟩ ih

theorem KeyBlockOf.mono {K K' : Cls → List (Str × Val) → List Line → Prop} (hK : ∀ c kvs own, K c kvs own → K' c kvs own)
    {c : Cls} {v : Val} {ls : List Line} (h : KeyBlockOf K c v ls) : KeyBlockOf K' c v ls := by
  cases h with
  | mk hk hne hlast => exact .mk (hK _ _ _ hk) hne hlast

theorem KeyBlockOf.spelled {c : Cls} {v : Val} {ls : List Line} (h : KeyBlockOf Written c v ls) : KeyBlockOf Spelled c v ls :=
  h.mono fun _ _ _ h => h.spelled

/-! ### Data lines -/

theorem DateText.ne {e : Str} (h : DateText e) : e ≠ [] := by
  obtain ⟨a, b, c, d, r, rfl, -⟩ := h.year
  simp

theorem DateText.isDate {e : Str} (h : DateText e) : isDateStr e = .ok true := by
  obtain ⟨a, b, c, d, r, rfl, hd⟩ := h.year
  have hx : ∀ x ∈ [a, b, c, d], isAscii x = true := by
    intro x hx
    have := hd x hx
    simp only [isAsciiDigit, isAscii, Bool.and_eq_true, decide_eq_true_eq] at this ⊢
    omega
  have : isNumeric ((a :: b :: c :: d :: '-' :: r).take 4) = true := by
    simp only [List.take_succ_cons, List.take_zero, isNumeric, List.isEmpty_cons, Bool.not_false, Bool.true_and,
      List.all_eq_true]
    intro x hx'
    rw [if_pos (hx x hx')]
    exact hd x hx'
  unfold isDateStr
  rw [if_pos this]
  rfl

theorem DateText.asPlain {e : Str} (h : DateText e) : Plain e := by
  refine ⟨⟨?_, ?_⟩, ?_, fun c hc => (h.plain c hc).2.2, fun hu => (h.plain _ hu.1).2.1 rfl⟩
  · intro c hc; exact h.noBlank c (List.mem_of_mem_head? hc)
  · intro c hc; exact h.noBlank c (List.mem_of_getLast? hc)
  · intro hm
    have := h.noBlank _ hm
    revert this; decide

theorem DateText.firstDigit {e : Str} (h : DateText e) : ∃ c r, e = c :: r ∧ DigitC c := by
  obtain ⟨a, b, c, d, r, rfl, hd⟩ := h.year
  refine ⟨a, _, rfl, ?_⟩
  have := hd a (by simp)
  simp only [isAsciiDigit, Bool.and_eq_true, decide_eq_true_eq] at this
  exact this

/-- Tokens without blanks and equals signs. -/
def Token (t : Str) : Prop := t ≠ [] ∧ ∀ c ∈ t, isSpace c = false ∧ c ≠ '='

theorem token_dec (d : Dec) : Token d.toStr :=
  ⟨dec_toStr_ne d, fun c hc => ⟨(dec_toStr_num d c hc).plain.1, (dec_toStr_num d c hc).plain.2.2.2.2.1⟩⟩

theorem DateText.token {e : Str} (h : DateText e) : Token e :=
  ⟨h.ne, fun c hc => ⟨h.noBlank c hc, (h.plain c hc).1⟩⟩

theorem blank2 : Blank (py "  ") := by intro c hc; revert c; decide

theorem mem_joinWith {sep : Str} {c : Char} : ∀ {ts : List Str}, c ∈ joinWith sep ts → c ∈ sep ∨ ∃ t ∈ ts, c ∈ t
  | [], h => by simp [joinWith] at h
  | [t], h => .inr ⟨t, by simp, h⟩
  | t :: u :: ts, h => by
    simp only [joinWith, List.append_assoc, List.mem_append] at h
    rcases h with h | h | h
    · exact .inr ⟨t, by simp, h⟩
    · exact .inl h
    · rcases mem_joinWith h with h | ⟨x, hx, hc⟩
      · exact .inl h
      · exact .inr ⟨x, by simp [List.mem_cons.mp hx], hc⟩

theorem joinWith_head {sep : Str} {t : Str} {ts : List Str} (ht : t ≠ []) : (joinWith sep (t :: ts)).head? = t.head? := by
  cases t with
  | nil => exact absurd rfl ht
  | cons c r => cases ts <;> rfl

theorem joinWith_last {sep : Str} : ∀ {ts : List Str}, (∀ t ∈ ts, t ≠ []) → ∀ c, (joinWith sep ts).getLast? = some c →
    ∃ t ∈ ts, t.getLast? = some c
  | [], _, c, h => by simp [joinWith] at h
  | [t], _, c, h => ⟨t, by simp, h⟩
  | t :: u :: ts, hts, c, h => by
    have hne : joinWith sep (u :: ts) ≠ [] := by
      intro h0
      have := joinWith_head (sep := sep) (ts := ts) (hts u (by simp))
      rw [h0] at this
      have hu := hts u (by simp)
      cases u with
      | nil => exact hu rfl
      | cons a b => simp at this
    simp only [joinWith] at h
    rw [List.getLast?_append_of_ne_nil _ hne] at h
    obtain ⟨x, hx, hc⟩ := joinWith_last (fun t ht => hts t (by simp [List.mem_cons.mp ht])) c h
    exact ⟨x, by simp [List.mem_cons.mp hx], hc⟩

/-- A line of tokens is read as one item. -/
theorem parseLine_tokens {ts : List Str} (hne : ts ≠ []) (hts : ∀ t ∈ ts, Token t)
    (hc : ∀ c r, ts.head? = some (c :: r) → c ≠ 'C') :
    parseLine (joinWith (py "  ") ts) = some [joinWith (py "  ") ts] := by
  obtain ⟨t, rest, rfl⟩ := List.exists_cons_of_ne_nil hne
  have ht := hts t (by simp)
  have htrim : Trimmed (joinWith (py "  ") (t :: rest)) := by
    constructor
    · intro c h
      rw [joinWith_head ht.1] at h
      exact (ht.2 c (List.mem_of_mem_head? h)).1
    · intro c h
      obtain ⟨u, hu, hc⟩ := joinWith_last (fun t ht => (hts t ht).1) c h
      exact ((hts u hu).2 c (List.mem_of_getLast? hc)).1
  have hnil : joinWith (py "  ") (t :: rest) ≠ [] := by
    intro h0
    have := joinWith_head (sep := py "  ") (ts := rest) ht.1
    rw [h0] at this
    cases t with
    | nil => exact ht.1 rfl
    | cons a b => simp at this
  have heq : '=' ∉ joinWith (py "  ") (t :: rest) := by
    intro hm
    rcases mem_joinWith hm with h | ⟨u, hu, hc⟩
    · revert h; decide
    · exact ((hts u hu).2 _ hc).2 rfl
  have hcom : startsWith (joinWith (py "  ") (t :: rest)) (py "COMMENT") = false := by
    cases t with
    | nil => exact absurd rfl ht.1
    | cons c r =>
      have hcc : c ≠ 'C' := hc c r rfl
      cases hs : startsWith (joinWith (py "  ") ((c :: r) :: rest)) (py "COMMENT") with
      | false => rfl
      | true =>
        obtain ⟨w, hw⟩ := startsWith_iff.mp hs
        have h1 := joinWith_head (sep := py "  ") (t := c :: r) (ts := rest) (by simp)
        rw [← hw, List.head?_append, show (py "COMMENT").head? = some 'C' from by decide] at h1
        simp only [Option.some_or, List.head?_cons, Option.some.injEq] at h1
        exact absurd h1.symm hcc
  unfold parseLine
  rw [strip_trimmed htrim]
  simp only [isEmpty_false hnil, Bool.false_eq_true, if_false, hcom, splitOnce_self heq, List.map_cons, List.map_nil,
    strip_trimmed htrim]

theorem joinWith_blank {t u : Str} {ts : List Str} : ' ' ∈ joinWith (py "  ") (t :: u :: ts) := by
  simp only [joinWith, List.mem_append]
  exact .inl (.inr (by decide))

theorem words_tokens_join {ts : List Str} (h : ∀ t ∈ ts, Token t) : words (joinWith (py "  ") ts) = ts :=
  words_join blank2 (by decide) (fun t ht => ⟨(h t ht).1, fun c hc => ((h t ht).2 c hc).1⟩)

end Ndm
