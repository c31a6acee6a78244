import Verif.Lemmas.ReadGood

/-! The relative data of a conjunction: a nested object between keyword lines. -/

namespace Ndm

/-- Where the search starts does not matter when nothing is found before the block. -/
theorem getMinMax_shift {tags pre mid rest : List Str} (hc : py "COMMENT" ∉ tags) (h : ∀ t ∈ tags, t ∉ mid)
    (single : Bool) {lo hi : Nat} {kw : List Str} (hlt : lo < hi)
    (he : getMinMax tags (pre ++ mid).length (pre ++ mid ++ rest) none single = .ok ((lo, hi), kw)) :
    getMinMax tags pre.length (pre ++ mid ++ rest) none single = .ok ((lo, hi), kw) := by
  have hf : ∀ t ∈ tags, findFrom t (pre ++ mid ++ rest) pre.length = findFrom t (pre ++ mid ++ rest) (pre ++ mid).length := by
    intro t ht
    have h1 : (pre ++ mid ++ rest).drop pre.length = mid ++ rest := by rw [List.append_assoc, drop_pre]
    have h2 : (pre ++ mid ++ rest).drop (pre ++ mid).length = rest := drop_pre _ _
    unfold findFrom
    rw [h1, h2, List.findIdx?_append]
    have h3 : List.findIdx? (fun x => x == t) mid = none := by
      rw [List.findIdx?_eq_none_iff]
      intro x hx
      simp only [beq_eq_false_iff_ne, ne_eq]
      rintro rfl
      exact h x ht hx
    rw [h3]
    cases List.findIdx? (fun x => x == t) rest with
    | none => rfl
    | some i => simp; omega
  have hidx : (tags.filter (· != py "COMMENT")).filterMap (findFrom · (pre ++ mid ++ rest) pre.length) =
      (tags.filter (· != py "COMMENT")).filterMap (findFrom · (pre ++ mid ++ rest) (pre ++ mid).length) := by
    apply List.filterMap_congr
    intro t ht
    exact hf t (List.mem_of_mem_filter ht)
  have hcc : tags.contains (py "COMMENT") = false := by simpa using hc
  unfold getMinMax at he ⊢
  simp only [withPrefix, processComments, hcc, Bool.false_eq_true, if_false, bind, Except.bind, pure, Except.pure] at he ⊢
  rw [hidx]
  revert he
  cases chopAll (pre ++ mid ++ rest) _ with
  | error e => exact fun h => h
  | ok idx =>
    simp only [limits, Except.ok.injEq, Prod.mk.injEq]
    rintro ⟨h1, h2⟩
    refine ⟨?_, h2⟩
    split
    · rename_i heq1 heq2
      rw [heq1, heq2] at h1
      exact h1
    · rename_i hno
      exfalso
      split at h1
      · rename_i a b h3 h4
        exact hno a b h3 h4
      · simp at h1; omega

theorem goodKeys_append {R} {f1 f2 : List Field} {v1 v2 : List (Str × Val)} {l1 l2 : List Line} (h1 : KeysOf R f1 v1 l1)
    (h2 : KeysOf R f2 v2 l2) : KeysOf R (f1 ++ f2) (v1 ++ v2) (l1 ++ l2) := by
  induction h1 with
  | nil => exact h2
  | absent hl _ ih => exact .absent hl ih
  | value hl hv _ ih => exact .value hl hv ih
  | @comments f fs texts vs ls hl hn ht _ ih =>
    rw [List.append_assoc]
    exact .comments hl hn ht ih

/-- What is checked of a class `c` with one nested object, of class `d`, after its first `n` keyword attributes. -/
def sandwichOk (c d : Cls) (n : Nat) (fb : Field) : Bool :=
  c.members.isNone && !c.isValueClass && decide (c ≠ .UserDefinedType) && !isSpecialOut c && !isSpecialIdent c &&
  !isSpecialBuild c && (headerName c == none) &&
  decide (c.attrs = c.keyAttrs.take n ++ fb :: c.keyAttrs.drop n) && decide (c.blockFields = [fb]) &&
  decide (c.elemFields = c.attrs) && decide ((c.attrs.map (·.xmlName)).Nodup) && decide ((c.attrs.map (·.name)).Nodup) &&
  c.attrs.all (fun f => f.name != py "units" && f.name != py "value") && decide (fb.kind = .elem) && !fb.isList &&
  decide (fb.ty = .cls d) && fb.name != py "comment" && fb.name != py "user_defined" &&
  !c.keyAttrs.contains fb && d.ordinary && decide (d.blockAttrs = []) &&
  decide ((c.keyAttrs ++ d.keyAttrs).map (fun f => upper f.name)).Nodup &&
  !((d.keyAttrs.map fun f => upper f.name).contains (py "COMMENT")) && decide (d.keyAttrs ≠ []) &&
  decide (2 ≤ c.keyAttrs.length)

structure Sandwich (c d : Cls) (n : Nat) (fb : Field) : Prop where
  members : c.members = none
  value : c.isValueClass = false
  user : c ≠ .UserDefinedType
  out : isSpecialOut c = false
  ident : isSpecialIdent c = false
  noBuild : isSpecialBuild c = false
  header : headerName c = none
  attrs : c.attrs = c.keyAttrs.take n ++ fb :: c.keyAttrs.drop n
  blocks : c.blockFields = [fb]
  elems : c.elemFields = c.attrs
  tags : (c.attrs.map (·.xmlName)).Nodup
  names : (c.attrs.map (·.name)).Nodup
  attr : ∀ f ∈ c.attrs, f.name ≠ py "units" ∧ f.name ≠ py "value"
  kind : fb.kind = .elem
  single : fb.isList = false
  ty : fb.ty = .cls d
  noComment : fb.name ≠ py "comment"
  noUser : fb.name ≠ py "user_defined"
  notKey : fb ∉ c.keyAttrs
  inner : Ordinary d
  leaf : d.blockAttrs = []
  nodup : ((c.keyAttrs ++ d.keyAttrs).map (fun f => upper f.name)).Nodup
  innerComment : py "COMMENT" ∉ d.keyAttrs.map fun f => upper f.name
  innerKeys : d.keyAttrs ≠ []
  twoKeys : 2 ≤ c.keyAttrs.length

theorem sandwich_iff {c d : Cls} {n : Nat} {fb : Field} (h : sandwichOk c d n fb = true) : Sandwich c d n fb := by
  unfold sandwichOk at h
  simp only [Bool.and_eq_true, decide_eq_true_eq, List.all_eq_true, Bool.not_eq_true', bne_iff_ne, ne_eq,
    Option.isNone_iff_eq_none, beq_iff_eq, List.contains_eq_mem, decide_eq_false_iff_not] at h
  obtain ⟨⟨⟨⟨⟨⟨⟨⟨⟨⟨⟨⟨⟨⟨⟨⟨⟨⟨⟨⟨⟨⟨⟨⟨h1, h2⟩, h3⟩, h4⟩, h5⟩, h6⟩, h7⟩, h8⟩, h9⟩, h10⟩, h11⟩, h12⟩, h13⟩, h14⟩, h15⟩, h16⟩, h17⟩, h18⟩,
    h19⟩, h20⟩, h21⟩, h22⟩, h23⟩, h24⟩, h25⟩ := h
  exact ⟨h1, h2, h3, h4, h5, h6, h7, h8, h9, h10, h11, h12, h13, h14, h15, h16, h17, h18, h19, ordinary_iff h20, h21, h22,
    h23, h24, h25⟩

/-- The nested attribute of the relative data of a conjunction. -/
def relField : Field :=
  ⟨py "relative_state_vector", some (py "relativeStateVector"), .elem, .cls .RelativeStateVectorType, false, true⟩

theorem relative_sandwich : Sandwich .RelativeMetadataData .RelativeStateVectorType 4 relField :=
  sandwich_iff (by decide +kernel)

section
variable {c d : Cls} {n : Nat} {fb : Field}

theorem Sandwich.keys (h : Sandwich c d n fb) : Keyed c := keyed h.members h.value h.user

theorem Sandwich.elem (h : Sandwich c d n fb) (k : Nat) (name : Str) (l : Bool) :
    extract (k + 1) name c l = { name, cls := c, subs := [extract k fb.name d false], isList := l
                                 kw := c.keyAttrs.map fun f => upper f.name } := by
  simp only [extract, h.value, Bool.false_eq_true, if_false, h.keys.kw, h.blocks, List.filterMap_cons, h.ty,
    FTy.cls?, Option.map_some, List.filterMap_nil, h.single]

theorem Sandwich.bound (h : Sandwich c d n fb) {before after : List (Str × Val)} {l1 l2 : List Line}
    (h1 : KeysOf KeyText (c.keyAttrs.take n) before l1) (h2 : KeysOf KeyText (c.keyAttrs.drop n) after l2) (name : Str) :
    ∃ doc, xmlifyList name (l1 ++ l2) none = .ok doc ∧
      bindDoc c doc = .ok (.obj c (before ++ (fb.name, .none) :: after)) := by
  have hk := h.keys
  have hkeyIn : ∀ f ∈ c.keyAttrs, f ∈ c.attrs := fun f hf => List.mem_of_mem_filter hf
  have hg := goodKeys_append h1 h2
  rw [List.take_append_drop] at hg
  refine ⟨⟨name, [], [], (l1 ++ l2).map leafOf⟩, ?_, ?_⟩
  · unfold xmlifyList
    have : xmlifyChild none = xmlifyItem := rfl
    rw [this, mapM_ok_of (goodKeys_xmlify hk.field hg)]
    rfl
  · unfold bindDoc
    have hcheck : checkChildren c [] ((l1 ++ l2).map leafOf) = .ok () := by
      have := check_keys h.tags h.elems hk.field hkeyIn hk.nodup hg [] [] (by simp) (by intros; rfl)
      simpa using this
    have hattrs : c.fields.filter (·.init) = c.keyAttrs.take n ++ fb :: c.keyAttrs.drop n := h.attrs
    simp only [hcheck, bind, Except.bind, pure, Except.pure]
    have hnd : ((c.keyAttrs.take n).map (fun f => upper f.name) ++ (c.keyAttrs.drop n).map fun f => upper f.name).Nodup := by
      rw [← List.map_append, List.take_append_drop]; exact hk.nodup
    obtain ⟨n1, n2, n3⟩ := List.nodup_append.mp hnd
    have b1 := bind_keys (fun f hf => hk.field f (List.mem_of_mem_take hf)) n1 h1 [] (l2.map leafOf) name [] [] (by simp)
      (by
        intro x hx hm
        obtain ⟨l, hl, rfl⟩ := List.mem_map.mp hx
        obtain ⟨k1, k2⟩ := goodKeys_key h2 l hl
        exact n3 _ hm _ k1 k2)
    have b2 := bind_keys (fun f hf => hk.field f (List.mem_of_mem_drop hf)) n2 h2 (l1.map leafOf) [] name [] []
      (by
        intro x hx hm
        obtain ⟨l, hl, rfl⟩ := List.mem_map.mp hx
        obtain ⟨k1, k2⟩ := goodKeys_key h1 l hl
        exact n3 _ k1 _ hm k2.symm) (by simp)
    simp only [List.nil_append, List.append_nil] at b1 b2
    rw [hattrs, List.map_append, List.map_cons, List.map_append, b1, b2]
    congr 4
    have hnone : (l1.map leafOf ++ l2.map leafOf).filter (·.tag == fb.xmlName) = [] := by
      rw [List.filter_eq_nil_iff, ← List.map_append]
      intro x hx
      obtain ⟨l, hl, rfl⟩ := List.mem_map.mp hx
      obtain ⟨k1, k2⟩ := goodKeys_key hg l hl
      rw [k2]
      intro heq
      simp at heq
      obtain ⟨g, hg, hge⟩ := List.mem_map.mp k1
      have hgx : g.xmlName = fb.xmlName := by rw [(hk.field g hg).xmlName, hge, heq]
      have hgf : g = fb := List.inj_on_of_nodup_map h.tags (hkeyIn g hg) (by rw [h.attrs]; simp) hgx
      exact h.notKey (hgf ▸ hg)
    unfold bindField
    rw [h.kind]
    simp only [hnone, h.single]
    rfl

/-- The nested object alone. -/
theorem Sandwich.inner_read (h : Sandwich c d n fb) {vs : List (Str × Val)} {lr post : List Line}
    (hg : KeysOf KeyText d.keyAttrs vs lr) (hne : lr ≠ []) (k : Nat) (name : Str) (l : Bool)
    (hpost : ∀ m ∈ post, m.key ∉ d.keyAttrs.map fun f => upper f.name) :
    ItemRead 1 (extract (k + 1) name d l) (.obj d vs) lr post := by
  have hp := extract_plain h.inner.toRegular k name l
  have hsub : (extract (k + 1) name d l).subs = [] := by rw [extract_ordinary h.inner.toRegular]; simp [h.leaf, subElems]
  have hlaid : Laid d lr [] := by
    have hkeys : ∀ l ∈ lr, l.key ≠ py "COMMENT" := fun l hl hc => h.innerComment (hc ▸ (goodKeys_key hg l hl).1)
    unfold Laid
    rw [if_neg]
    · refine ⟨?_, fun _ => hne⟩
      intro hc
      rw [Option.map_eq_some_iff] at hc
      obtain ⟨l, hl, hlc⟩ := hc
      exact hkeys l (List.mem_of_getLast? hl) hlc
    · intro hc
      apply h.innerComment
      obtain ⟨f, hf, hfn⟩ := List.map_eq_singleton_iff.mp hc
      rw [hf, List.map_singleton, hfn]
      decide
  have := item_of_parts h.inner.toRegular hp (own := lr) (bls := []) (post := post) (bvs := []) hg hlaid ?_ (n := 0)
    (avoid := fun _ => False) ?_ (by simp) ?_ ?_
  · simpa using this
  · intro m hm _ hmk
    rw [hp.kw] at hmk
    exact absurd hmk (hpost m (by simpa using hm))
  · rw [hsub, h.leaf]
    exact subsRead_nil
  · rw [h.leaf]; exact .nil
  · intro h0; exact absurd h0 hne

/-- The nested object found again from the start of its parent. -/
theorem Sandwich.inner_again (h : Sandwich c d n fb) {vs : List (Str × Val)} {lr : List Line}
    (hg : KeysOf KeyText d.keyAttrs vs lr) (hne : lr ≠ []) (k : Nat) (pre l1 l2 post : List Line)
    (h1 : ∀ m ∈ l1, m.key ∉ d.keyAttrs.map fun f => upper f.name)
    (h2 : ∀ m ∈ l2, m.key ∉ d.keyAttrs.map fun f => upper f.name)
    (h3 : ∀ m ∈ post, m.key ∉ d.keyAttrs.map fun f => upper f.name) :
    ∃ s', identSubs (keysOf (pre ++ (l1 ++ lr ++ l2) ++ post)) (pre ++ (l1 ++ lr ++ l2) ++ post) pre.length
        [extract (k + 1) fb.name d false] (pre ++ (l1 ++ lr ++ l2)).length =
          .ok ((pre ++ (l1 ++ lr ++ l2)).length, [s']) ∧ s'.name = fb.name ∧
      ∀ fuel, 1 ≤ fuel → build (keysOf (pre ++ (l1 ++ lr ++ l2) ++ post)) (pre ++ (l1 ++ lr ++ l2) ++ post) fuel s'
        (pre ++ (l1 ++ lr ++ l2) ++ post) = .ok (.obj d vs) := by
  have hp := extract_plain h.inner.toRegular k fb.name false
  have hsub : (extract (k + 1) fb.name d false).subs = [] := by
    rw [extract_ordinary h.inner.toRegular]; simp [h.leaf, subElems]
  set e := extract (k + 1) fb.name d false with he
  -- the ordinary search, at the block itself
  obtain ⟨mm, e', k1, k2, k3, k4, k5⟩ := h.inner_read hg hne k fb.name false (post := l2 ++ post) (by
    intro m hm
    rcases List.mem_append.mp hm with hm | hm
    · exact h2 m hm
    · exact h3 m hm) (pre ++ l1)
  have eL : pre ++ l1 ++ lr ++ (l2 ++ post) = pre ++ (l1 ++ lr ++ l2) ++ post := by simp
  rw [eL] at k1 k5
  generalize hL : pre ++ (l1 ++ lr ++ l2) ++ post = L at *
  rw [identElem_eq, ← he, hsub] at k1
  have hroot : ∃ r, rootRange e (keysOf L) L (pre ++ l1).length = .ok r := by
    cases hr : rootRange e (keysOf L) L (pre ++ l1).length with
    | error x => rw [hr] at k1; cases k1
    | ok r => exact ⟨r, rfl⟩
  obtain ⟨r, hr⟩ := hroot
  rw [hr] at k1
  simp only [Except.bind, identSubs, Except.ok.injEq, Prod.mk.injEq] at k1
  obtain ⟨m1, m2, m3⟩ := k1
  have hr' : r = ((mm.1, mm.2), r.2) := by rw [← m2]
  have hmm2 : mm.2 = (pre ++ l1).length + lr.length := by rw [← m2]; exact m1
  have hlrpos := List.length_pos_of_ne_nil hne
  have hrange : ∀ i, rootRange e (keysOf L) L i = getMinMax e.kw i (keysOf L) none false := by
    intro i
    unfold rootRange
    rw [hp.cls, h.inner.ident, prefixOf_none h.inner.user, hp.single]
    rfl
  -- the search after the parent's range
  have habs : rootRange e (keysOf L) L (pre ++ (l1 ++ lr ++ l2)).length =
      .ok (((pre ++ (l1 ++ lr ++ l2)).length, (pre ++ (l1 ++ lr ++ l2)).length), e.kw) := by
    rw [← hL]
    apply rootRange_absent
    · rw [hp.cls]; exact h.inner.ident
    · intro l hl _ hm
      rw [hp.kw] at hm
      exact h3 l hl hm
    · intro p hpp
      rw [hp.cls, prefixOf_none h.inner.user] at hpp
      cases hpp
    · intro hc
      apply h.innerComment
      rw [← hp.kw, hc]
      simp
  have hagain : rootRange e (keysOf L) L pre.length = .ok r := by
    rw [hrange, hr', ← eL, keysOf_append, keysOf_append, keysOf_append, List.append_assoc (keysOf pre ++ keysOf l1)]
    rw [hrange, hr', ← eL, keysOf_append, keysOf_append, keysOf_append,
      List.append_assoc (keysOf pre ++ keysOf l1)] at hr
    have hlen : (pre ++ l1).length = (keysOf pre ++ keysOf l1).length := by simp [keysOf_length]
    rw [hlen] at hr
    rw [← keysOf_length pre]
    refine getMinMax_shift ?_ ?_ false ?_ hr
    · rw [hp.kw]; exact h.innerComment
    · intro t ht hm
      obtain ⟨l, hl, rfl⟩ := mem_keysOf.mp hm
      rw [hp.kw] at ht
      exact h1 l hl ht
    · omega
  refine ⟨{ e with minMax := some mm, kw := r.2 }, ?_, by rw [he, extract_name], ?_⟩
  · have hse : ({ e with subs := [], kw := e.kw } : Elem) = e := by
      obtain ⟨name, cls, subs, kw, isList, single, minMax, template⟩ := e
      simp only at hsub
      rw [hsub]
    have hid : identElem (keysOf L) L e (pre ++ (l1 ++ lr ++ l2)).length =
        .ok ((pre ++ (l1 ++ lr ++ l2)).length, ((pre ++ (l1 ++ lr ++ l2)).length, (pre ++ (l1 ++ lr ++ l2)).length), e) := by
      rw [identElem_eq, habs]
      simp only [Except.bind, hsub, identSubs]
      rw [hse]
    have hre : researchRange (keysOf L) L pre.length
        ((pre ++ (l1 ++ lr ++ l2)).length, (pre ++ (l1 ++ lr ++ l2)).length) e = .ok (mm, r.2) := by
      simp only [researchRange, hsub, and_self, if_true, hagain]
      rw [hr']
    have hil : e.isList = false := by rw [he, extract_isList]
    simp only [identSubs, hil, Bool.false_eq_true, if_false, hid, bind, Except.bind, hre]
    rfl
  · intro fuel hf
    have := k5 fuel hf
    rw [← m3] at this
    have heq : ({ e with subs := [], kw := r.2, minMax := some mm } : Elem) = { e with minMax := some mm, kw := r.2 } := by
      obtain ⟨name, cls, subs, kw, isList, single, minMax, template⟩ := e
      simp only at hsub
      rw [hsub]
    rw [← heq]
    exact this

/-- The range of the object and where its nested object is found. -/
theorem Sandwich.ranges (h : Sandwich c d n fb) {before after : List (Str × Val)} {rsv : Val} {l1 lr l2 : List Line}
    (h1 : KeysOf KeyText (c.keyAttrs.take n) before l1)
    (hr : rsv = .none ∧ lr = [] ∨ ∃ vs, rsv = .obj d vs ∧ KeysOf KeyText d.keyAttrs vs lr ∧ lr ≠ [])
    (h2 : KeysOf KeyText (c.keyAttrs.drop n) after l2) (hne : l1 ≠ []) (hlast : l1.getLast?.map Line.key ≠ some (py "COMMENT"))
    (hn2 : ∀ m ∈ l2, m.key ≠ py "COMMENT") (k : Nat) (name : Str) (l : Bool) (pre post : List Line)
    (hpc : ∀ m ∈ post, m.key ≠ py "COMMENT" → m.key ∉ c.keyAttrs.map fun f => upper f.name)
    (hpd : ∀ m ∈ post, m.key ∉ d.keyAttrs.map fun f => upper f.name) :
    ∃ own s', rootRange (extract (k + 2) name c l) (keysOf (pre ++ (l1 ++ lr ++ l2) ++ post))
        (pre ++ (l1 ++ lr ++ l2) ++ post) pre.length =
          .ok ((pre.length, pre.length + own.length), c.keyAttrs.map fun f => upper f.name) ∧
      (∃ t, l1 ++ lr ++ l2 = own ++ t) ∧
      own.filter (fun m => (c.keyAttrs.map fun f => upper f.name).contains m.key) = l1 ++ l2 ∧
      identSubs (keysOf (pre ++ (l1 ++ lr ++ l2) ++ post)) (pre ++ (l1 ++ lr ++ l2) ++ post) pre.length
        [extract (k + 1) fb.name d false] (pre.length + own.length) = .ok (pre.length + (l1 ++ lr ++ l2).length, [s']) ∧
      s'.name = fb.name ∧
      ∀ fuel, 1 ≤ fuel → build (keysOf (pre ++ (l1 ++ lr ++ l2) ++ post)) (pre ++ (l1 ++ lr ++ l2) ++ post) fuel s'
        (pre ++ (l1 ++ lr ++ l2) ++ post) = .ok rsv := by
  have hkey := h.keys
  have hg := goodKeys_append h1 h2
  rw [List.take_append_drop] at hg
  set K := c.keyAttrs.map fun f => upper f.name with hK
  set D := d.keyAttrs.map fun f => upper f.name with hD
  have hdisj : ∀ t, t ∈ K → t ∉ D := by
    intro t ht htd
    have := h.nodup
    rw [List.map_append] at this
    exact (List.nodup_append.mp this).2.2 t ht t htd rfl
  have hinK : ∀ m ∈ l1 ++ l2, m.key ∈ K := fun m hm => (goodKeys_key hg m hm).1
  have hinD : ∀ m ∈ lr, m.key ∈ D := by
    rcases hr with ⟨-, rfl⟩ | ⟨vs, -, hv, -⟩
    · simp
    · exact fun m hm => (goodKeys_key hv m hm).1
  have hnodup := goodKeys_nodup hg hkey.nodup
  have helem := h.elem (k + 1) name l
  have hrange : ∀ i keys lines, rootRange (extract (k + 2) name c l) keys lines i = getMinMax K i keys none false := by
    intro i keys lines
    rw [helem]
    unfold rootRange
    rw [h.ident, prefixOf_none h.user]
    rfl
  have hKc : K ≠ [py "COMMENT"] := by
    intro hc
    have := h.twoKeys
    have h2 : K.length = 1 := by rw [hc]; rfl
    rw [hK, List.length_map] at h2
    omega
  have hsubC : py "COMMENT" ∉ D := h.innerComment
  have hp := extract_plain h.inner.toRegular k fb.name false
  have hsub0 : (extract (k + 1) fb.name d false).subs = [] := by
    rw [extract_ordinary h.inner.toRegular]; simp [h.leaf, subElems]
  -- an absent nested object
  have habsent : ∀ (mid post' : List Line), (∀ m ∈ mid, m.key ∉ D) → (∀ m ∈ post', m.key ∉ D) → ∃ s',
      identSubs (keysOf (pre ++ mid ++ post')) (pre ++ mid ++ post') pre.length [extract (k + 1) fb.name d false]
        (pre ++ mid).length = .ok ((pre ++ mid).length, [s']) ∧ s'.name = fb.name ∧
      ∀ fuel, 1 ≤ fuel → build (keysOf (pre ++ mid ++ post')) (pre ++ mid ++ post') fuel s' (pre ++ mid ++ post') =
        .ok .none := by
    intro mid post' hm hp'
    have := subsRead_absent (n := 1) (s := extract (k + 1) fb.name d false) (post := post') (avoid := fun t => t ∈ D)
      (by rw [extract_isList]) hsub0 (by rw [hp.cls]; exact h.inner.ident) (by
        rw [hp.kw]
        intro hc
        apply hsubC
        rw [hD, hc]
        simp) hp' (by intro t _ ht; rw [hp.kw] at ht; exact ht) (by
          intro p hpp
          rw [hp.cls, prefixOf_none h.inner.user] at hpp
          cases hpp) (by omega) pre mid hm
    obtain ⟨es, h1, h2⟩ := this
    rw [List.append_nil] at h1 h2
    cases h2 with
    | cons hx ht =>
      cases ht
      exact ⟨_, by simpa using h1, by rw [hx.1, extract_name], hx.2⟩
  have hlastK : ∀ (own : List Line), own ≠ [] → own.getLast?.map Line.key ≠ some (py "COMMENT") →
      (∀ m, own.getLast? = some m → m.key ∈ K) → (∀ m, own.head? = some m → m.key ∈ K) →
      (∀ m ∈ own, m.key ∈ K ∨ m ∈ lr) → own.filter (fun m => K.contains m.key) = l1 ++ l2 → lr.Sublist own ∨ (∀ m ∈ own, m.key ∈ K) →
      ∀ rest, (∀ m ∈ rest, m.key ≠ py "COMMENT" → m.key ∉ K) → own.filter (fun m => !K.contains m.key) = lr ∨
        own.filter (fun m => !K.contains m.key) = [] →
      getMinMax K pre.length (keysOf (pre ++ own ++ rest)) none false = .ok ((pre.length, pre.length + own.length), K) := by
    intro own hown hl hlk hhk hall hfil _ rest hrest hforeign
    have hb : BlockAt K (keysOf own) (keysOf rest) := by
      refine ⟨?_, ?_, ?_, hKc, ?_, ?_, ?_, ?_⟩
      · have e1 : (keysOf own).filter (fun k => K.contains k && k != py "COMMENT") =
            (keysOf (l1 ++ l2)).filter fun k => k != py "COMMENT" := by
          have : (keysOf own).filter (fun k => K.contains k) = keysOf (l1 ++ l2) := by
            rw [← hfil]
            unfold keysOf
            rw [List.filter_map]
            rfl
          rw [← this, List.filter_filter]
          congr 1
          funext k
          exact Bool.and_comm _ _
        rw [e1]
        exact hnodup
      · intro t ht htc hm
        obtain ⟨m, hm', rfl⟩ := mem_keysOf.mp hm
        exact absurd ht (hrest m hm' htc)
      · intro hc
        obtain ⟨m, hm, he⟩ := mem_keysOf.mp hc
        rcases hall m hm with hk | hk
        · rw [he] at hk; exact hk
        · exact absurd (he ▸ hinD m hk) hsubC
      · intro k hk
        rw [head?_keysOf, Option.map_eq_some_iff] at hk
        obtain ⟨m, hm, rfl⟩ := hk
        exact hhk m hm
      · intro k hk
        rw [getLast?_keysOf] at hk
        refine ⟨?_, ?_⟩
        · rw [Option.map_eq_some_iff] at hk
          obtain ⟨m, hm, rfl⟩ := hk
          exact hlk m hm
        · rintro rfl
          exact hl hk
      · have e1 : (keysOf own).filter (fun k => !K.contains k) = keysOf (own.filter fun m => !K.contains m.key) := by
          unfold keysOf
          rw [List.filter_map]
          rfl
        rw [e1]
        rcases hforeign with hf | hf
        · rw [hf]
          rcases hr with ⟨-, rfl⟩ | ⟨vs, -, hv, -⟩
          · simp [keysOf]
          · have hnd := goodKeys_nodup hv (keyed h.inner.members h.inner.value h.inner.user).nodup
            rw [List.filter_eq_self.mpr] at hnd
            · exact hnd
            · intro k hk
              obtain ⟨m, hm, rfl⟩ := mem_keysOf.mp hk
              simp only [bne_iff_ne, ne_eq]
              intro hc
              exact hsubC (hc ▸ hinD m hm)
        · rw [hf]
          exact List.nodup_nil
      · intro t ht htk
        obtain ⟨m, hm, rfl⟩ := mem_keysOf.mp ht
        rcases hall m hm with hk | hk
        · exact absurd hk htk
        · obtain ⟨f, hf, hfe⟩ := List.mem_map.mp (hinD m hk)
          rw [← hfe]
          intro hb
          have := ((keyed h.inner.members h.inner.value h.inner.user).field f hf).chars ' ' hb
          revert this
          decide
    have := getMinMax_block (pre := keysOf pre) (pref := none) hb (by simpa [keysOf] using hown)
    rw [keysOf_length, keysOf_length] at this
    rw [keysOf_append, keysOf_append]
    exact this
  have hfl1 : l1.filter (fun m => K.contains m.key) = l1 := by
    rw [List.filter_eq_self]
    intro m hm
    simpa using hinK m (by simp [hm])
  have hfl2 : l2.filter (fun m => K.contains m.key) = l2 := by
    rw [List.filter_eq_self]
    intro m hm
    simpa using hinK m (by simp [hm])
  have hflr : lr.filter (fun m => K.contains m.key) = [] := by
    rw [List.filter_eq_nil_iff]
    intro m hm hc
    exact hdisj _ (by simpa using hc) (hinD m hm)
  have hnl1 : l1.filter (fun m => !K.contains m.key) = [] := by
    rw [List.filter_eq_nil_iff]
    intro m hm
    simpa using hinK m (by simp [hm])
  have hnl2 : l2.filter (fun m => !K.contains m.key) = [] := by
    rw [List.filter_eq_nil_iff]
    intro m hm
    simpa using hinK m (by simp [hm])
  have hnlr : lr.filter (fun m => !K.contains m.key) = lr := by
    rw [List.filter_eq_self]
    intro m hm
    have : m.key ∉ K := fun hc => hdisj _ hc (hinD m hm)
    simpa using this
  have hl1D : ∀ m ∈ l1, m.key ∉ D := fun m hm hc => hdisj _ (hinK m (by simp [hm])) hc
  have hl2D : ∀ m ∈ l2, m.key ∉ D := fun m hm hc => hdisj _ (hinK m (by simp [hm])) hc
  by_cases hl2 : l2 = []
  · subst hl2
    rw [List.append_nil] at *
    have hrest : ∀ m ∈ lr ++ post, m.key ≠ py "COMMENT" → m.key ∉ K := by
      intro m hm hmc
      rcases List.mem_append.mp hm with hm | hm
      · exact fun hk => hdisj _ hk (hinD m hm)
      · exact hpc m hm hmc
    have hroot := hlastK l1 hne hlast (fun m hm => hinK m (List.mem_of_getLast? hm))
      (fun m hm => hinK m (List.mem_of_head? hm)) (fun m hm => .inl (hinK m hm)) hfl1 (.inr hinK) (lr ++ post) hrest (.inr hnl1)
    have eL : pre ++ l1 ++ (lr ++ post) = pre ++ (l1 ++ lr) ++ post := by simp
    rw [eL] at hroot
    rcases hr with ⟨rfl, rfl⟩ | ⟨vs, rfl, hv, hvne⟩
    · obtain ⟨s', e1, e2, e3⟩ := habsent l1 post hl1D hpd
      refine ⟨l1, s', ?_, ⟨[], by simp⟩, by simpa using hfl1, ?_, e2, ?_⟩
      · rw [hrange]; simpa using hroot
      · simpa using e1
      · simpa using e3
    · have hin := h.inner_read hv hvne k fb.name false hpd
      have := subsRead_item (avoid := fun _ => False) (by rw [extract_isList]) hin pre l1 (by simp)
      obtain ⟨es, e1, e2⟩ := this
      cases e2 with
      | cons hx ht =>
        cases ht
        have eL2 : pre ++ l1 ++ lr ++ post = pre ++ (l1 ++ lr) ++ post := by simp
        rw [eL2] at e1 hx
        refine ⟨l1, _, ?_, ⟨lr, by simp⟩, by simpa using hfl1, ?_, by rw [hx.1, extract_name], hx.2⟩
        · rw [hrange]; exact hroot
        · rw [List.length_append] at e1
          rw [e1, List.length_append]
          congr 2
          omega
  · have hown : l1 ++ lr ++ l2 ≠ [] := by simp [hne]
    have hroot := hlastK (l1 ++ lr ++ l2) hown ?_ ?_ ?_ ?_ ?_ (.inl ?_) post hpc (.inl ?_)
    · rcases hr with ⟨rfl, rfl⟩ | ⟨vs, rfl, hv, hvne⟩
      · obtain ⟨s', e1, e2, e3⟩ := habsent (l1 ++ [] ++ l2) post (by
          intro m hm
          simp only [List.append_nil, List.mem_append] at hm
          rcases hm with hm | hm
          · exact hl1D m hm
          · exact hl2D m hm) hpd
        refine ⟨l1 ++ [] ++ l2, s', by rw [hrange]; exact hroot, ⟨[], by simp⟩, ?_, ?_, e2, e3⟩
        · rw [List.append_nil, List.filter_append, hfl1, hfl2]
        · simpa using e1
      · obtain ⟨s', e1, e2, e3⟩ := h.inner_again hv hvne k pre l1 l2 post hl1D hl2D hpd
        refine ⟨l1 ++ lr ++ l2, s', by rw [hrange]; exact hroot, ⟨[], by simp⟩, ?_, ?_, e2, e3⟩
        · rw [List.filter_append, List.filter_append, hfl1, hfl2, hflr, List.append_nil]
        · simpa using e1
    · rw [List.getLast?_append, List.getLast?_eq_some_getLast hl2]
      simp only [Option.or, Option.map_some, ne_eq, Option.some.injEq]
      exact hn2 _ (List.getLast_mem hl2)
    · intro m hm
      rw [List.getLast?_append, List.getLast?_eq_some_getLast hl2] at hm
      simp only [Option.or, Option.some.injEq] at hm
      subst hm
      exact hinK _ (by simp [List.getLast_mem hl2])
    · intro m hm
      rw [List.append_assoc, List.head?_append, List.head?_eq_some_head hne] at hm
      simp only [Option.or, Option.some.injEq] at hm
      subst hm
      exact hinK _ (by simp [List.head_mem hne])
    · intro m hm
      rcases List.mem_append.mp hm with hm | hm
      · rcases List.mem_append.mp hm with hm | hm
        · exact .inl (hinK m (by simp [hm]))
        · exact .inr hm
      · exact .inl (hinK m (by simp [hm]))
    · rw [List.filter_append, List.filter_append, hfl1, hfl2, hflr, List.append_nil]
    · rw [List.append_assoc]
      exact (List.sublist_append_left lr l2).trans (List.sublist_append_right l1 _)
    · rw [List.filter_append, List.filter_append, hnl1, hnl2, hnlr]
      simp

theorem Sandwich.read (h : Sandwich c d n fb) {before after : List (Str × Val)} {rsv : Val} {l1 lr l2 : List Line}
    (h1 : KeysOf KeyText (c.keyAttrs.take n) before l1)
    (hr : rsv = .none ∧ lr = [] ∨ ∃ vs, rsv = .obj d vs ∧ KeysOf KeyText d.keyAttrs vs lr ∧ lr ≠ [])
    (h2 : KeysOf KeyText (c.keyAttrs.drop n) after l2) (hne : l1 ≠ []) (hlast : l1.getLast?.map Line.key ≠ some (py "COMMENT"))
    (hn2 : ∀ m ∈ l2, m.key ≠ py "COMMENT") (k : Nat) (name : Str) (l : Bool) (post : List Line)
    (hpc : ∀ m ∈ post, m.key ≠ py "COMMENT" → m.key ∉ c.keyAttrs.map fun f => upper f.name)
    (hpd : ∀ m ∈ post, m.key ∉ d.keyAttrs.map fun f => upper f.name) :
    ItemRead 2 (extract (k + 2) name c l) (.obj c (before ++ (fb.name, rsv) :: after)) (l1 ++ lr ++ l2) post := by
  intro pre
  obtain ⟨own, s', r1, ⟨t, r2⟩, r3, r4, r5, r6⟩ := h.ranges h1 hr h2 hne hlast hn2 k name l pre post hpc hpd
  have helem : extract (k + 2) name c l = Elem.mk name c [extract (k + 1) fb.name d false]
      (c.keyAttrs.map fun f => upper f.name) l none none none := h.elem (k + 1) name l
  have hnames1 := goodKeys_names h1
  have hloc : ((pre ++ (l1 ++ lr ++ l2) ++ post).drop pre.length).take (pre.length + own.length - pre.length) = own := by
    rw [r2, List.append_assoc, drop_pre, Nat.add_sub_cancel_left, List.append_assoc]
    simp
  generalize hL : pre ++ (l1 ++ lr ++ l2) ++ post = L at *
  refine ⟨(pre.length, pre.length + own.length), { extract (k + 2) name c l with subs := [s'] }, ?_, rfl, ?_, rfl, ?_⟩
  · rw [identElem_eq, r1]
    simp only [Except.bind]
    have : (extract (k + 2) name c l).subs = [extract (k + 1) fb.name d false] := by rw [helem]
    rw [this, r4, helem]
  · intro _; simp
  · intro fuel hf
    obtain ⟨fuel, rfl⟩ : ∃ f, fuel = f + 1 := ⟨fuel - 1, by omega⟩
    obtain ⟨doc, hdoc, hbind⟩ := h.bound h1 h2 name
    rw [helem]
    simp only
    have hnsp : ∀ x, isSpecialBuild x = true → c ≠ x := by
      rintro x hx rfl
      rw [h.noBuild] at hx
      cases hx
    have hkwid : c.keyAttrs.map (fun f => upper f.name) ≠ [py "id", py "version"] := by
      intro hc
      have : py "id" ∈ c.keyAttrs.map (fun f => upper f.name) := by rw [hc]; simp
      obtain ⟨f, hf, hfn⟩ := List.mem_map.mp this
      have := (h.keys.field f hf).chars 'i' (by rw [hfn]; decide)
      revert this
      decide
    have hfilter : own.filter (fun m => (c.keyAttrs.map fun f => upper f.name).contains (m.headD [])) = l1 ++ l2 := r3
    have hplain : plainDoc (Elem.mk name c [s'] (c.keyAttrs.map fun f => upper f.name) l none
        (some (pre.length, pre.length + own.length)) none) own =
        .ok (some doc) := by
      unfold plainDoc
      simp only [prefixOf_none h.user, Option.isSome_none, Bool.false_eq_true, if_false, hfilter]
      rw [if_neg (by simp), if_neg hkwid]
      simp only [hdoc]
      rfl
    have hsec : sectionDoc (keysOf L) L (Elem.mk name c [s'] (c.keyAttrs.map fun f => upper f.name) l none
        (some (pre.length, pre.length + own.length)) none)
        own (pre.length + own.length) = .ok (some (doc, [s'])) := by
      unfold sectionDoc
      simp only
      rw [if_neg (hnsp _ (by decide)), if_neg (hnsp _ (by decide)), if_neg (hnsp _ (by decide)),
        if_neg (hnsp _ (by decide)), hplain]
      rfl
    unfold build
    simp only [hloc]
    rw [if_neg (by simp), if_neg (hnsp _ (by decide))]
    simp only [bind, Except.bind, hsec, hbind, List.foldlM_cons, List.foldlM_nil, r6 fuel (by omega), r5]
    have hmem : fb.name ∉ before.map (·.1) := by
      rw [hnames1]
      have hn := h.names
      rw [h.attrs, List.map_append, List.map_cons] at hn
      intro hm
      exact (List.nodup_append.mp hn).2.2 _ hm _ (by simp) rfl
    simp only [attach, lookupVar_mid hmem, setVar_mid hmem]
    rfl

theorem Sandwich.write (h : Sandwich c d n fb) {before after : List (Str × Val)} {rsv : Val} {l1 lr l2 : List Line}
    (h1 : GoodKeys (c.keyAttrs.take n) before l1)
    (hr : rsv = .none ∧ lr = [] ∨ ∃ vs, rsv = .obj d vs ∧ GoodKeys d.keyAttrs vs lr ∧ lr ≠ [])
    (h2 : GoodKeys (c.keyAttrs.drop n) after l2) (out : List Str) :
    Writes (collateVars out (before ++ (fb.name, rsv) :: after)) out (l1 ++ lr ++ l2) := by
  have hk := h.keys
  rw [collateVars_append, List.append_assoc]
  refine (write_keys (fun f hf => hk.field f (List.mem_of_mem_take hf)) h1 out).bind ?_
  intro o
  have hlast := write_keys (fun f hf => hk.field f (List.mem_of_mem_drop hf)) h2
  rcases hr with ⟨rfl, rfl⟩ | ⟨vs, rfl, hv, hvne⟩
  · simp only [collateVars, collateSub, h.noComment, h.noUser, or_self, if_false]
    exact hlast o
  · have hw : ∀ out, Writes (collateVars out vs) out lr :=
      write_keys (keyed h.inner.members h.inner.value h.inner.user).field hv
    have hu : vs.any (·.1 == py "units") = false := by
      rw [any_units (goodKeys_names hv), List.any_eq_false]
      intro f hf
      simpa using (h.inner.attr f (List.mem_of_mem_filter hf)).2.1
    exact (write_sub hw h.inner.out h.inner.header hu ⟨h.noComment, h.noUser⟩ o).bind hlast

end

end Ndm
