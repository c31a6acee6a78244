import Verif.Lemmas.ReadRt

/-! Reading back one object: its own lines, and attaching its nested objects. -/

namespace Ndm

theorem goodKeys_nodup {fs : List Field} {vs : List (Str × Val)} {ls : List Line} (h : KeysOf KeyText fs vs ls)
    (hn : (fs.map fun f => upper f.name).Nodup) : ((keysOf ls).filter fun k => k != py "COMMENT").Nodup := by
  induction h with
  | nil => simp [keysOf]
  | absent _ _ ih => exact ih (List.nodup_cons.mp hn).2
  | @value f fs v vs l ls _ hv hk ih =>
    rw [List.map_cons, List.nodup_cons] at hn
    have hl : l.headD [] = upper f.name := (keyVal_tag hv).2
    rw [keysOf, List.map_cons, hl, List.filter_cons]
    split
    · refine List.nodup_cons.mpr ⟨?_, ih hn.2⟩
      intro hm
      obtain ⟨m, hm, he⟩ := mem_keysOf.mp (List.mem_of_mem_filter hm)
      exact hn.1 (he ▸ (goodKeys_key hk m hm).1)
    · exact ih hn.2
  | @comments f fs texts vs ls _ hname _ hk ih =>
    rw [keysOf_append, List.filter_append]
    have : (keysOf (texts.map fun t => [py "COMMENT", t])).filter (fun k => k != py "COMMENT") = [] := by
      rw [List.filter_eq_nil_iff]
      intro k hk
      obtain ⟨l, hl, rfl⟩ := mem_keysOf.mp hk
      obtain ⟨t, -, rfl⟩ := List.mem_map.mp hl
      simp [Line.key]
    rw [this]
    exact ih (List.nodup_cons.mp hn).2

theorem getLast?_keysOf (ls : List Line) : (keysOf ls).getLast? = ls.getLast?.map Line.key := by
  rw [keysOf, List.getLast?_map]; rfl

theorem head?_keysOf (ls : List Line) : (keysOf ls).head? = ls.head?.map Line.key := by
  rw [keysOf, List.head?_map]; rfl

/-- The element of an ordinary class. -/
structure PlainElem (e : Elem) (c : Cls) : Prop where
  cls : e.cls = c
  kw : e.kw = c.keyAttrs.map fun f => upper f.name
  single : e.single = none

theorem prefixOf_none {c : Cls} (h : c ≠ .UserDefinedType) : prefixOf c = none := by simp [prefixOf, h]

/-- The range of an object's own lines, in any order. -/
theorem own_range_any {c : Cls} (ho : Regular c) {e : Elem} (he : PlainElem e c) {kvs : List (Str × Val)}
    {own₀ own bls post : List Line} (hk : KeysOf KeyText c.keyAttrs kvs own₀) (hr : Reordered own₀ own) (hlaid : Laid c own bls)
    (hlater : ∀ m ∈ bls ++ post, m.key ≠ py "COMMENT" → m.key ∈ e.kw → ∃ m' ∈ own, m'.key = m.key)
    (pre : List Line) :
    rootRange e (keysOf (pre ++ own ++ (bls ++ post))) (pre ++ own ++ (bls ++ post)) pre.length =
      .ok ((pre.length, pre.length + own.length), e.kw) := by
  have hkey := keyed ho.members ho.value ho.user
  unfold rootRange
  rw [he.cls, ho.ident, prefixOf_none ho.user, he.single]
  simp only [Bool.false_eq_true, if_false, Option.isSome_none]
  rw [keysOf_append, keysOf_append]
  have hlen : pre.length = (keysOf pre).length := (keysOf_length pre).symm
  have hin : ∀ k ∈ keysOf own, k ∈ e.kw := by
    intro k hk'
    obtain ⟨l, hl, rfl⟩ := mem_keysOf.mp hk'
    rw [he.kw]
    exact (goodKeys_key hk l (hr.mem.mpr hl)).1
  by_cases hkw : e.kw = [py "COMMENT"]
  · have hname : c.keyAttrs.map (·.name) = [py "comment"] := by
      rw [he.kw] at hkw
      cases hc : c.keyAttrs with
      | nil => rw [hc] at hkw; simp at hkw
      | cons f fs =>
        rw [hc] at hkw
        simp only [List.map_cons, List.cons.injEq, List.map_eq_nil_iff] at hkw
        obtain ⟨h1, rfl⟩ := hkw
        have hf := hkey.field f (by simp [hc])
        cases hl : f.isList with
        | true => simp [(hf.list hl).1]
        | false => exact absurd (by rw [h1]; exact List.prefix_rfl) (hf.single hl).2.2.1
    unfold Laid at hlaid
    rw [if_pos hname] at hlaid
    rw [hkw]
    cases own with
    | nil =>
      obtain ⟨l, hl, hlc⟩ := hlaid.2 rfl
      have := getMinMax_comment (pre := keysOf pre) (rest := keysOf (bls ++ post)) (k := l.key)
        (by rw [head?_keysOf, List.head?_append, hl]; rfl)
      rw [if_neg hlc, ← hlen] at this
      simpa [keysOf] using this
    | cons o os =>
      have hos : os = [] := List.eq_nil_of_length_eq_zero (by have := hlaid.1; rw [List.length_cons] at this; omega)
      subst hos
      have hok : o.key = py "COMMENT" := by
        have := hin o.key (mem_keysOf.mpr ⟨o, by simp, rfl⟩)
        rw [hkw] at this
        simpa using this
      have := getMinMax_comment (pre := keysOf pre) (rest := keysOf ([o] ++ (bls ++ post))) (k := o.key)
        (by rw [head?_keysOf]; rfl)
      rw [if_pos hok, ← hlen] at this
      rw [keysOf_append, ← List.append_assoc] at this
      exact this
  · by_cases hown : own = []
    · subst hown
      have := getMinMax_absent (tags := e.kw) (pre := keysOf pre) (rest := keysOf (bls ++ post)) (pref := none)
        (single := false) (by
          intro t ht htc hm
          obtain ⟨l, hl, rfl⟩ := mem_keysOf.mp hm
          obtain ⟨m', hm', -⟩ := hlater l hl htc ht
          simp at hm') (by simp) hkw
      rw [← hlen] at this
      simpa [keysOf] using this
    · have hlast : own.getLast?.map Line.key ≠ some (py "COMMENT") := by
        unfold Laid at hlaid
        split at hlaid
        · rename_i hname
          exfalso
          apply hkw
          rw [he.kw]
          obtain ⟨f, hf, hfn⟩ := List.map_eq_singleton_iff.mp hname
          rw [hf, List.map_singleton, hfn]
          decide
        · exact hlaid.1
      have hb : BlockAt e.kw (keysOf own) (keysOf (bls ++ post)) := by
        refine ⟨?_, ?_, ?_, hkw, ?_, ?_, ?_, ?_⟩
        · have := goodKeys_nodup hk hkey.nodup
          have := (((hr.perm.map _).filter _).nodup_iff).mp this
          refine this.sublist ?_
          have h2 : ((keysOf own).filter fun k => e.kw.contains k && k != py "COMMENT") =
              ((keysOf own).filter fun k => k != py "COMMENT").filter fun k => e.kw.contains k := by
            rw [List.filter_filter]
          rw [h2]
          exact List.filter_sublist
        · intro t ht htc hm
          obtain ⟨l, hl, rfl⟩ := mem_keysOf.mp hm
          obtain ⟨m', hm', he'⟩ := hlater l hl htc ht
          exact mem_keysOf.mpr ⟨m', hm', he'⟩
        · exact hin _
        · intro k hk'
          exact hin k (List.mem_of_head? hk')
        · intro k hk'
          refine ⟨hin k (List.mem_of_getLast? hk'), ?_⟩
          rintro rfl
          rw [getLast?_keysOf] at hk'
          exact hlast hk'
        · have : (keysOf own).filter (fun k => !e.kw.contains k) = [] := by
            rw [List.filter_eq_nil_iff]
            intro k hk'
            simp [hin k hk']
          rw [this]
          exact List.nodup_nil
        · intro k hk' hn
          exact absurd (hin k hk') hn
      have := getMinMax_block (pre := keysOf pre) (pref := none) hb (by simpa [keysOf] using hown)
      rw [keysOf_length, keysOf_length] at this
      exact this

/-- The range of an object's own lines. -/
theorem own_range {c : Cls} (ho : Regular c) {e : Elem} (he : PlainElem e c) {kvs : List (Str × Val)}
    {own bls post : List Line} (hk : KeysOf KeyText c.keyAttrs kvs own) (hlaid : Laid c own bls)
    (hlater : ∀ m ∈ bls ++ post, m.key ≠ py "COMMENT" → m.key ∈ e.kw → ∃ m' ∈ own, m'.key = m.key)
    (pre : List Line) :
    rootRange e (keysOf (pre ++ own ++ (bls ++ post))) (pre ++ own ++ (bls ++ post)) pre.length =
      .ok ((pre.length, pre.length + own.length), e.kw) :=
  own_range_any ho he hk (.refl own) hlaid hlater pre

/-! ### Attaching nested objects -/

theorem lookupVar_mid {a b : List (Str × Val)} {k : Str} {v : Val} (h : k ∉ a.map (·.1)) :
    Val.lookupVar k (a ++ (k, v) :: b) = some v := by
  induction a with
  | nil => simp [Val.lookupVar]
  | cons x xs ih =>
    simp only [List.map_cons, List.mem_cons, not_or] at h
    have := ih h.2
    unfold Val.lookupVar at this ⊢
    rw [List.cons_append, List.find?_cons_of_neg (by simpa using fun e => h.1 e.symm)]
    exact this

theorem setVar_mid {a b : List (Str × Val)} {k : Str} {v w : Val} (h : k ∉ a.map (·.1)) :
    Val.setVar k w (a ++ (k, v) :: b) = a ++ (k, w) :: b := by
  induction a with
  | nil => simp [Val.setVar]
  | cons x xs ih =>
    simp only [List.map_cons, List.mem_cons, not_or] at h
    obtain ⟨k', v'⟩ := x
    simp only [List.cons_append, Val.setVar]
    rw [if_neg (fun e => h.1 e.symm), ih h.2]

/-- The built objects of the nested attributes, in the order in which they are attached. -/
def attachments : List Field → List (Str × Val) → List (Str × Val)
  | f :: fs, (_, .list xs) :: vs => (if f.isList then xs.map fun x => (f.name, x) else []) ++ attachments fs vs
  | f :: fs, (_, v) :: vs => (f.name, v) :: attachments fs vs
  | _, _ => []

/-- Objects and absent values. -/
inductive BlockVals : List Field → List (Str × Val) → Prop
  | nil : BlockVals [] []
  | single {f fs v vs} : f.isList = false → (∀ xs, v ≠ .list xs) → BlockVals fs vs →
      BlockVals (f :: fs) ((f.name, v) :: vs)
  | list {f fs xs vs} : f.isList = true → (∀ x ∈ xs, x.truthy = true) → BlockVals fs vs →
      BlockVals (f :: fs) ((f.name, .list xs) :: vs)

theorem attach_items {c : Cls} {a b : List (Str × Val)} {k : Str} (h : k ∉ a.map (·.1)) :
    ∀ (xs ys : List Val), (∀ x ∈ xs, x.truthy = true) →
      (xs.map fun x => (k, x)).foldlM (fun o (r : Str × Val) => attach o r.1 r.2) (.obj c (a ++ (k, .list ys) :: b)) =
        Except.ok (.obj c (a ++ (k, .list (ys ++ xs)) :: b))
  | [], ys, _ => by simp [pure, Except.pure]
  | x :: xs, ys, hx => by
    have hx0 : x.truthy = true := hx x (by simp)
    have h1 : attach (.obj c (a ++ (k, Val.list ys) :: b)) k x = .ok (.obj c (a ++ (k, .list (ys ++ [x])) :: b)) := by
      simp only [attach, lookupVar_mid h, hx0, if_true, setVar_mid h]
    rw [List.map_cons, List.foldlM_cons, h1]
    simp only [bind, Except.bind]
    rw [attach_items (c := c) (b := b) h xs (ys ++ [x]) (fun y hy => hx y (by simp [hy]))]
    simp

theorem attach_all {c : Cls} {fs : List Field} {bvs : List (Str × Val)} (h : BlockVals fs bvs) :
    ∀ done : List (Str × Val), (done.map (·.1) ++ fs.map (·.name)).Nodup →
      (attachments fs bvs).foldlM (fun o (r : Str × Val) => attach o r.1 r.2)
        (.obj c (done ++ fs.map fun f => (f.name, f.initial))) = Except.ok (.obj c (done ++ bvs)) := by
  induction h with
  | nil => intro done _; simp [attachments, pure, Except.pure]
  | @single f fs v vs hl hv h ih =>
    intro done hn
    have hf : f.name ∉ done.map (·.1) := fun hm =>
      (List.nodup_append.mp hn).2.2 _ hm _ (by simp) rfl
    have ha : attachments (f :: fs) ((f.name, v) :: vs) = (f.name, v) :: attachments fs vs := by
      cases v <;> first | rfl | exact absurd rfl (hv _)
    have h1 : attach (.obj c (done ++ (f.name, Val.none) :: fs.map fun f => (f.name, f.initial))) f.name v =
        .ok (.obj c ((done ++ [(f.name, v)]) ++ fs.map fun f => (f.name, f.initial))) := by
      simp only [attach, lookupVar_mid hf, setVar_mid hf]
      simp
    rw [ha, List.map_cons, Field.initial, if_neg (by simp [hl]), List.foldlM_cons, h1]
    simp only [bind, Except.bind]
    rw [ih (done ++ [(f.name, v)]) (by simpa using hn)]
    simp
  | @list f fs xs vs hl hx h ih =>
    intro done hn
    have hf : f.name ∉ done.map (·.1) := fun hm =>
      (List.nodup_append.mp hn).2.2 _ hm _ (by simp) rfl
    have ha : attachments (f :: fs) ((f.name, .list xs) :: vs) = (xs.map fun x => (f.name, x)) ++ attachments fs vs := by
      simp [attachments, hl]
    rw [ha, List.map_cons, Field.initial, if_pos hl, List.foldlM_append, attach_items hf xs [] hx]
    simp only [bind, Except.bind, List.nil_append]
    have := ih (done ++ [(f.name, .list xs)]) (by simpa using hn)
    simpa using this

theorem build_subs {n fuel : Nat} {L : List Line} (hf : n ≤ fuel) {es : List Elem} {rs : List (Str × Val)}
    (h : Built n L es rs) : ∀ o : Val,
      es.foldlM (fun o s => do
        let sub ← build (keysOf L) L fuel s L
        attach o s.name sub) o = rs.foldlM (fun o (r : Str × Val) => attach o r.1 r.2) o := by
  induction h with
  | nil => intro o; rfl
  | cons hr _ ih =>
    intro o
    rw [List.foldlM_cons, List.foldlM_cons, hr.2 fuel hf, hr.1]
    simp only [bind, Except.bind]
    cases attach o _ _ with
    | error e => rfl
    | ok o' => exact ih o'

/-- Building an object from its own lines, in any order, and its sub-elements. -/
theorem build_of_range {c : Cls} (ho : Regular c) {e : Elem} (he : PlainElem e c) {kvs bvs : List (Str × Val)}
    {own₀ own : List Line} (hk : KeysOf KeyText c.keyAttrs kvs own₀) (hro : Reordered own₀ own) {pre rest L : List Line}
    (hL : pre ++ own ++ rest = L) {n : Nat} {es : List Elem} (hbuilt : Built n L es (attachments c.blockAttrs bvs))
    (hbv : BlockVals c.blockAttrs bvs) (hne : own = [] → attachments c.blockAttrs bvs ≠ []) {fuel : Nat} (hf : n + 1 ≤ fuel) :
    build (keysOf L) L fuel { e with subs := es, minMax := some (pre.length, pre.length + own.length) } L =
      .ok (.obj c (kvs ++ bvs)) := by
  obtain ⟨fuel, rfl⟩ : ∃ f, fuel = f + 1 := ⟨fuel - 1, by omega⟩
  have hloc : (L.drop pre.length).take (pre.length + own.length - pre.length) = own := by
    rw [← hL, List.append_assoc, drop_pre, Nat.add_sub_cancel_left]
    simp
  have hnotempty : ¬ (own = [] ∧ es = []) := by
    rintro ⟨hown, hc⟩
    subst hc
    cases hbuilt' : attachments c.blockAttrs bvs with
    | nil => exact hne hown hbuilt'
    | cons r rs => rw [hbuilt'] at hbuilt; cases hbuilt
  obtain ⟨doc, hdoc, hbind⟩ := bind_own_any ho.toBindable hk hro e.name
  have hnsp : ∀ d, isSpecialBuild d = true → e.cls ≠ d := by
    rintro d hd rfl
    rw [he.cls, ho.build] at hd
    cases hd
  have hfilter : own.filter (fun l => e.kw.contains (l.headD [])) = own := by
    rw [List.filter_eq_self]
    intro l hl
    rw [List.contains_iff_mem, he.kw]
    exact (goodKeys_key hk l (hro.mem.mpr hl)).1
  have hkwid : e.kw ≠ [py "id", py "version"] := by
    intro hc
    have : py "id" ∈ e.kw := by rw [hc]; simp
    rw [he.kw] at this
    obtain ⟨f, hf, hfn⟩ := List.mem_map.mp this
    have := ((keyed ho.members ho.value ho.user).field f hf).chars 'i' (by rw [hfn]; decide)
    revert this
    decide
  have hplain : plainDoc { e with subs := es, minMax := some (pre.length, pre.length + own.length) } own =
      .ok (some doc) := by
    unfold plainDoc
    simp only [he.cls, prefixOf_none ho.user, Option.isSome_none, Bool.false_eq_true, if_false, hfilter]
    rw [if_neg hnotempty, if_neg hkwid, he.single]
    simp only [hdoc]
    rfl
  have hsec : sectionDoc (keysOf L) L { e with subs := es, minMax := some (pre.length, pre.length + own.length) }
      own (pre.length + own.length) = .ok (some (doc, es)) := by
    unfold sectionDoc
    simp only
    rw [if_neg (hnsp _ (by decide)), if_neg (hnsp _ (by decide)), if_neg (hnsp _ (by decide)),
      if_neg (hnsp _ (by decide)), hplain]
    rfl
  unfold build
  simp only [hloc]
  rw [if_neg hnotempty, if_neg (hnsp _ (by decide))]
  simp only [bind, Except.bind, hsec]
  rw [he.cls, hbind]
  have hb := build_subs (fuel := fuel) (by omega) hbuilt (.obj c (kvs ++ c.blockAttrs.map fun f => (f.name, f.initial)))
  simp only [bind, Except.bind] at hb ⊢
  rw [hb, attach_all hbv]
  rw [goodKeys_names hk, ← List.map_append, ← ho.order]
  exact attrs_nodup c

/-- Reading one object back, given the range of its own lines, which may be in any order. -/
theorem item_of_range_any {c : Cls} (ho : Regular c) {e : Elem} (he : PlainElem e c) {kvs bvs : List (Str × Val)}
    {own₀ own bls post : List Line} (hk : KeysOf KeyText c.keyAttrs kvs own₀) (hro : Reordered own₀ own)
    (hrange : ∀ pre : List Line, rootRange e (keysOf (pre ++ own ++ (bls ++ post))) (pre ++ own ++ (bls ++ post)) pre.length =
      .ok ((pre.length, pre.length + own.length), e.kw))
    {n : Nat} {avoid : Str → Prop} (hs : SubsRead n e.subs (attachments c.blockAttrs bvs) bls post avoid)
    (hav : ∀ l ∈ own, ¬ avoid l.key) (hbv : BlockVals c.blockAttrs bvs)
    (hne : own = [] → attachments c.blockAttrs bvs ≠ []) :
    ItemRead (n + 1) e (.obj c (kvs ++ bvs)) (own ++ bls) post := by
  intro pre
  have hr := hrange pre
  obtain ⟨es, hes, hbuilt⟩ := hs pre own hav
  have e1 : pre ++ own ++ (bls ++ post) = pre ++ (own ++ bls) ++ post := by simp
  have e2 : pre ++ own ++ bls ++ post = pre ++ (own ++ bls) ++ post := by simp
  rw [e1] at hr
  rw [e2] at hes hbuilt
  rw [List.length_append] at hes
  generalize hL : pre ++ (own ++ bls) ++ post = L at *
  refine ⟨(pre.length, pre.length + own.length), { e with subs := es, kw := e.kw }, ?_, rfl, ?_, rfl, ?_⟩
  · rw [identElem_eq, hr]
    simp only [Except.bind, hes, List.length_append]
    rw [Nat.add_assoc]
  · intro h
    have hown : own = [] := List.eq_nil_of_length_eq_zero (by simp only at h; omega)
    intro hc
    simp only at hc
    subst hc
    cases hbuilt' : attachments c.blockAttrs bvs with
    | nil => exact hne hown hbuilt'
    | cons r rs => rw [hbuilt'] at hbuilt; cases hbuilt
  · intro fuel hf
    exact build_of_range ho he hk hro e1 hbuilt hbv hne hf

/-- Reading one object back, given the range of its own lines. -/
theorem item_of_range {c : Cls} (ho : Regular c) {e : Elem} (he : PlainElem e c) {kvs bvs : List (Str × Val)}
    {own bls post : List Line} (hk : KeysOf KeyText c.keyAttrs kvs own)
    (hrange : ∀ pre : List Line, rootRange e (keysOf (pre ++ own ++ (bls ++ post))) (pre ++ own ++ (bls ++ post)) pre.length =
      .ok ((pre.length, pre.length + own.length), e.kw))
    {n : Nat} {avoid : Str → Prop} (hs : SubsRead n e.subs (attachments c.blockAttrs bvs) bls post avoid)
    (hav : ∀ l ∈ own, ¬ avoid l.key) (hbv : BlockVals c.blockAttrs bvs)
    (hne : own = [] → attachments c.blockAttrs bvs ≠ []) :
    ItemRead (n + 1) e (.obj c (kvs ++ bvs)) (own ++ bls) post :=
  item_of_range_any ho he hk (.refl own) hrange hs hav hbv hne

/-- Reading one ordinary object back, whatever the order of its own lines. -/
theorem item_of_parts_any {c : Cls} (ho : Regular c) {e : Elem} (he : PlainElem e c) {kvs bvs : List (Str × Val)}
    {own₀ own bls post : List Line} (hk : KeysOf KeyText c.keyAttrs kvs own₀) (hro : Reordered own₀ own) (hlaid : Laid c own bls)
    (hlater : ∀ m ∈ bls ++ post, m.key ≠ py "COMMENT" → m.key ∈ e.kw → ∃ m' ∈ own, m'.key = m.key)
    {n : Nat} {avoid : Str → Prop} (hs : SubsRead n e.subs (attachments c.blockAttrs bvs) bls post avoid)
    (hav : ∀ l ∈ own, ¬ avoid l.key) (hbv : BlockVals c.blockAttrs bvs)
    (hne : own = [] → attachments c.blockAttrs bvs ≠ []) :
    ItemRead (n + 1) e (.obj c (kvs ++ bvs)) (own ++ bls) post :=
  item_of_range_any ho he hk hro (own_range_any ho he hk hro hlaid hlater) hs hav hbv hne

/-- Reading one ordinary object back. -/
theorem item_of_parts {c : Cls} (ho : Regular c) {e : Elem} (he : PlainElem e c) {kvs bvs : List (Str × Val)}
    {own bls post : List Line} (hk : KeysOf KeyText c.keyAttrs kvs own) (hlaid : Laid c own bls)
    (hlater : ∀ m ∈ bls ++ post, m.key ≠ py "COMMENT" → m.key ∈ e.kw → ∃ m' ∈ own, m'.key = m.key)
    {n : Nat} {avoid : Str → Prop} (hs : SubsRead n e.subs (attachments c.blockAttrs bvs) bls post avoid)
    (hav : ∀ l ∈ own, ¬ avoid l.key) (hbv : BlockVals c.blockAttrs bvs)
    (hne : own = [] → attachments c.blockAttrs bvs ≠ []) :
    ItemRead (n + 1) e (.obj c (kvs ++ bvs)) (own ++ bls) post :=
  item_of_range ho he hk (own_range ho he hk hlaid hlater) hs hav hbv hne

end Ndm
