import Verif.Lemmas.Att
import Verif.Lemmas.EphTdm

/-! Reading and writing AEMs. -/

namespace Ndm

/-! ### Attitude lines -/

theorem words_blank {s : Str} : words (' ' :: s) = words s :=
  words_blank_append (w := [' ']) (by intro c hc; simp only [List.mem_singleton] at hc; subst hc; decide) s

theorem QuaternionOrder.nonempty {qc q1 q2 q3 : Dec} {q : Str} {ds : List Dec} (h : QuaternionOrder qc q1 q2 q3 q ds) : ds ≠ [] := by
  cases h <;> simp

theorem Attitude.nonempty {D : AttitudeDecl} {e : Str} {ds : List Dec} {v : Val} (h : Attitude D e ds v) : ds ≠ [] := by
  cases h with
  | quaternion _ hq => exact hq.nonempty
  | quaternionRate => simp
  | eulerAngle => simp
  | eulerAngleRate => simp

theorem AttitudeState.read {D : AttitudeDecl} {v : Val} {ls : List Line} (h : AttitudeState D v ls) : AttitudeRead D v ls := by
  cases h with
  | @mk e ds v he ht hp ha =>
    have hds : ds.map Dec.plain = ds := by
      conv_rhs => rw [← List.map_id ds]
      exact List.map_congr_left fun d hd => hp d hd
    obtain ⟨d, ds', rfl⟩ := List.exists_cons_of_ne_nil ha.nonempty
    have e1 : joinWith (py "  ") (e :: (d :: ds').map Dec.toStr) =
        e ++ ' ' :: (' ' :: joinWith (py "  ") ((d :: ds').map Dec.toStr)) := by
      simp [joinWith, lit]
    rw [e1]
    refine .mk he ht ?_ (by rw [hds]; exact ha)
    rw [words_blank, words_tokens_join]
    · exact spells_toStr _
    · intro t ht
      obtain ⟨x, -, rfl⟩ := List.mem_map.mp ht
      exact token_dec x

theorem attitude_line {D : AttitudeDecl} {v : Val} {ls : List Line} (h : AttitudeRead D v ls) :
    ∃ s, ls = [[s]] ∧ letterHead s = false ∧ ' ' ∈ s ∧ (∃ t ts, words s = t :: ts ∧ isDateStr t = .ok true) ∧
      v.truthy = true ∧ ∃ vs, v = .obj .AttitudeStateType vs := by
  cases h with
  | @mk e s ds v he hty hw hat =>
    refine ⟨_, rfl, ?_, by simp, ⟨e, words s, ?_, he.isDate⟩, ?_⟩
    · obtain ⟨c, r, rfl, hc⟩ := he.firstDigit
      show isAsciiUpper c = false
      unfold DigitC at hc
      unfold isAsciiUpper
      simp
      omega
    · have := words_cons he.token.1 (fun c hc => (he.token.2 c hc).1) (w := [' '])
        (by intro c hc; simp only [List.mem_singleton] at hc; subst hc; decide) (by simp) s
      simpa using this
    · have : ∃ a w, v = attitude a w := by
        generalize ds.map Dec.plain = ds' at hat
        cases hat <;> exact ⟨_, _, rfl⟩
      obtain ⟨a, w, rfl⟩ := this
      exact ⟨rfl, _, rfl⟩

/-- A line that no attitude element is looked for by. -/
def Away (l : Line) : Prop := l.key ∉ Elem.allKws attE.subs

theorem attE_keywords : ∀ k ∈ Elem.allKws attE.subs, letterHead k = true ∧ k ≠ py "COMMENT" ∧ k ∉ Cls.keywords .AemMetadata := by
  decide +kernel

theorem away_data {s : Str} {r : Line} (h : letterHead s = false) : Away (s :: r) := by
  intro hk
  have := (attE_keywords _ hk).1
  have h' : letterHead s = true := this
  rw [h] at h'
  cases h'

theorem away_keyword {l : Line} (h : l.key = py "COMMENT" ∨ l.key ∈ Cls.keywords .AemMetadata) : Away l := by
  intro hk
  obtain ⟨-, h1, h2⟩ := attE_keywords _ hk
  rcases h with h | h
  · exact h1 h
  · exact h2 h

theorem ident_attitude {s : Str} {r : Line} {t : Str} {ts : List Str} (hw : words s = t :: ts) (hb : isDateStr t = .ok true)
    (hs : letterHead s = false) {post : List Line} (hpost : ∀ l ∈ post, Away l) (pre : List Line) :
    ∃ a, identElem (keysOf (pre ++ [s :: r] ++ post)) (pre ++ [s :: r] ++ post) attE pre.length =
      .ok (pre.length + 1, (pre.length, pre.length + 1), a) ∧ a.erase = attE.erase := by
  have hr := date_range (e := attE) (.inr rfl) (r := r) hw hb (keysOf (pre ++ [s :: r] ++ post)) pre post
  obtain ⟨es, hes⟩ := identSubs_absent attE.subs pre [s :: r] post attE_facts.2.1 (by
    intro l hl
    rcases List.mem_append.mp hl with hl | hl
    · simp only [List.mem_singleton] at hl
      subst hl
      exact away_data hs
    · exact hpost l hl)
  have hid : ∃ a, identElem (keysOf (pre ++ [s :: r] ++ post)) (pre ++ [s :: r] ++ post) attE pre.length =
      .ok (pre.length + 1, (pre.length, pre.length + 1), a) := by
    rw [identElem_eq]
    have e1 : pre ++ [s :: r] ++ post = pre ++ (s :: r) :: post := by simp
    rw [e1] at hr hes ⊢
    rw [hr]
    simp only [if_true, Except.bind]
    have e2 : (pre ++ [s :: r]).length = pre.length + 1 := by simp
    rw [e2] at hes
    rw [hes]
    exact ⟨_, rfl⟩
  obtain ⟨a, ha⟩ := hid
  exact ⟨a, ha, identElem_fixed _ _ _ _ _ attE_facts.1 ha⟩

/-- The lines begin with a keyword, if at all. -/
def AemFirst (post : List Line) : Prop := ∀ l, post.head? = some l → l.key = py "COMMENT" ∨ l.key ∈ Cls.keywords .AemMetadata

theorem aemKeywords_ok : ∀ k ∈ py "COMMENT" :: Cls.keywords .AemMetadata, words k = [k] ∧
    (match isDateStr k with | .ok b => b == false | .error _ => false) = true ∧ k ≠ [] := by decide +kernel

theorem stop_attitude {post : List Line} (hne : post ≠ []) (hfirst : AemFirst post) (hpost : ∀ l ∈ post, Away l) : StopAt attE post := by
  obtain ⟨l, rest, rfl⟩ := List.exists_cons_of_ne_nil hne
  have hk : l.key ∈ py "COMMENT" :: Cls.keywords .AemMetadata := List.mem_cons.mpr (hfirst l rfl)
  obtain ⟨h1, h2, h3⟩ := aemKeywords_ok _ hk
  cases l with
  | nil => exact absurd rfl h3
  | cons s r =>
    have hb : isDateStr s = .ok false := by
      split at h2
      · rename_i b hb
        have : isDateStr s = .ok b := hb
        rw [this]
        simpa using h2
      · cases h2
    intro pre
    have hr := date_range (e := attE) (.inr rfl) (r := r) (s := s) (t := s) (ts := []) h1 hb (keysOf (pre ++ (s :: r) :: rest)) pre rest
    obtain ⟨es, hes⟩ := identSubs_absent attE.subs pre [] ((s :: r) :: rest) attE_facts.2.1
      (fun l hl => hpost l (by simpa using hl))
    simp only [List.append_nil] at hes
    rw [identElem_eq, hr]
    simp only [Bool.false_eq_true, if_false, Except.bind, hes]
    exact ⟨_, _, _, rfl, .inl ⟨rfl, rfl⟩⟩

/-! ### The loop over attitude states -/

/-- The attitude states found, with their lines. -/
def Found (D : AttitudeDecl) (L : List Line) (a : Elem) (x : Val) : Prop :=
  a.name = py "attitude_state" ∧ a.erase = attE.erase ∧
    ∃ i l, a.minMax = some (i, i + 1) ∧ (L.drop i).take 1 = [l] ∧ AttitudeRead D x [l]

theorem attitudes_away {D : AttitudeDecl} {xs : List Val} {ls : List Line} (h : Each (AttitudeRead D) xs ls) :
    xs.length ≤ ls.length ∧ ∀ l ∈ ls, Away l := by
  induction h with
  | nil => simp
  | cons hx _ ih =>
    obtain ⟨s, rfl, hs, -⟩ := attitude_line hx
    refine ⟨by simp; have := ih.1; omega, ?_⟩
    intro l hl
    rcases List.mem_append.mp hl with hl | hl
    · simp only [List.mem_singleton] at hl
      subst hl
      exact away_data hs
    · exact ih.2 l hl

theorem loop_attitude {D : AttitudeDecl} {post : List Line} (hpost : ∀ l ∈ post, Away l) (hfirst : AemFirst post)
    {xs : List Val} {ls : List Line} (h : Each (AttitudeRead D) xs ls) :
    ∀ (pre : List Line) (fuel : Nat) (acc : List Elem), xs.length < fuel → (xs = [] → post ≠ []) → ∃ es,
      listLoop (fun i => identElem (keysOf (pre ++ ls ++ post)) (pre ++ ls ++ post) attE i) (pre ++ ls ++ post).length fuel
        pre.length acc = .ok (pre.length + ls.length, acc.reverse ++ es) ∧
      List.Forall₂ (Found D (pre ++ ls ++ post)) es xs := by
  induction h with
  | nil =>
    intro pre fuel acc hf hne
    obtain ⟨fuel, rfl⟩ : ∃ f, fuel = f + 1 := ⟨fuel - 1, by simp at hf; omega⟩
    obtain ⟨mx, mm, e', he, hcase⟩ := stop_attitude (hne rfl) hfirst hpost pre
    refine ⟨[], ?_, .nil⟩
    simp only [List.append_nil, listLoop, bind, Except.bind, he]
    rcases hcase with ⟨rfl, rfl⟩ | ⟨h1, h2⟩
    · simp [pure, Except.pure]
    · rw [if_neg (by omega), if_pos h1]
      simp [pure, Except.pure]
  | @cons x b xs ls hx hxs ih =>
    intro pre fuel acc hf _
    obtain ⟨fuel, rfl⟩ : ∃ f, fuel = f + 1 := ⟨fuel - 1, by simp at hf; omega⟩
    obtain ⟨s, rfl, hs, -, ⟨t, ts, hw, hb⟩, -⟩ := attitude_line hx
    have haway : ∀ l ∈ ls ++ post, Away l := by
      intro l hl
      rcases List.mem_append.mp hl with hl | hl
      · exact (attitudes_away hxs).2 l hl
      · exact hpost l hl
    obtain ⟨a, h1, ha⟩ := ident_attitude (r := []) hw hb hs haway pre
    have e1 : pre ++ [[s]] ++ (ls ++ post) = pre ++ ([[s]] ++ ls) ++ post := by simp
    have e2 : pre ++ [[s]] ++ ls ++ post = pre ++ ([[s]] ++ ls) ++ post := by simp
    have hfound : Found D (pre ++ ([[s]] ++ ls) ++ post) { a with minMax := some (pre.length, pre.length + 1) } x := by
      refine ⟨?_, ?_, pre.length, [s], rfl, ?_, hx⟩
      · show a.name = _
        rw [← (erase_fields a).1, ha, (erase_fields attE).1]
        rfl
      · rw [← ha]; cases a; rfl
      · rw [← e1, List.append_assoc, drop_pre]; rfl
    rw [e1] at h1
    unfold listLoop
    simp only [bind, Except.bind, h1]
    rw [if_neg (by omega), if_neg (by omega)]
    by_cases hend : pre.length + 1 ≥ (pre ++ ([[s]] ++ ls) ++ post).length
    · rw [if_pos hend]
      simp only [List.length_append, List.length_cons, List.length_nil] at hend
      have hls : ls = [] := List.eq_nil_of_length_eq_zero (by omega)
      subst hls
      have hxs0 : xs = [] := List.eq_nil_of_length_eq_zero (by simpa using (attitudes_away hxs).1)
      subst hxs0
      exact ⟨[{ a with minMax := some (pre.length, pre.length + 1) }], by simp [pure, Except.pure], .cons hfound .nil⟩
    · rw [if_neg hend]
      obtain ⟨es, h2, h3⟩ := ih (pre ++ [[s]]) fuel ({ a with minMax := some (pre.length, pre.length + 1) } :: acc)
        (by simp at hf; omega) (by
          rintro rfl rfl
          cases hxs
          simp at hend)
      rw [e2] at h2 h3
      refine ⟨{ a with minMax := some (pre.length, pre.length + 1) } :: es, ?_, .cons hfound h3⟩
      have e3 : (pre ++ [[s]]).length = pre.length + 1 := by simp
      rw [e3] at h2
      rw [h2]
      simp [Nat.add_assoc, Nat.add_comm 1]

/-! ### The data of a segment -/

theorem aemData_regular : Regular .AemData := regular_iff (by decide +kernel)
theorem aemData_blocks : blocksAre (Cls.blockAttrs .AemData) [(py "attitude_state", .AttitudeStateType, true)] = true := by
  decide +kernel
theorem aemData_keys : commentOnly (Cls.keyAttrs .AemData) = true := by decide +kernel

theorem attitudes_head {D : AttitudeDecl} {sts : List Val} {lo : List Line} (h : Each (AttitudeRead D) sts lo) (hne : sts ≠ []) :
    ∃ s rest, lo = [s] :: rest ∧ letterHead s = false ∧ ' ' ∈ s := by
  cases h with
  | nil => exact absurd rfl hne
  | @cons x l xs ls hx _ =>
    obtain ⟨s, rfl, hs, hb, -⟩ := attitude_line hx
    exact ⟨s, ls, rfl, hs, hb⟩

theorem blocks_one {fs : List Field} {a : Str} {c : Cls} (h : blocksAre fs [(a, c, true)] = true) :
    ∃ f, fs = [f] ∧ f.name = a ∧ f.ty = .cls c ∧ f.isList = true := by
  simp only [blocksAre, decide_eq_true_eq, List.map_cons, List.map_nil] at h
  cases fs with
  | nil => simp at h
  | cons f fs =>
    cases fs with
    | cons g gs => simp at h
    | nil =>
      simp only [List.map_cons, List.map_nil, List.cons.injEq, Prod.mk.injEq, and_true] at h
      exact ⟨f, rfl, h⟩

theorem read_aemData {D : AttitudeDecl} {v : Val} {l post : List Line} (h : AemDataOk (AttitudeRead D) v l)
    (hpost : ∀ l ∈ post, Away l) (hfirst : AemFirst post) (pre : List Line) :
    ∃ mm d, identElem (keysOf (pre ++ l ++ post)) (pre ++ l ++ post) (extract 7 (py "data") .AemData false) pre.length =
      .ok (pre.length + l.length, mm, d) ∧ mm.1 = pre.length ∧ d.subs ≠ [] ∧ d.name = py "data" ∧
      ∀ keys fuel, 5 ≤ fuel → keys = keysOf (pre ++ l ++ post) → build keys (pre ++ l ++ post) fuel
        { d with subs := d.subs.map (prepared (py "EPOCH" :: D.labels) D.attr), minMax := some mm } (pre ++ l ++ post) = .ok v := by
  cases h with
  | @mk texts sts lo ht hlen hne hst =>
    have hp := extract_plain aemData_regular 6 (py "data") false
    obtain ⟨hkeys, hnames, hkw⟩ := commentOnly_keys aemData_keys ht
    obtain ⟨f, hf, hfn, hft, hfl⟩ := blocks_one aemData_blocks
    obtain ⟨s, rest, hlo, hs, -⟩ := attitudes_head hst hne
    generalize hown : texts.map (fun t => [py "COMMENT", t]) = own at *
    have hlaid : Laid .AemData own lo := by
      unfold Laid
      rw [if_pos hnames]
      refine ⟨by rw [← hown]; simpa using hlen, fun _ => ⟨[s], by rw [hlo]; rfl, not_comment hs⟩⟩
    have hrange := own_range aemData_regular hp hkeys hlaid (post := post) (by
      intro m _ hc hm
      rw [hp.kw, hkw] at hm
      simp at hm
      exact absurd hm hc) pre
    obtain ⟨es, hloop, hfound⟩ := loop_attitude hpost hfirst hst (pre ++ own) ((pre ++ (own ++ lo) ++ post).length + 1) []
      (by
        have := (attitudes_away hst).1
        simp only [List.length_append]; omega) (fun h => absurd h hne)
    have e1 : pre ++ own ++ (lo ++ post) = pre ++ (own ++ lo) ++ post := by simp
    have e2 : pre ++ own ++ lo ++ post = pre ++ (own ++ lo) ++ post := by simp
    rw [e1] at hrange
    rw [e2] at hloop hfound
    have hsubs : (extract 7 (py "data") .AemData false).subs = [attE] := by
      rw [extract_ordinary aemData_regular]
      simp only [hf, subElems_cons hft, hfn, hfl]
      rfl
    have hatt : attE.isList = true := rfl
    have hes : identSubs (keysOf (pre ++ (own ++ lo) ++ post)) (pre ++ (own ++ lo) ++ post) pre.length [attE]
        (pre.length + own.length) = .ok (pre.length + own.length + lo.length, es) := by
      simp only [identSubs, hatt, if_true, bind, Except.bind]
      rw [← List.length_append, hloop]
      simp [pure, Except.pure]
    have hesne : es ≠ [] := by
      rintro rfl
      cases hfound
      exact hne rfl
    refine ⟨(pre.length, pre.length + own.length), { extract 7 (py "data") .AemData false with subs := es }, ?_, rfl, hesne,
      extract_name _ _ _ _, ?_⟩
    · rw [identElem_eq, hrange]
      simp only [Except.bind, hsubs, hes, List.length_append]
      rw [Nat.add_assoc]
    · rintro keys fuel hfuel rfl
      have hatts : attachments (Cls.blockAttrs .AemData) [(py "attitude_state", .list sts)] =
          sts.map fun x => (py "attitude_state", x) := by
        rw [hf]
        simp [attachments, hfl, hfn]
      have hbv : BlockVals (Cls.blockAttrs .AemData) [(py "attitude_state", .list sts)] := by
        rw [hf, ← hfn]
        exact .list hfl (each_truthy (fun x l h => (attitude_line h).choose_spec.2.2.2.2.1) hst) .nil
      have hbuilt : Built 4 (pre ++ (own ++ lo) ++ post) (es.map (prepared (py "EPOCH" :: D.labels) D.attr))
          (attachments (Cls.blockAttrs .AemData) [(py "attitude_state", .list sts)]) := by
        rw [hatts]
        unfold Built
        rw [List.forall₂_map_left_iff, List.forall₂_map_right_iff]
        refine List.Forall₂.imp ?_ hfound
        rintro a x ⟨ha1, ha2, i, l, ha3, ha4, ha5⟩
        exact ⟨ha1, fun fuel hf => build_attitude ha5 ha2 ha3 ha4 hf⟩
      exact build_of_range aemData_regular hp hkeys (.refl own) e1 hbuilt hbv (fun _ => by
        rw [hatts]; simpa using hne) hfuel

/-! ### Values looked up in the metadata -/

theorem goodKeys_split {fs : List Field} {kvs : List (Str × Val)} {ls : List Line} (h : KeysOf KeyText fs kvs ls)
    (hn : (fs.map fun f => upper f.name).Nodup) {name : Str} {c : Cls} {s : Str} (hm : (name, .enum c s) ∈ kvs) :
    ∃ a b, ls = a ++ [upper name, s] :: b ∧ ∀ l ∈ a, l.key ≠ upper name := by
  induction h with
  | nil => simp at hm
  | @absent f fs vs ls hl hr ih =>
    rw [List.map_cons, List.nodup_cons] at hn
    rcases List.mem_cons.mp hm with h | h
    · cases h
    · exact ih hn.2 h
  | @value f fs v vs l ls hl hk hr ih =>
    rw [List.map_cons, List.nodup_cons] at hn
    rcases List.mem_cons.mp hm with h | h
    · cases h
      cases hk with
      | enum => exact ⟨[], ls, rfl, by simp⟩
    · obtain ⟨a, b, rfl, hab⟩ := ih hn.2 h
      refine ⟨l :: a, b, rfl, ?_⟩
      intro m hm
      rcases List.mem_cons.mp hm with rfl | hm
      · have hkey : m.key = upper f.name := by cases hk <;> rfl
        rw [hkey]
        intro he
        have := (goodKeys_key hr [upper name, s] (by simp)).1
        exact hn.1 (he ▸ this)
      · exact hab m hm
  | @comments f fs texts vs ls hl hc ht hr ih =>
    rw [List.map_cons, List.nodup_cons] at hn
    rcases List.mem_cons.mp hm with h | h
    · cases h
    · obtain ⟨a, b, rfl, hab⟩ := ih hn.2 h
      refine ⟨texts.map (fun t => [py "COMMENT", t]) ++ a, b, by simp, ?_⟩
      intro m hm
      rcases List.mem_append.mp hm with hm | hm
      · obtain ⟨t, -, rfl⟩ := List.mem_map.mp hm
        intro he
        have := (goodKeys_key hr [upper name, s] (by simp)).1
        refine hn.1 ?_
        rw [hc]
        have he' : py "COMMENT" = upper name := he
        rw [show upper (py "comment") = py "COMMENT" by decide, he']
        exact this
      · exact hab m hm

/-- The same line is found when lines with other keywords are moved. -/
theorem split_reordered {own own' : List Line} (h : Reordered own own') {k s : Str} {a b : List Line}
    (hab : own = a ++ [k, s] :: b) (ha : ∀ l ∈ a, l.key ≠ k) :
    ∃ a' b', own' = a' ++ [k, s] :: b' ∧ ∀ l ∈ a', l.key ≠ k := by
  have h1 : own.filter (fun l : Line => l.key == k) = [k, s] :: b.filter (fun l : Line => l.key == k) := by
    rw [hab, List.filter_append, List.filter_eq_nil_iff.mpr (fun l hl => by simpa using ha l hl),
      List.filter_cons_of_pos (by simp [Line.key])]
    rfl
  have h2 := h k
  rw [h1] at h2
  clear h1 hab h
  induction own' with
  | nil => simp at h2
  | cons x xs ih =>
    by_cases hx : x.key = k
    · rw [List.filter_cons_of_pos (by simpa using hx)] at h2
      injection h2 with h2 _
      exact ⟨[], xs, by rw [h2]; rfl, by simp⟩
    · rw [List.filter_cons_of_neg (by simpa using hx)] at h2
      obtain ⟨a', b', rfl, ha'⟩ := ih h2
      exact ⟨x :: a', b', rfl, by
        intro l hl
        rcases List.mem_cons.mp hl with rfl | hl
        · exact hx
        · exact ha' l hl⟩

theorem metaValue_mid {k s : Str} {pre a b : List Line} (ha : ∀ l ∈ a, l.key ≠ k) {L : List Line}
    (hL : pre ++ (a ++ [k, s] :: b) = L) : metaValue k (keysOf L) L pre.length = .ok s := by
  subst hL
  have h1 : findFrom k (keysOf (pre ++ (a ++ [k, s] :: b))) pre.length = some (pre.length + a.length) := by
    unfold findFrom
    rw [keysOf_append, ← keysOf_length pre, drop_pre, keysOf_append]
    have : (keysOf a ++ keysOf ([k, s] :: b)).findIdx? (· == k) = some a.length := by
      rw [List.findIdx?_append]
      have h0 : (keysOf a).findIdx? (· == k) = none := by
        rw [List.findIdx?_eq_none_iff]
        intro x hx
        obtain ⟨l, hl, rfl⟩ := mem_keysOf.mp hx
        simpa using ha l hl
      rw [h0]
      simp [keysOf, Line.key, List.findIdx?_cons]
    rw [this]
    simp [Nat.add_comm]
  unfold metaValue
  rw [h1]
  simp only
  have h2 : pyGet (pre ++ (a ++ [k, s] :: b)) (pre.length + a.length) = .ok [k, s] := by
    have := pyGet_mid (pre ++ a) [k, s] b
    simpa using this
  rw [h2]
  rfl

theorem aemMetadata_regular : Regular .AemMetadata := regular_iff (by decide +kernel)
theorem aemMetadata_facts : Cls.blockAttrs .AemMetadata = [] ∧ (Cls.keyAttrs .AemMetadata).map (·.name) ≠ [py "comment"] ∧
    ((Cls.keyAttrs .AemMetadata).map fun f => upper f.name).Nodup := by decide +kernel

theorem declared_template {D : AttitudeDecl} {m : Val} {lm : List Line} (hm : KeyBlockOf Spelled .AemMetadata m lm) (hd : Declares D m)
    {e : Str} {ds : List Dec} {v : Val} (ha : Attitude D e ds v) {pre rest L : List Line} (hL : pre ++ lm ++ rest = L) :
    attTemplate (keysOf L) L pre.length = .ok (py "EPOCH" :: D.labels, some D.attr) := by
  cases hm with
  | @mk kvs ls hsp hne hlast =>
    obtain ⟨own₀, hk, hro⟩ := hsp
    cases hd with
    | mk h1 h2 h3 =>
      have key : ∀ {name : Str} {c : Cls} {s : Str}, (name, Val.enum c s) ∈ kvs →
          metaValue (upper name) (keysOf L) L pre.length = .ok s := by
        intro name c s h
        obtain ⟨a₀, b₀, hab₀, hne₀⟩ := goodKeys_split hk aemMetadata_facts.2.2 h
        obtain ⟨a, b, hab, hne⟩ := split_reordered hro hab₀ hne₀
        refine metaValue_mid hne (b := b ++ rest) ?_
        rw [← hL, hab]
        simp
      have u1 : upper (py "attitude_type") = py "ATTITUDE_TYPE" := by decide
      have u2 : upper (py "quaternion_type") = py "QUATERNION_TYPE" := by decide
      have u3 : upper (py "euler_rot_seq") = py "EULER_ROT_SEQ" := by decide
      refine attTemplate_of ha ?_ ?_ ?_
      · rw [← u1]; exact key h1
      · intro h; rw [← u2]; exact key (h2 h)
      · intro h; rw [← u3]; exact key (h3 h)

/-! ### Segments -/

theorem aemSegment_bindable : Bindable .AemSegment := bindable_iff (by decide +kernel)
theorem aemSegment_blocks : Cls.keyAttrs .AemSegment = [] ∧ blocksAre (Cls.blockAttrs .AemSegment)
    [(py "metadata", .AemMetadata, false), (py "data", .AemData, false)] = true := by decide +kernel
theorem aemSegment_names : ((Cls.blockAttrs .AemSegment).map (·.name)).Nodup := by decide +kernel

theorem aemSegment_elem (name : Str) : extract 8 name .AemSegment true =
    { name, cls := .AemSegment,
      subs := [extract 7 (py "metadata") .AemMetadata false, extract 7 (py "data") .AemData false], kw := [], isList := true } := by
  rfl

theorem blocks_two {fs : List Field} {a b : Str} {c d : Cls} (h : blocksAre fs [(a, c, false), (b, d, false)] = true) :
    ∃ f g, fs = [f, g] ∧ f.name = a ∧ f.isList = false ∧ g.name = b ∧ g.isList = false := by
  simp only [blocksAre, decide_eq_true_eq, List.map_cons, List.map_nil] at h
  match fs with
  | [] => simp at h
  | [_] => simp at h
  | _ :: _ :: _ :: _ => simp at h
  | [f, g] =>
    simp only [List.map_cons, List.map_nil, List.cons.injEq, Prod.mk.injEq, and_true] at h
    exact ⟨f, g, rfl, h.1.1, h.1.2.2, h.2.1, h.2.2.2⟩

theorem aemData_lines {D : AttitudeDecl} {v : Val} {l : List Line} (h : AemDataOk (AttitudeRead D) v l) :
    l ≠ [] ∧ (∀ m ∈ l, m.key = py "COMMENT" ∨ letterHead m.key = false) ∧ (∃ vs, v = .obj .AemData vs) ∧
      (∃ e ds w, Attitude D e ds w) ∧ (l.head?.map Line.key = some (py "COMMENT") ∨
        ∃ s rest, l = [s] :: rest ∧ letterHead s = false ∧ ' ' ∈ s) := by
  cases h with
  | @mk texts sts lo ht hlen hne hst =>
    obtain ⟨s, rest, hlo, hs, hb⟩ := attitudes_head hst hne
    refine ⟨by rw [hlo]; simp, ?_, ⟨_, rfl⟩, ?_, ?_⟩
    · intro m hm
      rcases List.mem_append.mp hm with hm | hm
      · obtain ⟨t, -, rfl⟩ := List.mem_map.mp hm
        exact .inl rfl
      · right
        clear hlo hne
        induction hst with
        | nil => simp at hm
        | cons hx _ ih =>
          rcases List.mem_append.mp hm with hm' | hm'
          · obtain ⟨s', rfl, hs', -⟩ := attitude_line hx
            simp only [List.mem_singleton] at hm'
            subst hm'
            exact hs'
          · exact ih (List.mem_append_right _ hm') hm'
    · cases hst with
      | nil => exact absurd rfl hne
      | cons hx _ =>
        cases hx with
        | mk he hty hw hat => exact ⟨_, _, _, hat⟩
    · cases texts with
      | nil => exact .inr ⟨s, rest, by simpa using hlo, hs, hb⟩
      | cons t ts => exact .inl rfl

theorem read_aemSegment {D : AttitudeDecl} {m d : Val} {lm ld post : List Line} (hm : KeyBlockOf Spelled .AemMetadata m lm)
    (hdec : Declares D m) (hd : AemDataOk (AttitudeRead D) d ld) (hpost : ∀ l ∈ post, Away l) (hfirst : AemFirst post)
    (hnew : ld.head?.map Line.key = some (py "COMMENT") → ∀ l ∈ post, l.key ≠ py "COMMENT" → l.key ∈ Cls.keywords .AemMetadata →
      ∃ l' ∈ lm, l'.key = l.key) (name : Str) :
    ItemRead 6 (extract 8 name .AemSegment true) (aemSegment m d) (lm ++ ld) post := by
  obtain ⟨hdn, hdk, ⟨vd, rfl⟩, ⟨e, ds, w, hat⟩, hdh⟩ := aemData_lines hd
  obtain ⟨hmk, hmn, ⟨vm, rfl⟩⟩ := keyBlock_keys hm
  have hrm := (read_keyBlock aemMetadata_regular aemMetadata_facts.1 aemMetadata_facts.2.1 hm (post := ld ++ post) (by
    by_cases hc : ld.head?.map Line.key = some (py "COMMENT")
    · left
      intro x hx hxc hxk
      rcases List.mem_append.mp hx with hx | hx
      · exfalso
        rcases hdk x hx with h | h
        · exact hxc h
        · exact not_keyword aemMetadata_regular.toBindable h hxk
      · exact hnew hc x hx hxc hxk
    · right
      obtain ⟨s, rest, rfl, hs, hb⟩ := hdh.resolve_left hc
      refine ⟨[[s]], rest ++ post, rfl, .inl ⟨s, by simp [keysOf, Line.key], hb⟩, ?_⟩
      intro l h
      rw [List.mem_singleton.mp h]
      exact not_keyword aemMetadata_regular.toBindable hs)
    6 (py "metadata") false).mono (show 1 ≤ 5 by omega)
  intro pre
  obtain ⟨es, hes, hbuilt⟩ := subsRead_item (avoid := fun _ => False) (extract_isList _ _ _ _) hrm pre [] (by simp)
  obtain ⟨mm, dE, hid, hmm, hsub, hname, hbd⟩ := read_aemData hd hpost hfirst (pre ++ lm)
  have e1 : pre ++ lm ++ (ld ++ post) = pre ++ (lm ++ ld) ++ post := by simp
  have e2 : pre ++ lm ++ ld ++ post = pre ++ (lm ++ ld) ++ post := by simp
  simp only [List.append_nil] at hes hbuilt
  rw [e1] at hes hbuilt
  rw [e2] at hid hbd
  have htmpl := declared_template hm hdec hat e1
  have hr := rootRange_absent (e := extract 8 name .AemSegment true) (pre := pre) (rest := lm ++ ld ++ post) rfl (by
    intro l _ _ h
    rw [aemSegment_elem] at h
    simp at h) (by
    intro p hp
    rw [aemSegment_elem] at hp
    have : prefixOf .AemSegment = some p := hp
    rw [show prefixOf .AemSegment = none by decide] at this
    cases this) (by rw [aemSegment_elem]; simp)
  have e3 : pre ++ (lm ++ ld ++ post) = pre ++ (lm ++ ld) ++ post := by simp
  rw [e3] at hr
  generalize hL : pre ++ (lm ++ ld) ++ post = L at *
  cases hbuilt with
  | @cons mE r ss rs hmE hnil =>
  cases hnil
  rw [extract_name] at hmE
  have hlen : (pre ++ lm).length = pre.length + lm.length := List.length_append
  have hsubs : identSubs (keysOf L) L pre.length
      [extract 7 (py "metadata") .AemMetadata false, extract 7 (py "data") .AemData false] pre.length =
      .ok (pre.length + (lm ++ ld).length, [mE, { dE with minMax := some mm }]) := by
    rw [identSubs_cons, hes]
    simp only [Except.bind]
    rw [← hlen]
    have hil : (extract 7 (py "data") .AemData false).isList = false := extract_isList _ _ _ _
    have : identSubs (keysOf L) L pre.length [extract 7 (py "data") .AemData false] (pre ++ lm).length =
        .ok ((pre ++ lm).length + ld.length, [{ dE with minMax := some mm }]) := by
      simp only [identSubs, hil, Bool.false_eq_true, if_false, hid, bind, Except.bind, researchRange]
      rw [if_neg (fun hc => hsub hc.2)]
      rfl
    rw [this]
    simp [Nat.add_assoc]
  refine ⟨(pre.length, pre.length), { extract 8 name .AemSegment true with subs := [mE, { dE with minMax := some mm }] },
    ?_, rfl, by simp, rfl, ?_⟩
  · rw [identElem_eq, hr]
    simp only [Except.bind]
    rw [show (extract 8 name .AemSegment true).subs =
      [extract 7 (py "metadata") .AemMetadata false, extract 7 (py "data") .AemData false] from rfl, hsubs]
  · intro fuel hf
    obtain ⟨fuel, rfl⟩ : ∃ f, fuel = f + 1 := ⟨fuel - 1, by omega⟩
    obtain ⟨doc, hdoc, hbind⟩ := bind_own_any aemSegment_bindable (kvs := []) (own := []) (own' := [])
      (by rw [aemSegment_blocks.1]; exact .nil) (.refl []) name
    obtain ⟨f, g, hfg, hfn, hfl, hgn, hgl⟩ := blocks_two aemSegment_blocks.2
    have hbv : BlockVals (Cls.blockAttrs .AemSegment)
        [(py "metadata", .obj .AemMetadata vm), (py "data", .obj .AemData vd)] := by
      rw [hfg, ← hfn, ← hgn]
      exact .single hfl (by simp) (.single hgl (by simp) .nil)
    have hatt : attachments (Cls.blockAttrs .AemSegment) [(py "metadata", .obj .AemMetadata vm), (py "data", .obj .AemData vd)] =
        [(py "metadata", .obj .AemMetadata vm), (py "data", .obj .AemData vd)] := by
      rw [hfg]
      simp [attachments, hfn, hgn]
    have hB : Built 5 L [mE, { dE with minMax := some mm, subs := dE.subs.map (prepared (py "EPOCH" :: D.labels) D.attr) }]
        [(py "metadata", .obj .AemMetadata vm), (py "data", .obj .AemData vd)] :=
      .cons hmE (.cons ⟨hname, fun fuel hf => hbd _ fuel hf rfl⟩ .nil)
    have hprep : prepareAemSegment (keysOf L) L ⟨name, .AemSegment, [mE, { dE with minMax := some mm }], [], true, none,
        some (pre.length, pre.length), none⟩ pre.length =
        .ok [mE, { dE with minMax := some mm, subs := dE.subs.map (prepared (py "EPOCH" :: D.labels) D.attr) }] := by
      unfold prepareAemSegment
      have g1 : pyGet [mE, { dE with minMax := some mm }] 1 = .ok { dE with minMax := some mm } := rfl
      simp only [bind, Except.bind, g1, htmpl]
      rfl
    have hsec : sectionDoc (keysOf L) L ⟨name, .AemSegment, [mE, { dE with minMax := some mm }], [], true, none,
        some (pre.length, pre.length), none⟩ [] pre.length =
        .ok (some (doc, [mE, { dE with minMax := some mm, subs := dE.subs.map (prepared (py "EPOCH" :: D.labels) D.attr) }])) := by
      unfold sectionDoc
      rw [hprep]
      simp only [if_true, bind, Except.bind, hdoc]
      rfl
    show build (keysOf L) L (fuel + 1) ⟨name, .AemSegment, [mE, { dE with minMax := some mm }], [], true, none,
        some (pre.length, pre.length), none⟩ L = _
    unfold build
    simp only [Nat.sub_self, List.take_zero]
    rw [if_neg (by simp), if_neg (by decide)]
    simp only [bind, Except.bind, hsec, hbind]
    have hb := build_subs (fuel := fuel) (by omega) hB (.obj .AemSegment ([] ++ (Cls.blockAttrs .AemSegment).map fun f => (f.name, f.initial)))
    simp only [bind, Except.bind] at hb
    rw [hb, ← hatt, attach_all hbv]
    · rfl
    · simpa using aemSegment_names

end Ndm
