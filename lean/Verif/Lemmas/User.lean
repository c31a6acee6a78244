import Verif.Lemmas.ReadGood

/-! Blocks of user-defined parameters. -/

namespace Ndm

theorem removeGo_none {p : Str} : ∀ {s : Str}, ¬ p <:+: s → removeGo p 0 s = s
  | [], _ => rfl
  | c :: cs, h => by
    have h1 : p.isPrefixOf (c :: cs) = false := by
      cases hp : p.isPrefixOf (c :: cs) with
      | false => rfl
      | true => exact absurd (List.isPrefixOf_iff_prefix.mp hp).isInfix h
    have h2 : ¬ p <:+: cs := fun hc => h (hc.trans (List.suffix_cons c cs).isInfix)
    simp [removeGo, h1, removeGo_none h2]

theorem removeGo_skip (p : Str) : ∀ (a s : Str), removeGo p a.length (a ++ s) = removeGo p 0 s
  | [], s => rfl
  | c :: a, s => by simp [removeGo, removeGo_skip p a s]

theorem removeAll_prefix {p s : Str} (hp : p ≠ []) (h : ¬ p <:+: s) : removeAll p (p ++ s) = s := by
  cases p with
  | nil => exact absurd rfl hp
  | cons c p =>
    have h1 : (c :: p).isPrefixOf (c :: p ++ s) = true := List.isPrefixOf_iff_prefix.mpr (List.prefix_append _ _)
    simp only [removeAll, List.cons_append, removeGo]
    rw [List.cons_append] at h1
    rw [if_pos h1]
    simp only [List.length_cons, Nat.add_sub_cancel]
    rw [removeGo_skip, removeGo_none h]

theorem userKey_upper {p : Str} (h : upper p = p) :
    upper (py "user_defined" ++ py "_" ++ p) = py "USER_DEFINED_" ++ p := by
  have h1 : upper (py "user_defined" ++ py "_") = py "USER_DEFINED_" := by decide
  have h2 : ∀ a b : Str, upper (a ++ b) = upper a ++ upper b := by intro a b; simp [upper]
  rw [h2, h1, h]

theorem userKey_keyword {p v : Str} (h : UserParam p v) : Keyword (py "USER_DEFINED_" ++ p) := by
  refine ⟨by simp [lit], ⟨?_, ?_⟩, ?_, ?_⟩
  · intro c hc
    have : (py "USER_DEFINED_" ++ p).head? = some 'U' := rfl
    rw [this] at hc
    cases hc
    decide
  · intro c hc
    rw [List.getLast?_append] at hc
    cases hp : p.getLast? with
    | none =>
      rw [hp] at hc
      have : (py "USER_DEFINED_").getLast? = some '_' := by decide
      rw [Option.none_or, this] at hc
      cases hc
      decide
    | some d =>
      rw [hp, Option.some_or] at hc
      cases hc
      exact h.trimmed.2 _ hp
  · intro hm
    rcases List.mem_append.mp hm with hm | hm
    · exact absurd hm (by decide)
    · exact h.noEq hm
  · rintro ⟨t, ht⟩
    have := congrArg List.head? ht
    simp [lit] at this

theorem write_user {ps : List (Str × Str)} (h : ∀ p ∈ ps, UserParam p.1 p.2) :
    ∀ out, Writes (collateVars out [(py "comment", .list []), (py "user_defined", .list (ps.map fun p =>
            .obj .UserDefinedParameterType [(py "value", userValue p.2), (py "parameter", .str p.1)]))]) out
      (ps.map fun p => [py "USER_DEFINED_" ++ p.1, p.2]) := by
  intro out
  have hm : ∀ qs : List (Str × Str), (∀ p ∈ qs, UserParam p.1 p.2) →
      (qs.map fun p => Val.obj .UserDefinedParameterType [(py "value", userValue p.2), (py "parameter", .str p.1)]).mapM
        (writeUserDefined (py "user_defined")) =
        .ok (qs.map fun p => fillKvn (py "user_defined" ++ py "_" ++ p.1) p.2 none) := by
    intro qs hq
    induction qs with
    | nil => rfl
    | cons q qs ih =>
      have hw : writeUserDefined (py "user_defined")
          (.obj .UserDefinedParameterType [(py "value", userValue q.2), (py "parameter", .str q.1)]) =
          .ok (fillKvn (py "user_defined" ++ py "_" ++ q.1) q.2 none) := by
        cases hq2 : q.2 with
        | nil => rfl
        | cons a s =>
          rw [userValue, if_neg (List.cons_ne_nil a s)]
          rfl
      rw [List.map_cons, List.mapM_cons, hw, ih (fun p hp => hq p (by simp [hp]))]
      rfl
  refine ⟨ps.map fun p => fillKvn (py "user_defined" ++ py "_" ++ p.1) p.2 none, ?_, ?_, ?_⟩
  · have e : ∀ o xs, collateVars o [(py "comment", .list []), (py "user_defined", .list xs)] =
        (xs.mapM (writeUserDefined (py "user_defined"))).bind fun ls => .ok (o ++ ls) := by
      intro o xs
      have h1 : collateSub (py "comment") o (.list []) = .ok (o ++ []) := by
        simp only [collateSub]; rw [if_pos trivial]; rfl
      have h2 : ∀ o, collateSub (py "user_defined") o (.list xs) =
          (xs.mapM (writeUserDefined (py "user_defined"))).bind fun ls => .ok (o ++ ls) := by
        intro o
        simp only [collateSub]
        rw [if_neg (by decide), if_pos trivial]
        rfl
      simp only [collateVars, h1, bind, Except.bind, List.append_nil, h2]
      cases xs.mapM (writeUserDefined (py "user_defined")) <;> rfl
    rw [e, hm ps h]
    rfl
  · rw [List.filterMap_map]
    induction ps with
    | nil => rfl
    | cons p ps ih =>
      have hp := h p (by simp)
      have hpl : parseLine (fillKvn (py "user_defined" ++ py "_" ++ p.1) p.2 none) =
          some [py "USER_DEFINED_" ++ p.1, p.2] := by
        have := C08_value (py "user_defined" ++ py "_" ++ p.1) p.2 (by
          rw [userKey_upper hp.upperCase]; exact userKey_keyword hp) hp.plain.trimmed hp.plain.noUnit
        rw [userKey_upper hp.upperCase] at this
        exact this
      rw [List.filterMap_cons, Function.comp_apply, hpl]
      simp only [List.map_cons]
      rw [ih (fun q hq => h q (by simp [hq]))]
  · intro w hw
    obtain ⟨p, hp, rfl⟩ := List.mem_map.mp hw
    have := h p hp
    apply fillKvn_noNewline _ this.plain.oneLine (by simp)
    rw [userKey_upper this.upperCase]
    intro hm
    rcases List.mem_append.mp hm with hm | hm
    · exact absurd hm (by decide)
    · exact this.oneLine hm

theorem bindLeaf_cls {f : Field} {c : Cls} {x : XLeaf} (ht : f.ty = .cls c) (hm : c.members = none) :
    bindLeaf f x = bindLeafClass c x := by
  unfold bindLeaf
  rw [ht]
  simp only [hm]

theorem bindLeafClass_eq {c : Cls} {x : XLeaf} {fs : List Field} (h : c.fields.filter (·.init) = fs) :
    bindLeafClass c x = .obj c (fs.map fun f => (f.name, match f.kind with
      | .attr => bindAttr f x.attrs
      | .text => bindText f x.text
      | .elem => if f.isList then .list [] else .none)) := by
  rw [← h]
  rfl

theorem bindField_list {d : XDoc} {f : Field} (hk : f.kind = .elem) (hl : f.isList = true) :
    bindField d f = .list ((d.children.filter (·.tag == f.xmlName)).map (bindLeaf f)) := by
  unfold bindField
  rw [hk]
  simp only [hl, if_true]

theorem bind_user {ps : List (Str × Str)} (h : ∀ p ∈ ps, UserParam p.1 p.2) (name : Str) :
    ∃ doc, xmlifyList name (ps.map fun p => [py "USER_DEFINED_" ++ p.1, p.2]) (some userPrefix) = .ok doc ∧
      bindDoc .UserDefinedType doc = .ok (.obj .UserDefinedType [(py "comment", .list []),
          (py "user_defined", .list (ps.map fun p =>
            .obj .UserDefinedParameterType [(py "value", userValue p.2), (py "parameter", .str p.1)]))]) := by
  have hx : ∀ {s : Str}, (∀ c ∈ s, xmlChar c = true) → xmlCheck s = .ok () := by
    intro s hs
    simp only [xmlCheck, xmlText, List.all_eq_true.mpr hs, if_true]
  have hitem : ∀ p ∈ ps, xmlifyChild (some userPrefix) [py "USER_DEFINED_" ++ p.1, p.2] =
      .ok ⟨userPrefix, [(py "parameter", p.1)], p.2⟩ := by
    intro p hp
    have hp' := h p hp
    have hr : removeAll (userPrefix ++ py "_") (py "USER_DEFINED_" ++ p.1) = p.1 := by
      have : userPrefix ++ py "_" = py "USER_DEFINED_" := by decide
      rw [this]
      exact removeAll_prefix (by decide) hp'.noPrefix
    have g0 : pyGet [py "USER_DEFINED_" ++ p.1, p.2] 0 = .ok (py "USER_DEFINED_" ++ p.1) := rfl
    have g1 : pyGet [py "USER_DEFINED_" ++ p.1, p.2] 1 = .ok p.2 := rfl
    simp only [xmlifyChild, xmlifyPrefixItem, g0, g1, bind, Except.bind, hr, hx hp'.xml, hx hp'.plain.xml, pure,
      Except.pure]
  refine ⟨⟨name, [], [], ps.map fun p => ⟨userPrefix, [(py "parameter", p.1)], p.2⟩⟩, ?_, ?_⟩
  · unfold xmlifyList
    have : (ps.map fun p => [py "USER_DEFINED_" ++ p.1, p.2]).mapM (xmlifyChild (some userPrefix)) =
        .ok (ps.map fun p => ⟨userPrefix, [(py "parameter", p.1)], p.2⟩) := by
      clear h
      induction ps with
      | nil => rfl
      | cons p ps ih =>
        rw [List.map_cons, List.mapM_cons, hitem p (by simp), ih (fun q hq => hitem q (by simp [hq]))]
        rfl
    rw [this]
    rfl
  · have hfind : Cls.UserDefinedType.findElem userPrefix =
        some ⟨py "user_defined", some (py "USER_DEFINED"), .elem, (.cls .UserDefinedParameterType), true, true⟩ := by
      decide +kernel
    have hcheck : ∀ (qs : List (Str × Str)) (seen : List Str), checkChildren .UserDefinedType seen
        (qs.map fun p => (⟨userPrefix, [(py "parameter", p.1)], p.2⟩ : XLeaf)) = .ok () := by
      intro qs
      induction qs with
      | nil => intro seen; rfl
      | cons q qs ih =>
        intro seen
        simp only [List.map_cons, checkChildren, hfind]
        simpa using ih _
    have hfields : Cls.UserDefinedType.fields.filter (·.init) =
        [⟨py "comment", some (py "COMMENT"), .elem, .str, true, true⟩,
         ⟨py "user_defined", some (py "USER_DEFINED"), .elem, (.cls .UserDefinedParameterType), true, true⟩] := by
      decide +kernel
    unfold bindDoc
    simp only [hcheck, bind, Except.bind, pure, Except.pure, hfields, List.map_cons, List.map_nil]
    have hc1 : bindField ⟨name, [], [], ps.map fun p => (⟨userPrefix, [(py "parameter", p.1)], p.2⟩ : XLeaf)⟩
        ⟨py "comment", some (py "COMMENT"), .elem, .str, true, true⟩ = .list [] := by
      have : (ps.map fun p => (⟨userPrefix, [(py "parameter", p.1)], p.2⟩ : XLeaf)).filter
          (fun x => x.tag == py "COMMENT") = [] := by
        rw [List.filter_eq_nil_iff]
        intro x hx
        obtain ⟨p, -, rfl⟩ := List.mem_map.mp hx
        show ¬ (userPrefix == py "COMMENT") = true
        decide
      rw [bindField_list rfl rfl]
      exact congrArg (fun l => Val.list (List.map _ l)) this
    have hc2 : bindField ⟨name, [], [], ps.map fun p => (⟨userPrefix, [(py "parameter", p.1)], p.2⟩ : XLeaf)⟩
        ⟨py "user_defined", some (py "USER_DEFINED"), .elem, (.cls .UserDefinedParameterType), true, true⟩ =
        .list (ps.map fun p =>
            .obj .UserDefinedParameterType [(py "value", userValue p.2), (py "parameter", .str p.1)]) := by
      have : (ps.map fun p => (⟨userPrefix, [(py "parameter", p.1)], p.2⟩ : XLeaf)).filter
          (fun x => x.tag == py "USER_DEFINED") = ps.map fun p => ⟨userPrefix, [(py "parameter", p.1)], p.2⟩ := by
        rw [List.filter_eq_self]
        intro x hx
        obtain ⟨p, -, rfl⟩ := List.mem_map.mp hx
        show (userPrefix == py "USER_DEFINED") = true
        decide
      rw [bindField_list rfl rfl]
      refine (congrArg (fun l => Val.list (List.map _ l)) this).trans ?_
      rw [List.map_map]
      congr 1
      apply List.map_congr_left
      intro p hp
      have hmem : Cls.UserDefinedParameterType.members = none := by decide +kernel
      have hpf : Cls.UserDefinedParameterType.fields.filter (·.init) =
          [⟨py "value", none, .text, .str, false, true⟩, ⟨py "parameter", none, .attr, .str, false, true⟩] := by
        decide +kernel
      rw [Function.comp_apply, bindLeaf_cls rfl hmem, bindLeafClass_eq hpf]
      have hb : bindText ⟨py "value", none, .text, .str, false, true⟩ p.2 = userValue p.2 := by
        cases p.2 with
        | nil => rfl
        | cons a s =>
          rw [userValue, if_neg (List.cons_ne_nil a s)]
          rfl
      rw [List.map_cons, List.map_cons, List.map_nil]
      exact congrArg (fun v => Val.obj .UserDefinedParameterType [(py "value", v), (py "parameter", .str p.1)]) hb
    rw [hc1, hc2]

theorem startsWith_userKey (p : Str) : startsWith (py "USER_DEFINED_" ++ p) userPrefix = true := by
  apply List.isPrefixOf_iff_prefix.mpr
  exact ⟨py "_" ++ p, by rw [← List.append_assoc]; congr 1⟩

theorem read_user {ps : List (Str × Str)} (hne : ps ≠ []) (h : ∀ p ∈ ps, UserParam p.1 p.2) (hn : (ps.map (·.1)).Nodup)
    (k : Nat) (name : Str) (l : Bool) (post : List Line)
    (hpost : ∀ m ∈ post, startsWith m.key userPrefix = true →
      ∃ m' ∈ ps.map (fun p => [py "USER_DEFINED_" ++ p.1, p.2]), Line.key m' = m.key) :
    ItemRead 1 (extract (k + 1) name .UserDefinedType l) (.obj .UserDefinedType [(py "comment", .list []),
          (py "user_defined", .list (ps.map fun p =>
            .obj .UserDefinedParameterType [(py "value", userValue p.2), (py "parameter", .str p.1)]))])
      (ps.map fun p => [py "USER_DEFINED_" ++ p.1, p.2]) post := by
  intro pre
  rw [extract_user]
  set blk : List Line := ps.map fun p => [py "USER_DEFINED_" ++ p.1, p.2] with hblk
  have hbne : blk ≠ [] := by simp [hblk, hne]
  have hpref : prefixOf .UserDefinedType = some userPrefix := rfl
  have hkeys : ∀ k ∈ keysOf blk, startsWith k userPrefix = true := by
    intro k hk
    obtain ⟨m, hm, rfl⟩ := mem_keysOf.mp hk
    obtain ⟨p, -, rfl⟩ := List.mem_map.mp hm
    exact startsWith_userKey p.1
  set tags := withPrefix [py "COMMENT", userPrefix] (keysOf pre).length (keysOf pre ++ keysOf blk ++ keysOf post)
    (some userPrefix) with htags
  have htag : ∀ t, t ∈ tags ↔ t = py "COMMENT" ∨ t = userPrefix ∨
      (t ∈ keysOf blk ++ keysOf post ∧ startsWith t userPrefix = true) := by
    intro t
    rw [htags, withPrefix, List.append_assoc, drop_pre]
    simp only [List.cons_append, List.nil_append, List.mem_cons, List.mem_filter]
  have hin : ∀ k ∈ keysOf blk, k ∈ tags := fun k hk => (htag k).mpr (.inr (.inr ⟨by simp [hk], hkeys k hk⟩))
  have hncom : ∀ k ∈ keysOf blk, k ≠ py "COMMENT" := by
    rintro k hk rfl
    exact absurd (hkeys _ hk) (by decide)
  have hb : BlockAt tags (keysOf blk) (keysOf post) := by
    refine ⟨?_, ?_, ?_, ?_, ?_, ?_, ?_, ?_⟩
    · refine List.Nodup.sublist List.filter_sublist ?_
      rw [hblk, keysOf, List.map_map]
      have : ps.map ((fun l : Line => l.headD []) ∘ fun p => [py "USER_DEFINED_" ++ p.1, p.2]) =
          (ps.map (·.1)).map (py "USER_DEFINED_" ++ ·) := by rw [List.map_map]; rfl
      rw [this]
      exact hn.map (fun a b hab => List.append_cancel_left hab)
    · intro t ht htc htp
      have hst : startsWith t userPrefix = true := by
        rcases (htag t).mp ht with h' | h' | h'
        · exact absurd h' htc
        · rw [h']; decide
        · exact h'.2
      obtain ⟨m, hm, rfl⟩ := mem_keysOf.mp htp
      obtain ⟨m', hm', he⟩ := hpost m hm hst
      exact mem_keysOf.mpr ⟨m', hm', he⟩
    · intro hc; exact absurd rfl (hncom _ hc)
    · intro hc
      have : userPrefix ∈ tags := (htag _).mpr (.inr (.inl rfl))
      rw [hc] at this
      revert this
      decide
    · intro k hk; exact hin k (List.mem_of_head? hk)
    · intro k hk; exact ⟨hin k (List.mem_of_getLast? hk), hncom k (List.mem_of_getLast? hk)⟩
    · have : (keysOf blk).filter (fun k => !tags.contains k) = [] := by
        rw [List.filter_eq_nil_iff]
        intro k hk'
        simp [hin k hk']
      rw [this]
      exact List.nodup_nil
    · intro k hk' hn
      exact absurd (hin k hk') hn
  set e : Elem := { name, cls := .UserDefinedType, subs := [], kw := [py "COMMENT", userPrefix], isList := l } with he
  have hr : rootRange e (keysOf (pre ++ blk ++ post)) (pre ++ blk ++ post) pre.length =
      .ok ((pre.length, pre.length + blk.length), tags) := by
    have hi : isSpecialIdent e.cls = false := by show isSpecialIdent .UserDefinedType = false; decide
    unfold rootRange
    rw [hi]
    simp only [Bool.false_eq_true, if_false]
    rw [keysOf_append, keysOf_append]
    have := getMinMax_block (pre := keysOf pre) (pref := some userPrefix) hb (by simpa [keysOf] using hbne)
    rw [← htags, keysOf_length, keysOf_length] at this
    exact this
  refine ⟨(pre.length, pre.length + blk.length), { e with kw := tags }, ?_, rfl, ?_, rfl, ?_⟩
  · rw [identElem_eq, hr]
    simp only [Except.bind, he, identSubs]
  · intro h
    have := List.length_pos_of_ne_nil hbne
    simp only at h
    omega
  · intro fuel hf
    obtain ⟨fuel, rfl⟩ : ∃ f, fuel = f + 1 := ⟨fuel - 1, by omega⟩
    have hloc : ((pre ++ blk ++ post).drop pre.length).take (pre.length + blk.length - pre.length) = blk := by
      rw [List.append_assoc, drop_pre, Nat.add_sub_cancel_left]
      simp
    obtain ⟨doc, hdoc, hbind⟩ := bind_user h name
    have hkw : tags ≠ [py "id", py "version"] := by
      intro hc
      have : py "COMMENT" ∈ tags := (htag _).mpr (.inl rfl)
      rw [hc] at this
      revert this
      decide
    have hplain : plainDoc { e with kw := tags, minMax := some (pre.length, pre.length + blk.length) } blk =
        .ok (some doc) := by
      unfold plainDoc
      simp only [he, hpref, Option.isSome_some, if_true]
      rw [if_neg (fun hc => hbne hc.1), if_neg hkw, hdoc]
      rfl
    have hsec : sectionDoc (keysOf (pre ++ blk ++ post)) (pre ++ blk ++ post)
        { e with kw := tags, minMax := some (pre.length, pre.length + blk.length) } blk (pre.length + blk.length) =
        .ok (some (doc, [])) := by
      unfold sectionDoc
      simp only [he]
      simp only [reduceCtorEq, if_false]
      simp only [he] at hplain
      rw [hplain]
      rfl
    unfold build
    simp only [hloc]
    rw [if_neg (fun hc => hbne hc.1), if_neg (by rw [he]; simp)]
    simp only [bind, Except.bind, hsec]
    have : ({ e with kw := tags, minMax := some (pre.length, pre.length + blk.length) } : Elem).cls = .UserDefinedType := rfl
    have hec : e.cls = .UserDefinedType := rfl
    rw [hec, hbind]
    rfl

end Ndm
