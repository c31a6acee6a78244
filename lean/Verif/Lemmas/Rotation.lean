import Verif.Lemmas.ReadGood
import Mathlib.Data.List.Perm.Subperm

/-! Rotations about three axes: the axis is the keyword of the line. -/

namespace Ndm

theorem findFrom_lt {t : Str} {keys : List Str} {start i : Nat} (h : findFrom t keys start = some i) :
    start ≤ i ∧ keys[i]? = some t := by
  unfold findFrom at h
  obtain ⟨j, hj, rfl⟩ := Option.map_eq_some_iff.mp h
  obtain ⟨hlt, hp, -⟩ := List.findIdx?_eq_some_iff_getElem.mp hj
  refine ⟨by omega, ?_⟩
  have : (keys.drop start)[j]? = some t := by
    rw [List.getElem?_eq_getElem hlt]
    simpa using hp
  rw [List.getElem?_drop] at this
  rw [Nat.add_comm]
  exact this

/-- An element with a single line takes the next line. -/
theorem getMinMax_single {tags pre rest : List Str} {t : Str} (hn : tags.Nodup) (hc : py "COMMENT" ∉ tags) (ht : t ∈ tags) :
    getMinMax tags pre.length (pre ++ t :: rest) none true = .ok ((pre.length, pre.length + 1), tags) := by
  unfold getMinMax
  simp only [withPrefix]
  have hfil : tags.filter (fun x => x != py "COMMENT") = tags := by
    rw [List.filter_eq_self]
    intro a ha
    simp only [bne_iff_ne, ne_eq]
    rintro rfl
    exact hc ha
  rw [hfil]
  set keys := pre ++ t :: rest with hkeys
  set idx := tags.filterMap (findFrom · keys pre.length) with hidx
  have hpc : processComments tags pre.length keys idx = .ok idx := by
    unfold processComments
    rw [if_neg (by simpa [List.contains_iff_mem] using hc)]
  rw [hpc]
  have hge : ∀ i ∈ idx, pre.length ≤ i := by
    intro i hi
    obtain ⟨a, -, ha⟩ := List.mem_filterMap.mp hi
    exact (findFrom_lt ha).1
  have hmem : pre.length ∈ idx := by
    refine List.mem_filterMap.mpr ⟨t, ht, ?_⟩
    unfold findFrom
    rw [hkeys, drop_pre]
    simp [List.findIdx?_cons]
  have hnd : idx.Nodup := by
    refine List.Nodup.filterMap ?_ hn
    intro a a' b hb hb'
    have h1 := (findFrom_lt (Option.mem_def.mp hb)).2
    have h2 := (findFrom_lt (Option.mem_def.mp hb')).2
    rw [h1] at h2
    exact Option.some.inj h2
  have hmin : ∀ l : List Nat, pre.length ∈ l → (∀ i ∈ l, pre.length ≤ i) → l.min? = some pre.length := by
    intro l h1 h2
    rw [List.min?_eq_some_iff]
    exact ⟨h1, h2⟩
  obtain ⟨hi, hhi⟩ : ∃ hi, idx.max? = some hi := by
    cases hm : idx.max? with
    | none => rw [List.max?_eq_none_iff] at hm; rw [hm] at hmem; simp at hmem
    | some hi => exact ⟨hi, rfl⟩
  have hle : ∀ i ∈ idx, i ≤ hi := (List.max?_eq_some_iff.mp hhi).2
  have hlim : ∀ l : List Nat, pre.length ∈ l → (∀ i ∈ l, pre.length ≤ i) →
      limits pre.length true l = (pre.length, pre.length + 1) := by
    intro l h1 h2
    unfold limits
    rw [hmin l h1 h2]
    cases hm : l.max? with
    | none => rw [List.max?_eq_none_iff] at hm; rw [hm] at h1; simp at h1
    | some hi => simp
  have hsorted : ∀ i, i ∈ idx.insertionSort (· ≤ ·) ↔ i ∈ idx := fun i => List.mem_insertionSort _
  have hsnd : (idx.insertionSort (· ≤ ·)).Nodup := (List.perm_insertionSort _ _).nodup_iff.mpr hnd
  have hchop : ∃ l, chopAll keys idx = .ok l ∧ pre.length ∈ l ∧ ∀ i ∈ l, pre.length ≤ i := by
    unfold chopAll
    rw [hmin idx hmem hge, hhi]
    simp only
    unfold chop
    simp only
    split
    · rw [if_neg]
      · refine ⟨_, rfl, ?_, ?_⟩
        · have hs := List.sortedLE_insertionSort (l := idx)
          cases hl : idx.insertionSort (· ≤ ·) with
          | nil =>
            have := (hsorted _).mpr hmem
            rw [hl] at this
            simp at this
          | cons a as =>
            have ha : a = pre.length := by
              have h1 : a ∈ idx := (hsorted a).mp (by rw [hl]; simp)
              have h2 : pre.length ∈ a :: as := by rw [← hl]; exact (hsorted _).mpr hmem
              have h3 : a ≤ pre.length := by
                rcases List.mem_cons.mp h2 with h2 | h2
                · omega
                · rw [hl] at hs
                  exact (List.pairwise_cons.mp hs.pairwise).1 _ h2
              have := hge a h1
              omega
            subst ha
            have : hi + 1 - pre.length = (hi - pre.length) + 1 := by have := hle _ hmem; omega
            rw [this, List.range'_succ]
            simp
        · intro i hi
          obtain ⟨p, hp, rfl⟩ := List.mem_map.mp hi
          have := (List.of_mem_zip (List.mem_of_mem_filter hp)).1
          exact hge _ ((hsorted _).mp this)
      · have hsub : idx.insertionSort (· ≤ ·) ⊆ List.range' pre.length (hi + 1 - pre.length) := by
          intro i hi'
          have h1 := (hsorted i).mp hi'
          have := hge i h1
          have := hle i h1
          rw [List.mem_range'_1]
          omega
        have := (List.Nodup.subperm hsnd hsub).length_le
        omega
    · exact ⟨_, rfl, (hsorted _).mpr hmem, fun i hi => hge i ((hsorted i).mp hi)⟩
  obtain ⟨l, h1, h2, h3⟩ := hchop
  simp only [bind, Except.bind, h1, hlim l h2 h3]
  rfl

/-- What is used of the classes of a rotation. -/
structure RotFacts (c d axes units : Cls) (attr : Str) (tags : List Str) : Prop where
  elem : ∀ k name l, extract (k + 2) name c l = Elem.mk name c [extract (k + 1) (py "rotation1") d false,
    extract (k + 1) (py "rotation2") d false, extract (k + 1) (py "rotation3") d false] [] l none none none
  part : ∀ k name l, extract (k + 1) name d l = Elem.mk name d [] tags l (some attr) none none
  nodup : tags.Nodup
  keyword : ∀ t ∈ tags, Keyword t ∧ upper t = t ∧ '\n' ∉ t ∧ t ≠ py "COMMENT"
  axisMembers : ∃ ms, axes.members = some ms ∧ ms.map (·.2) = tags
  ident : isSpecialIdent c = false ∧ isSpecialIdent d = false
  noBuild : isSpecialBuild c = false ∧ isSpecialBuild d = false
  user : c ≠ .UserDefinedType ∧ d ≠ .UserDefinedType
  header : headerName d = none
  own : c.ownNotation = true ∧ isSpecialOut c = false ∧ headerName c = none
  fields : d.fields.filter (·.init) = [⟨py "value", none, .text, .dec, false, true⟩, ⟨attr, none, .attr, .cls axes, false, true⟩,
    ⟨py "units", none, .attr, .cls units, false, true⟩]
  attrName : attr ≠ py "value" ∧ attr ≠ py "units"
  outer : c.fields.filter (·.init) = [⟨py "rotation1", none, .elem, .cls d, false, true⟩,
    ⟨py "rotation2", none, .elem, .cls d, false, true⟩, ⟨py "rotation3", none, .elem, .cls d, false, true⟩]

theorem keyword_of {t : Str} (h : (!t.isEmpty && t.all (fun c => !isSpace c && c != '=' && c != '\n') &&
    !(py "COMMENT").isPrefixOf t && upper t == t && t != py "COMMENT") = true) :
    Keyword t ∧ upper t = t ∧ '\n' ∉ t ∧ t ≠ py "COMMENT" := by
  simp only [Bool.and_eq_true, Bool.not_eq_true', List.all_eq_true, beq_iff_eq, bne_iff_ne, ne_eq] at h
  obtain ⟨⟨⟨⟨h1, h2⟩, h3⟩, h4⟩, h5⟩ := h
  refine ⟨⟨?_, ⟨?_, ?_⟩, ?_, ?_⟩, h4, ?_, h5⟩
  · rintro rfl; cases h1
  · intro c hc; exact (h2 c (List.mem_of_head? hc)).1.1
  · intro c hc; exact (h2 c (List.mem_of_getLast? hc)).1.1
  · intro hm; exact (h2 _ hm).1.2 rfl
  · intro hp; rw [List.isPrefixOf_iff_prefix.mpr hp] at h3; cases h3
  · intro hm; exact (h2 _ hm).2 rfl

def angleTags : List Str := [py "X_ANGLE", py "Y_ANGLE", py "Z_ANGLE"]
def rateTags : List Str := [py "X_RATE", py "Y_RATE", py "Z_RATE"]

theorem angle_facts : RotFacts .RotationAngleType .RotationAngleComponentType .AngleKeywordType .AngleUnits (py "angle")
    angleTags where
  elem := by
    intro k name l
    have h1 : Cls.RotationAngleType.isValueClass = false := by decide +kernel
    have h2 : Cls.RotationAngleType.blockFields = Cls.RotationAngleType.fields := by decide +kernel
    have h3 : (ccsdsKwList .RotationAngleType).filter isUpper = [] := by decide +kernel
    rw [extract]
    simp only [h1, h2, h3]
    rfl
  part := by
    intro k name l
    have h1 : Cls.RotationAngleComponentType.isValueClass = true := by decide +kernel
    have h2 : (Cls.RotationAngleComponentType.blockFields.filter (fun f => f.name != py "value" && f.name != py "units")) =
      [⟨py "angle", none, .attr, (.cls .AngleKeywordType), false, true⟩] := by decide +kernel
    have h3 : (ccsdsKwList .RotationAngleComponentType).filter isUpper = [] := by decide +kernel
    rw [extract]
    simp only [h1, h2, h3]
    rfl
  nodup := by decide
  keyword := by
    intro t ht
    apply keyword_of
    revert t
    decide +kernel
  axisMembers := ⟨_, rfl, rfl⟩
  ident := by decide
  noBuild := by decide
  user := by decide
  header := by decide
  own := by decide
  fields := by decide +kernel
  attrName := by decide
  outer := by decide +kernel

theorem rate_facts : RotFacts .RotationRateType .RotationRateComponentType .AngleRateKeywordType .AngleRateUnits (py "rate")
    rateTags where
  elem := by
    intro k name l
    have h1 : Cls.RotationRateType.isValueClass = false := by decide +kernel
    have h2 : Cls.RotationRateType.blockFields = Cls.RotationRateType.fields := by decide +kernel
    have h3 : (ccsdsKwList .RotationRateType).filter isUpper = [] := by decide +kernel
    rw [extract]
    simp only [h1, h2, h3]
    rfl
  part := by
    intro k name l
    have h1 : Cls.RotationRateComponentType.isValueClass = true := by decide +kernel
    have h2 : (Cls.RotationRateComponentType.blockFields.filter (fun f => f.name != py "value" && f.name != py "units")) =
      [⟨py "rate", none, .attr, (.cls .AngleRateKeywordType), false, true⟩] := by decide +kernel
    have h3 : (ccsdsKwList .RotationRateComponentType).filter isUpper = [] := by decide +kernel
    rw [extract]
    simp only [h1, h2, h3]
    rfl
  nodup := by decide
  keyword := by
    intro t ht
    apply keyword_of
    revert t
    decide +kernel
  axisMembers := ⟨_, rfl, rfl⟩
  ident := by decide
  noBuild := by decide
  user := by decide
  header := by decide
  own := by decide
  fields := by decide +kernel
  attrName := by decide
  outer := by decide +kernel

section
variable {c d axes units : Cls} {attr : Str} {tags : List Str}

/-- The axis of a rotation line is one of the tags. -/
theorem RotFacts.axis (h : RotFacts c d axes units attr tags) {ms : List (Str × Str)} {m key : Str}
    (hm : axes.members = some ms) (hk : (m, key) ∈ ms) : key ∈ tags := by
  obtain ⟨ms', h1, h2⟩ := h.axisMembers
  rw [hm] at h1
  cases h1
  rw [← h2]
  exact List.mem_map.mpr ⟨_, hk, rfl⟩

theorem RotFacts.key (h : RotFacts c d axes units attr tags) {v : Val} {l : Line} (hr : RotationText d axes units attr v l) :
    l.key ∈ tags := by
  cases hr with
  | number hm hk _ _ => exact h.axis hm hk
  | quantity hm hk _ _ _ _ => exact h.axis hm hk

/-- What is written for a rotation states it. -/
theorem Rotation.text {v : Val} {l : Line} (hr : Rotation d axes units attr v l) : RotationText d axes units attr v l := by
  cases hr with
  | number hm hk => exact .number hm hk (dec_parse_toStr _) (num_xml (dec_toStr_num _))
  | quantity hm hk hu hu' => exact .quantity hm hk (dec_parse_toStr _) (num_xml (dec_toStr_num _)) hu hu'

theorem RotationsOf.text {v : Val} {ls : List Line} (hr : RotationsOf c (Rotation d axes units attr) v ls) :
    RotationsOf c (RotationText d axes units attr) v ls := by
  cases hr with
  | none => exact .none
  | mk h1 h2 h3 => exact .mk h1.text h2.text h3.text

theorem RotFacts.isObj (_ : RotFacts c d axes units attr tags) {v : Val} {l : Line} (hr : RotationText d axes units attr v l) :
    ∃ vs, v = .obj d vs := by
  cases hr with
  | number hm hk _ _ => exact ⟨_, rfl⟩
  | quantity hm hk _ _ _ _ => exact ⟨_, rfl⟩

theorem RotFacts.writePart (h : RotFacts c d axes units attr tags) {v : Val} {l : Line} (hr : Rotation d axes units attr v l)
    {key : Str} (hk : key ≠ py "comment") (out : List Str) : Writes (collateSub key out v) out [l] := by
  have hvu : (py "value" == py "units") = false := by decide
  have hau : (attr == py "units") = false := by simpa using h.attrName.2
  cases hr with
  | @number ms m ax dd hm hax =>
    obtain ⟨hkw, hup, hnl, -⟩ := h.keyword _ (h.axis hm hax)
    have e : collateSub key out (.obj d [(py "value", .dec dd), (attr, .enum axes ax), (py "units", .none)]) =
        .ok (out ++ [fillKvn ax dd.toStr none]) := by
      have hv : valueKey key [(py "value", .dec dd), (attr, .enum axes ax), (py "units", .none)] = .ok ax := by
        simp [valueKey, h.attrName.1, h.attrName.2, valueAttr]
      have hg : attrGet (py "units") [(py "value", .dec dd), (attr, .enum axes ax), (py "units", .none)] = .ok (.none) := by
        simp only [attrGet, Val.lookupVar, List.find?_cons, hvu, hau, beq_self_eq_true, Option.map_some]
      have hg' : attrGet (py "value") [(py "value", .dec dd), (attr, .enum axes ax), (py "units", .none)] = .ok (.dec dd) := by
        simp only [attrGet, Val.lookupVar, List.find?_cons, beq_self_eq_true, Option.map_some]
      simp only [collateSub, h.header, withHeader, if_neg hk, writeValueObj, hv, hg, hg', bind, Except.bind, List.any_cons,
        beq_self_eq_true, Bool.or_true, Bool.true_or, if_true]
      rfl
    rw [e]
    have := C08_value ax dd.toStr (by rw [hup]; exact hkw) (trimmed_of_num (dec_toStr_num dd)) (not_unitLike (dec_toStr_num dd))
    rw [hup] at this
    exact .one this (fillKvn_noNewline (by rw [hup]; exact hnl) (num_noNewline (dec_toStr_num dd)) (by simp))
  | @quantity ms m ax dd us m' u hm hax hus hu =>
    obtain ⟨hkw, hup, hnl, -⟩ := h.keyword _ (h.axis hm hax)
    have hp := enumText hus hu
    have ht : (Val.str u).truthy = true := by
      cases hu' : u with
      | nil => exact absurd hu' hp.ne
      | cons a b => rfl
    have e : collateSub key out (.obj d [(py "value", .dec dd), (attr, .enum axes ax), (py "units", .enum units u)]) =
        .ok (out ++ [fillKvn ax dd.toStr (some u)]) := by
      have hv : valueKey key [(py "value", .dec dd), (attr, .enum axes ax), (py "units", .enum units u)] = .ok ax := by
        simp [valueKey, h.attrName.1, h.attrName.2, valueAttr]
      have hg : attrGet (py "units") [(py "value", .dec dd), (attr, .enum axes ax), (py "units", .enum units u)] = .ok (.enum units u) := by
        simp only [attrGet, Val.lookupVar, List.find?_cons, hvu, hau, beq_self_eq_true, Option.map_some]
      have hg' : attrGet (py "value") [(py "value", .dec dd), (attr, .enum axes ax), (py "units", .enum units u)] = .ok (.dec dd) := by
        simp only [attrGet, Val.lookupVar, List.find?_cons, beq_self_eq_true, Option.map_some]
      simp only [collateSub, h.header, withHeader, if_neg hk, writeValueObj, hv, hg, hg', bind, Except.bind, List.any_cons,
        beq_self_eq_true, Bool.or_true, Bool.true_or, if_true]
      show Except.ok (out ++ [fillKvn ax dd.toStr (if (Val.str u).truthy then some u else none)]) = _
      rw [if_pos ht]
    rw [e]
    have := C08_unit ax dd.toStr u (by rw [hup]; exact hkw) (trimmed_of_num (dec_toStr_num dd))
      (fun hm => (dec_toStr_num dd _ hm).plain.2.2.1 rfl) hp.ne hp.trimmed ⟨hp.noOpen, hp.noClose⟩
    rw [hup] at this
    exact .one this (fillKvn_noNewline (by rw [hup]; exact hnl) (num_noNewline (dec_toStr_num dd)) (by rintro u ⟨⟩; exact hp.oneLine))

theorem RotFacts.write (h : RotFacts c d axes units attr tags) {v : Val} {ls : List Line}
    (hr : Rotations c d axes units attr v ls) :
    c.ownNotation = true ∧ ∃ vs, v = .obj c vs ∧ (∀ out, Writes (collateVars out vs) out ls) ∧
      vs.any (·.1 == py "units") = false ∧ isSpecialOut c = false ∧ headerName c = none := by
  cases hr with
  | none => exact ⟨h.own.1, _, rfl, fun out => .nil out, rfl, h.own.2⟩
  | @mk v1 v2 v3 l1 l2 l3 h1 h2 h3 =>
    refine ⟨h.own.1, _, rfl, ?_, rfl, h.own.2⟩
    intro out
    have e : [l1, l2, l3] = [l1] ++ ([l2] ++ ([l3] ++ [])) := rfl
    rw [e]
    simp only [collateVars]
    refine (h.writePart h1 (by decide) out).bind fun o => ?_
    refine (h.writePart h2 (by decide) o).bind fun o => ?_
    refine (h.writePart h3 (by decide) o).bind fun o => .nil o

theorem RotFacts.readPart (h : RotFacts c d axes units attr tags) {v : Val} {l : Line} (hr : RotationText d axes units attr v l)
    (k : Nat) (name : Str) (b : Bool) (post : List Line) : ItemRead 1 (extract (k + 1) name d b) v [l] post := by
  intro pre
  have hkey := h.key hr
  rw [h.part]
  have hrange : rootRange (Elem.mk name d [] tags b (some attr) none none) (keysOf (pre ++ [l] ++ post)) (pre ++ [l] ++ post)
      pre.length = .ok ((pre.length, pre.length + 1), tags) := by
    unfold rootRange
    simp only [h.ident.2, Bool.false_eq_true, if_false, prefixOf_none h.user.2, Option.isSome_some]
    have := getMinMax_single (pre := keysOf pre) (rest := keysOf post) h.nodup (fun hc => (h.keyword _ hc).2.2.2 rfl) hkey
    rw [keysOf_length] at this
    have e : keysOf (pre ++ [l] ++ post) = keysOf pre ++ l.key :: keysOf post := by simp [keysOf, Line.key]
    rw [e]
    exact this
  refine ⟨(pre.length, pre.length + 1), Elem.mk name d [] tags b (some attr) none none, ?_, rfl, ?_, rfl, ?_⟩
  · rw [identElem_eq, hrange]
    rfl
  · intro hc; simp at hc
  · intro fuel hf
    obtain ⟨fuel, rfl⟩ : ∃ f, fuel = f + 1 := ⟨fuel - 1, by omega⟩
    have hnsp : ∀ x, isSpecialBuild x = true → d ≠ x := by
      rintro x hx rfl
      rw [h.noBuild.2] at hx
      cases hx
    have hloc : ((pre ++ [l] ++ post).drop pre.length).take (pre.length + 1 - pre.length) = [l] := by
      rw [List.append_assoc, drop_pre, Nat.add_sub_cancel_left]
      rfl
    generalize hL : pre ++ [l] ++ post = L at *
    have hfil : [l].filter (fun m => tags.contains (m.headD [])) = [l] := by
      rw [List.filter_eq_self]
      intro m hm
      rw [List.mem_singleton] at hm
      subst hm
      exact List.contains_iff_mem.mpr hkey
    have htid : tags ≠ [py "id", py "version"] := by
      intro hc
      have := (h.keyword (py "id") (by rw [hc]; simp)).2.1
      revert this
      decide
    obtain ⟨doc, hdoc, hbind⟩ : ∃ doc, xmlifySingle name [l] attr = .ok doc ∧ bindDoc d doc = .ok v := by
      cases hr with
      | @number ms m ax dd t hm hax hp hxt =>
        have hx := (enumText hm hax).xml
        refine ⟨⟨name, [(attr, ax)], t, []⟩, ?_, ?_⟩
        · simp only [xmlifySingle, pyGet, bind, Except.bind, List.getElem?_cons_zero, List.getElem?_cons_succ,
            xmlCheck_ok hxt, xmlCheck_ok hx]
          rfl
        · have hany : (ms.any fun p => p.2 == ax) = true := List.any_eq_true.mpr ⟨_, hax, by simp⟩
          simp only [bindDoc, checkChildren, bind, Except.bind, h.fields, List.map_cons, List.map_nil, bindField, bindText,
            bindAttr, isEmpty_false (dec_parse_ne hp), convText, hp, Field.xmlName, attrLookup, hm]
          simp [convEnum, hany, Ne.symm h.attrName.2, h.attrName.2, pure, Except.pure]
      | @quantity ms m ax dd t us m' u hm hax hp hxt hus hu =>
        have hx := (enumText hm hax).xml
        have hx' := (enumText hus hu).xml
        refine ⟨⟨name, [(attr, ax), (py "units", u)], t, []⟩, ?_, ?_⟩
        · simp only [xmlifySingle, pyGet, bind, Except.bind, List.getElem?_cons_zero, List.getElem?_cons_succ,
            xmlCheck_ok hxt, xmlCheck_ok hx, xmlCheck_ok hx']
          rfl
        · have hany : (ms.any fun p => p.2 == ax) = true := List.any_eq_true.mpr ⟨_, hax, by simp⟩
          have hany' : (us.any fun p => p.2 == u) = true := List.any_eq_true.mpr ⟨_, hu, by simp⟩
          simp only [bindDoc, checkChildren, bind, Except.bind, h.fields, List.map_cons, List.map_nil, bindField, bindText,
            bindAttr, isEmpty_false (dec_parse_ne hp), convText, hp, Field.xmlName, attrLookup, hm, hus]
          simp [convEnum, hany, hany', Ne.symm h.attrName.2, h.attrName.2, pure, Except.pure]
    have hplain : plainDoc (Elem.mk name d [] tags b (some attr) (some (pre.length, pre.length + 1)) none) [l] = .ok (some doc) := by
      unfold plainDoc
      simp only [prefixOf_none h.user.2, Option.isSome_none, Bool.false_eq_true, if_false, hfil]
      rw [if_neg (by simp), if_neg htid]
      simp only [hdoc]
      rfl
    have hsec : sectionDoc (keysOf L) L (Elem.mk name d [] tags b (some attr) (some (pre.length, pre.length + 1)) none) [l]
        (pre.length + 1) = .ok (some (doc, [])) := by
      unfold sectionDoc
      simp only
      rw [if_neg (hnsp _ (by decide)), if_neg (hnsp _ (by decide)), if_neg (hnsp _ (by decide)),
        if_neg (hnsp _ (by decide)), hplain]
      rfl
    unfold build
    simp only [hloc]
    rw [if_neg (by simp), if_neg (hnsp _ (by decide))]
    simp only [bind, Except.bind, hsec, hbind]
    rfl

/-- An object with the rotations its parts are read as. -/
theorem RotFacts.readParts (h : RotFacts c d axes units attr tags) {v1 v2 v3 : Val} {ls post : List Line} {k : Nat} (name : Str)
    (b : Bool) {avoid : Str → Prop} (hs : SubsRead 1 [extract (k + 1) (py "rotation1") d false, extract (k + 1) (py "rotation2") d false,
      extract (k + 1) (py "rotation3") d false] [(py "rotation1", v1), (py "rotation2", v2), (py "rotation3", v3)] ls post avoid) :
    ItemRead 2 (extract (k + 2) name c b) (.obj c [(py "rotation1", v1), (py "rotation2", v2), (py "rotation3", v3)]) ls post := by
  intro pre
  obtain ⟨es, he, hb⟩ := hs pre [] (by simp)
  rw [h.elem]
  simp only [List.append_nil] at he hb
  have hrange : rootRange (Elem.mk name c [extract (k + 1) (py "rotation1") d false, extract (k + 1) (py "rotation2") d false,
      extract (k + 1) (py "rotation3") d false] [] b none none none) (keysOf (pre ++ ls ++ post))
      (pre ++ ls ++ post) pre.length = .ok ((pre.length, pre.length), []) := by
    unfold rootRange
    simp only [h.ident.1, Bool.false_eq_true, if_false, prefixOf_none h.user.1]
    exact getMinMax_nil _ _
  have hesn : es ≠ [] := by
    rintro rfl
    cases hb
  refine ⟨(pre.length, pre.length), Elem.mk name c es [] b none none none, ?_, rfl, fun _ => hesn, rfl, ?_⟩
  · rw [identElem_eq, hrange]
    simp only [Except.bind, he]
  · intro fuel hf
    obtain ⟨fuel, rfl⟩ : ∃ f, fuel = f + 1 := ⟨fuel - 1, by omega⟩
    generalize hL : pre ++ ls ++ post = L at *
    have hnsp : ∀ x, isSpecialBuild x = true → c ≠ x := by
      rintro x hx rfl
      rw [h.noBuild.1] at hx
      cases hx
    have hsec : sectionDoc (keysOf L) L (Elem.mk name c es [] b none (some (pre.length, pre.length)) none) []
        pre.length = .ok (some (⟨name, [], [], []⟩, es)) := by
      unfold sectionDoc
      simp only
      rw [if_neg (hnsp _ (by decide)), if_neg (hnsp _ (by decide)), if_neg (hnsp _ (by decide)),
        if_neg (hnsp _ (by decide))]
      unfold plainDoc
      simp only [prefixOf_none h.user.1, Option.isSome_none, Bool.false_eq_true, if_false, List.filter_nil]
      rw [if_neg (by simp [hesn]), if_neg (by simp)]
      rfl
    have hloc : (L.drop pre.length).take (pre.length - pre.length) = [] := by simp
    unfold build
    simp only [hloc]
    rw [if_neg (by simp [hesn]), if_neg (hnsp _ (by decide))]
    have hbind : bindDoc c ⟨name, [], [], []⟩ =
        .ok (.obj c [(py "rotation1", .none), (py "rotation2", .none), (py "rotation3", .none)]) := by
      simp only [bindDoc, checkChildren, h.outer]
      rfl
    simp only [bind, Except.bind, hsec, hbind]
    have := build_subs (fuel := fuel) (by omega) hb (.obj c [(py "rotation1", .none), (py "rotation2", .none), (py "rotation3", .none)])
    simp only [bind, Except.bind] at this
    rw [this]
    have a1 : ∀ a b e, attach (.obj c [(py "rotation1", .none), (py "rotation2", b), (py "rotation3", e)]) (py "rotation1") a =
        .ok (.obj c [(py "rotation1", a), (py "rotation2", b), (py "rotation3", e)]) := fun _ _ _ => rfl
    have a2 : ∀ a b e, attach (.obj c [(py "rotation1", a), (py "rotation2", .none), (py "rotation3", e)]) (py "rotation2") b =
        .ok (.obj c [(py "rotation1", a), (py "rotation2", b), (py "rotation3", e)]) := fun _ _ _ => rfl
    have a3 : ∀ a b e, attach (.obj c [(py "rotation1", a), (py "rotation2", b), (py "rotation3", .none)]) (py "rotation3") e =
        .ok (.obj c [(py "rotation1", a), (py "rotation2", b), (py "rotation3", e)]) := fun _ _ _ => rfl
    simp only [List.foldlM_cons, List.foldlM_nil, bind, Except.bind, a1, a2, a3]
    rfl

/-- No rotations. -/
theorem RotFacts.readNone (h : RotFacts c d axes units attr tags) (k : Nat) (name : Str) (b : Bool) (post : List Line)
    (hpost : ∀ m ∈ post, m.key ∉ tags) : ItemRead 2 (extract (k + 2) name c b)
      (.obj c [(py "rotation1", .none), (py "rotation2", .none), (py "rotation3", .none)]) [] post := by
  have one : ∀ nm : Str, SubsRead 1 [extract (k + 1) nm d false] [(nm, .none)] [] post (· ∈ tags) := by
    intro nm
    have e := h.part k nm false
    have := subsRead_absent (n := 1) (s := extract (k + 1) nm d false) (post := post) (avoid := (· ∈ tags)) (by rw [e])
      (by rw [e]) (by rw [e]; exact h.ident.2) (by
        rw [e]
        intro hc
        exact (h.keyword (py "COMMENT") (by simp only at hc; rw [hc]; simp)).2.2.2 rfl)
      hpost (by rw [e]; intro t _ ht; exact ht) (by rw [e]; intro p hp; rw [prefixOf_none h.user.2] at hp; cases hp) (by omega)
    rwa [extract_name] at this
  refine h.readParts name b (avoid := (· ∈ tags)) ?_
  have e3 := subsRead_cons (av := (· ∈ tags)) (one (py "rotation3")) (subsRead_nil (avoid := fun _ => False)) (by simp) (by simp)
  have e2 := subsRead_cons (av := (· ∈ tags)) (one (py "rotation2")) e3 (by simp) (by simp)
  exact subsRead_cons (av := (· ∈ tags)) (one (py "rotation1")) e2 (by simp) (by simp)

theorem RotFacts.read (h : RotFacts c d axes units attr tags) {v : Val} {ls : List Line}
    (hr : RotationsOf c (RotationText d axes units attr) v ls) (k : Nat) (name : Str) (b : Bool) (post : List Line)
    (hpost : ∀ m ∈ post, m.key ∉ tags) :
    ItemRead 2 (extract (k + 2) name c b) v ls post := by
  cases hr with
  | none => exact h.readNone k name b post hpost
  | @mk v1 v2 v3 l1 l2 l3 h1 h2 h3 =>
    have hs : SubsRead 1 [extract (k + 1) (py "rotation1") d false, extract (k + 1) (py "rotation2") d false,
        extract (k + 1) (py "rotation3") d false] [(py "rotation1", v1), (py "rotation2", v2), (py "rotation3", v3)]
        [l1, l2, l3] post (fun _ => False) := by
      have one : ∀ {w : Val} {l : Line} (nm : Str) (post : List Line), RotationText d axes units attr w l →
          SubsRead 1 [extract (k + 1) nm d false] [(nm, w)] [l] post (fun _ => False) := by
        intro w l nm post hw
        have := subsRead_item (avoid := fun _ => False) (extract_isList (k + 1) nm d false) (h.readPart hw k nm false post)
        rwa [extract_name] at this
      have e3 := subsRead_cons (av := fun _ => False) (one (py "rotation3") ([] ++ post) h3) (subsRead_nil (avoid := fun _ => False)) (by simp) (by simp)
      have e2 := subsRead_cons (av := fun _ => False) (one (py "rotation2") ([l3] ++ post) h2) e3 (by simp) (by simp)
      exact subsRead_cons (av := fun _ => False) (one (py "rotation1") ([l2, l3] ++ post) h1) e2 (by simp) (by simp)
    exact h.readParts name b hs

end

end Ndm
