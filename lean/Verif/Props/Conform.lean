import Verif.Lemmas.Conf
import Verif.Props.Total
import Verif.Props.Writer

/-! # C03 (dispatch on the version keyword) and C38 (conformance to the data model) -/

namespace Ndm

theorem sigLines_trimmed {ls cs : List Str} (h : SigLines ls cs) : ∀ c ∈ cs, Trimmed c ∧ c ≠ [] := by
  induction h with
  | nil => intro c hc; cases hc
  | blank _ _ ih => exact ih
  | line hc hne _ ih =>
    intro x hx
    rcases List.mem_cons.mp hx with rfl | hx
    · exact ⟨hc.1, hne⟩
    · exact ih x hx

/-- Every non-empty line is read, under its keyword. -/
theorem parseLine_key {l k : Str} (ht : Trimmed l) (hne : l ≠ []) (hk : LineKey l k) :
    ∃ rest, parseLine l = some (k :: rest) := by
  have hs : strip l = l := strip_trimmed ht
  have he : l.isEmpty = false := by cases l with | nil => exact absurd rfl hne | cons => rfl
  cases hk with
  | comment hc =>
    have hsw : startsWith l (py "COMMENT") = true := startsWith_iff.mpr hc
    simp only [parseLine, hs, he, hsw, if_true]
    exact ⟨_, rfl⟩
  | @data a b _ hc ha hl hcore =>
    have hsw : startsWith l (py "COMMENT") = false := by
      rw [← Bool.not_eq_true, startsWith_iff]; exact hc
    have hsp : splitOnce '=' l = [a, b] := by rw [hl, splitOnce_append ha]
    have : strip a = k := strip_of_core hcore
    simp only [parseLine, hs, he, hsw, hsp, Bool.false_eq_true, if_false]
    split
    · split
      · simp [this]
      · simp [this]
    · simp [this]
  | bare hc ha =>
    have hsw : startsWith l (py "COMMENT") = false := by
      rw [← Bool.not_eq_true, startsWith_iff]; exact hc
    have hsp : splitOnce '=' l = [l] := splitOnce_self ha
    simp only [parseLine, hs, he, hsw, hsp]
    exact ⟨[], by simp [hs]⟩

theorem lineKey_exists (l : Str) (ht : Trimmed l) : ∃ k, LineKey l k := by
  by_cases hc : (py "COMMENT") <+: l
  · exact ⟨_, .comment hc⟩
  · by_cases he : '=' ∈ l
    · obtain ⟨a, b, rfl, ha⟩ := List.eq_append_cons_of_mem he
      exact ⟨strip a, .data hc ha rfl (core_strip a)⟩
    · exact ⟨l, .bare hc he⟩

/-- The lines of a text whose first significant line has the keyword `k`. -/
theorem preprocess_first {src : Str} {ls : List Str} {l k : Str} {cs : List Str} (ht : TextLines src ls)
    (hs : SigLines ls (l :: cs)) (hk : LineKey l k) :
    ∃ vs rest, preprocess src = .ok ([py "id", k] :: (py "version" :: vs) :: rest) := by
  obtain ⟨htr, hne⟩ := sigLines_trimmed hs l (by simp)
  obtain ⟨vs, hv⟩ := parseLine_key htr hne hk
  rw [preprocess_sigLines ht hs, List.filterMap_cons, hv]
  exact ⟨vs, _, rfl⟩

theorem messageKinds_find (k : Str) :
    (∀ c, findKvnType k = .ok c → ∃ p ∈ messageKinds, p.1 = c ∧ p.2.1 = k) ∧
    ((∀ p ∈ messageKinds, p.2.1 ≠ k) → findKvnType k = .error .attributeError) := by
  obtain ⟨hmap, hver⟩ := messageKinds_complete
  have h1 : ∀ c, findKvnType k = .ok c → ∃ p ∈ messageKinds, p.1 = c ∧ p.2.1 = k := by
    intro c hc
    obtain ⟨hmem, hid⟩ := findKvnType_mem hc
    rw [← hmap] at hmem
    obtain ⟨p, hp, rfl⟩ := List.mem_map.mp hmem
    refine ⟨p, hp, rfl, ?_⟩
    rw [hver p hp] at hid
    simpa using hid
  refine ⟨h1, ?_⟩
  intro hno
  cases h : findKvnType k with
  | ok c =>
    obtain ⟨p, hp, -, hk⟩ := h1 c h
    exact absurd hk (hno p hp)
  | error e =>
    unfold findKvnType at h
    split at h
    · cases h
    · cases h; rfl

theorem identSubs_cons_ne {keys : List Str} {lines : List Line} {rootMin init mx : Nat} {s : Elem} {ss es : List Elem}
    (hs : s.isList = false) (h : identSubs keys lines rootMin (s :: ss) init = .ok (mx, es)) : es ≠ [] := by
  simp only [identSubs, hs, Bool.false_eq_true, if_false] at h
  obtain ⟨⟨m1, mm1, s1⟩, -, h⟩ := bind_ok_iff.mp h
  obtain ⟨⟨mm2, kw2⟩, -, h⟩ := bind_ok_iff.mp h
  obtain ⟨⟨m3, es3⟩, -, h⟩ := bind_ok_iff.mp h
  cases h
  simp

/-- The first part of every message (its header) is not a repeated one. -/
theorem message_first_sub : (kvnTypes.all fun c => match (objectMap c).subs with
    | s :: _ => !s.isList
    | [] => false) = true := by decide +kernel

theorem message_dataclasses : (kvnTypes.all fun c => c.members.isNone) = true := by decide

theorem identElem_subs_ne {keys : List Str} {lines : List Line} {init mx : Nat} {mm : Nat × Nat} {e e' s : Elem}
    {ss : List Elem} (he : e.subs = s :: ss) (hs : s.isList = false)
    (h : identElem keys lines e init = .ok (mx, mm, e')) : e'.subs ≠ [] := by
  obtain ⟨name, cls, subs, kw, isList, single, minMax, template⟩ := e
  simp only [identElem] at h
  obtain ⟨⟨mm', kw'⟩, -, h⟩ := bind_ok_iff.mp h
  obtain ⟨⟨mx', subs'⟩, hs', h⟩ := bind_ok_iff.mp h
  cases h
  simp only at he
  subst he
  exact identSubs_cons_ne hs hs'

theorem build_some {keys : List Str} {lines : List Line} {fuel : Nat} {e : Elem} {full : List Line} {v : Val}
    (ht : Typed e) (hs : e.subs ≠ []) (h : build keys lines fuel e full = .ok v) : HasType (.cls e.cls) v := by
  rcases build_type keys lines fuel e full v ht h with rfl | hv
  · exfalso
    match fuel, h with
    | fuel + 1, h =>
      unfold build at h
      split at h
      · cases h
      · simp only [hs, and_false, if_false] at h
        split at h
        · obtain ⟨tm, -, h⟩ := bind_ok_iff.mp h
          obtain ⟨l, -, h⟩ := bind_ok_iff.mp h
          obtain ⟨s, -, h⟩ := bind_ok_iff.mp h
          obtain ⟨⟨mx, mm, e'⟩, hid, h⟩ := bind_ok_iff.mp h
          obtain ⟨s0, hs0, h⟩ := bind_ok_iff.mp h
          obtain ⟨inner, hin, h⟩ := bind_ok_iff.mp h
          obtain ⟨att, hatt, h⟩ := bind_ok_iff.mp h
          have : ∃ c vs, att = .obj c vs := by
            unfold attach at hatt
            split at hatt
            · split at hatt
              · cases hatt
              · split at hatt <;> cases hatt <;> exact ⟨_, _, rfl⟩
              · cases hatt; exact ⟨_, _, rfl⟩
            · cases hatt
          obtain ⟨c, vs, rfl⟩ := this
          simp only [attRecode] at h
          cases h
        · obtain ⟨doc?, hdoc, h⟩ := bind_ok_iff.mp h
          split at h
          · unfold sectionDoc at hdoc
            split at hdoc
            · obtain ⟨a, -, hdoc⟩ := bind_ok_iff.mp hdoc
              obtain ⟨b, -, hdoc⟩ := bind_ok_iff.mp hdoc
              cases hdoc
            · split at hdoc
              · obtain ⟨a, -, hdoc⟩ := bind_ok_iff.mp hdoc
                obtain ⟨b, -, hdoc⟩ := bind_ok_iff.mp hdoc
                cases hdoc
              · split at hdoc
                · obtain ⟨b, -, hdoc⟩ := bind_ok_iff.mp hdoc
                  cases hdoc
                · split at hdoc
                  · obtain ⟨a, -, hdoc⟩ := bind_ok_iff.mp hdoc
                    obtain ⟨b, -, hdoc⟩ := bind_ok_iff.mp hdoc
                    cases hdoc
                  · obtain ⟨d, hd, hdoc⟩ := bind_ok_iff.mp hdoc
                    cases d with
                    | some d => cases hdoc
                    | none =>
                      unfold plainDoc at hd
                      simp only [hs, and_false, if_false] at hd
                      split at hd
                      · obtain ⟨x, -, hd⟩ := map_ok_iff.mp hd; cases hd
                      · split at hd
                        · obtain ⟨x, -, hd⟩ := map_ok_iff.mp hd; cases hd
                        · obtain ⟨x, -, hd⟩ := map_ok_iff.mp hd; cases hd
          · rename_i doc subs
            obtain ⟨obj, hobj, h⟩ := bind_ok_iff.mp h
            have hm : e.cls.members = none := by cases ht; assumption
            have hP : ∃ c vs, (Val.none) = .obj c vs := by
              refine foldlM_inv (P := fun o => ∃ c vs, o = .obj c vs) ?_ ?_ h
              · intro s _ b r _ hr
                obtain ⟨sub, -, hr⟩ := bind_ok_iff.mp hr
                unfold attach at hr
                split at hr
                · split at hr
                  · cases hr
                  · split at hr <;> cases hr <;> exact ⟨_, _, rfl⟩
                  · cases hr; exact ⟨_, _, rfl⟩
                · cases hr
              · unfold bindDoc at hobj
                obtain ⟨_, -, hobj⟩ := bind_ok_iff.mp hobj
                cases hobj
                exact ⟨_, _, rfl⟩
            obtain ⟨c, vs, hc⟩ := hP
            cases hc
  · exact hv

/-- What the reader returns conforms to the class selected by the first line. -/
theorem kvnFromString_type {src : Str} {v : Val} (h : kvnFromString src = .ok v) :
    ∃ lines c, preprocess src = .ok lines ∧ identifyDataType lines = .ok c ∧ c ∈ kvnTypes ∧ HasType (.cls c) v := by
  unfold kvnFromString at h
  obtain ⟨lines, hl, h⟩ := bind_ok_iff.mp h
  obtain ⟨c, hc, h⟩ := bind_ok_iff.mp h
  obtain ⟨⟨mx, mm, tree⟩, hid, h⟩ := bind_ok_iff.mp h
  have hmem : c ∈ kvnTypes := by
    have := hc
    unfold identifyDataType at this
    obtain ⟨l, -, this⟩ := bind_ok_iff.mp this
    obtain ⟨i, -, this⟩ := bind_ok_iff.mp this
    exact (findKvnType_mem this).1
  refine ⟨lines, c, hl, hc, hmem, ?_⟩
  have hm : c.members = none := by
    simpa using List.all_eq_true.mp message_dataclasses c hmem
  have ht0 : Typed (objectMap c) := by
    have := extract_typed treeDepth ((c.idVersion.map (·.1)).getD []) c false hm
    cases this with
    | mk h1 h2 h3 => exact .mk h1 h2 h3
  have hi := identElem_inst _ _ _ _ _ hid
  have hcls : tree.cls = c := by
    rw [hi.cls]
    exact (extract_cls treeDepth _ c false).1
  have hsub : tree.subs ≠ [] := by
    have := List.all_eq_true.mp message_first_sub c hmem
    split at this
    · rename_i s ss hss
      exact identElem_subs_ne hss (by simpa using this) hid
    · cases this
  have ht : Typed { tree with minMax := some mm } := (ht0.inst hi).inst ((instRefl tree).setRange _ _)
  have := build_some ht (by exact hsub) h
  rw [show ({ tree with minMax := some mm } : Elem).cls = c from hcls] at this
  exact this

/-- **C03.** Let `cs` be the (stripped) non-blank lines of a text.  Without any, the KVN reader raises `IndexError`.
Otherwise let `key` be the keyword of the first one: if it is not the version keyword of one of the eight messages the
reader raises `AttributeError`, and if the reader returns an object then it is an instance of the class whose version
keyword `key` is. -/
theorem C03_dispatch (src : Str) (ls cs : List Str) (ht : TextLines src ls) (hs : SigLines ls cs) :
    (cs = [] → kvnFromString src = .error .indexError) ∧
    ∀ first rest key, cs = first :: rest → LineKey first key →
      ((∀ kind ∈ messageKinds, kind.2.1 ≠ key) → kvnFromString src = .error .attributeError) ∧
      ∀ v, kvnFromString src = .ok v → ∃ kind ∈ messageKinds, kind.2.1 = key ∧ ∃ vars, v = .obj kind.1 vars := by
  constructor
  · rintro rfl
    unfold kvnFromString
    rw [preprocess_sigLines ht hs]
    rfl
  · rintro first rest key rfl hk
    obtain ⟨vs, more, hp⟩ := preprocess_first ht hs hk
    have hid : identifyDataType ([py "id", key] :: (py "version" :: vs) :: more) = findKvnType key := rfl
    constructor
    · intro hno
      unfold kvnFromString
      rw [hp]
      show (identifyDataType _ >>= _) = _
      rw [hid, (messageKinds_find key).2 hno]
      rfl
    · intro v hv
      obtain ⟨lines, c, hl, hc, -, hty⟩ := kvnFromString_type hv
      rw [hp] at hl
      cases hl
      rw [hid] at hc
      obtain ⟨p, hpm, rfl, hpk⟩ := (messageKinds_find key).1 c hc
      refine ⟨p, hpm, hpk, ?_⟩
      have hm : p.1.members = none := by
        have := messageKinds_complete.1
        have hmem : p.1 ∈ kvnTypes := this ▸ List.mem_map_of_mem hpm
        simpa using List.all_eq_true.mp message_dataclasses _ hmem
      cases hty with
      | obj => exact ⟨_, rfl⟩
      | enum _ h => rw [hm] at h; cases h
      | enumText _ h => rw [hm] at h; cases h

/-- Every text has lines, significant lines and keywords in the sense of `C03_dispatch`. -/
theorem C03_total (src : Str) : ∃ ls cs, TextLines src ls ∧ SigLines ls cs ∧
    (cs = [] ∨ ∃ first rest key, cs = first :: rest ∧ LineKey first key) := by
  obtain ⟨cs, hs⟩ := sigLines_exists (splitChar '\n' src)
  refine ⟨_, cs, textLines_exists src, hs, ?_⟩
  cases cs with
  | nil => exact Or.inl rfl
  | cons l cs =>
    obtain ⟨k, hk⟩ := lineKey_exists l (sigLines_trimmed hs l (by simp)).1
    exact Or.inr ⟨l, cs, k, rfl, hk⟩

-- Non-vacuity: an OPM text is read as an `Opm`.
example : (kvnFromString opmText).toOption.isSome = true := by decide +kernel
example : kvnFromString (py "\n  NONSENSE = 1\n") = .error .attributeError :=
  ((C03_dispatch _ [[], py "  NONSENSE = 1", []] [py "NONSENSE = 1"]
    ⟨by decide, by decide, by decide⟩
    (.blank blank_nil (.line (strip_eq_iff.mp (by decide)) (by decide) (.blank blank_nil .nil)))).2
    _ _ (py "NONSENSE") rfl (.data (a := py "NONSENSE ") (b := py " 1") (by decide) (by decide) rfl
      (strip_eq_iff.mp (by decide)))).1 (by decide)

/-- **C38.** Every object the KVN reader returns is an instance of a message class and conforms to the data model at
every level: exactly the fields of its class, lists in list fields, an object of the declared class or `None` in block
fields, a value of the declared type (or the text that could not be converted to it) in keyword fields. -/
theorem C38_conforms (src : Str) (v : Val) (h : kvnFromString src = .ok v) :
    ∃ kind ∈ messageKinds, HasType (.cls kind.1) v := by
  obtain ⟨-, c, -, -, hmem, ht⟩ := kvnFromString_type h
  rw [← messageKinds_complete.1] at hmem
  obtain ⟨p, hp, rfl⟩ := List.mem_map.mp hmem
  exact ⟨p, hp, ht⟩

end Ndm
