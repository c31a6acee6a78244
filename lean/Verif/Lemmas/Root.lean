import Verif.Lemmas.ReadGood
import Verif.Props.Writer

/-! Writing and reading back a whole message. -/

namespace Ndm

/-- What is checked of a message class. -/
def rootOk (p : Cls × Str × Str) : Bool :=
  decide (p.1.idVersion = some p.2) && (p.1.metaName.isSome && p.1.metaName != some (py "ndm")) &&
  decide (parseLine (fillKvn p.2.1 p.2.2 none) = some [p.2.1, p.2.2]) && !(fillKvn p.2.1 p.2.2 none).contains '\n' &&
  decide ((findKvnType p.2.1).toOption = some p.1) && p.1.ordinary && decide (p.1.keyAttrs = []) &&
  (xmlCheck p.2.1).isOk && (xmlCheck p.2.2).isOk && p.1.blockAttrs.any (!·.isList) && decide (prefixOf p.1 = none)

theorem rootOk_all : messageKinds.all rootOk = true := by decide +kernel

structure RootCls (c : Cls) (id ver : Str) : Prop where
  idv : c.idVersion = some (id, ver)
  name : ∃ n, c.metaName = some n ∧ n ≠ py "ndm"
  line : parseLine (fillKvn id ver none) = some [id, ver]
  oneLine : '\n' ∉ fillKvn id ver none
  find : findKvnType id = .ok c
  ord : Ordinary c
  keys : c.keyAttrs = []
  xid : xmlCheck id = .ok ()
  xver : xmlCheck ver = .ok ()
  block : c.blockAttrs.any (!·.isList) = true

theorem isOk_unit {x : Except PyErr Unit} (h : x.isOk = true) : x = .ok () := by
  cases x with
  | error e => cases h
  | ok u => rfl

theorem rootCls {c : Cls} {id ver : Str} (h : (c, id, ver) ∈ messageKinds) : RootCls c id ver := by
  have := List.all_eq_true.mp rootOk_all _ h
  simp only [rootOk, Bool.and_eq_true, decide_eq_true_eq, Bool.not_eq_true', bne_iff_ne, ne_eq,
    Option.isSome_iff_exists] at this
  obtain ⟨⟨⟨⟨⟨⟨⟨⟨⟨⟨h1, ⟨⟨n, h2⟩, h2'⟩⟩, h3⟩, h4⟩, h5⟩, h6⟩, h7⟩, h8⟩, h9⟩, h10⟩, -⟩ := this
  refine ⟨h1, ⟨n, h2, ?_⟩, h3, ?_, ?_, ordinary_iff h6, h7, isOk_unit h8, isOk_unit h9, h10⟩
  · rintro rfl; exact h2' h2
  · intro hc; rw [← List.contains_iff_mem, h4] at hc; cases hc
  · cases hf : findKvnType id with
    | error e => rw [hf] at h5; cases h5
    | ok d => rw [hf] at h5; cases h5; rfl

/-- Writing a message: the version line, then the lines of its parts. -/
theorem write_root {c : Cls} {id ver : Str} (h : RootCls c id ver) {vs : List (Str × Val)} {raw : List Line}
    (hw : ∀ out, Writes (collateVars out vs) out raw) :
    ∃ text, kvnToString (.obj c vs) = .ok text ∧ (splitChar '\n' text).filterMap parseLine = [id, ver] :: raw := by
  obtain ⟨n, hn, hn'⟩ := h.name
  have hobj := write_obj hw h.ord.out [] [fillKvn id ver none]
  obtain ⟨ws, he, hl, hnl⟩ := hobj
  refine ⟨joinWith (py "\n") ([fillKvn id ver none] ++ ws), ?_, ?_⟩
  · have hkl : kvnLines (.obj c vs) = .ok ([fillKvn id ver none] ++ ws) := by
      simp only [kvnLines, hn, if_neg hn', h.idv]
      exact he
    simp only [kvnToString, hkl, bind, Except.bind, pure, Except.pure]
  · have : py "\n" = ['\n'] := by decide
    rw [this, splitChar_joinWith (by simp)]
    · rw [List.filterMap_append, hl]
      simp [h.line]
    · intro l hl'
      simp only [List.mem_append, List.mem_singleton] at hl'
      rcases hl' with rfl | hl'
      · exact h.oneLine
      · exact hnl l hl'

/-- Reading a message: the version line, then the lines of its parts. -/
theorem read_root {c : Cls} {id ver₀ : Str} (h : RootCls c id ver₀) {ver : Str} (hver : xmlCheck ver = .ok ()) {src : Str}
    {raw ls : List Line} (hsrc : (splitChar '\n' src).filterMap parseLine = [id, ver] :: raw) (hdel : deleteMarkers c raw = ls)
    {bvs : List (Str × Val)} {n : Nat} {avoid : Str → Prop} (hn : n < buildFuel)
    (hs : SubsRead n (subElems 9 c.blockAttrs) (attachments c.blockAttrs bvs) ls [] avoid)
    (hbv : BlockVals c.blockAttrs bvs) (hav : ¬ avoid (py "id") ∧ ¬ avoid (py "version"))
    (hdk : (deletedKeywords c).contains (py "id") = false ∧ (deletedKeywords c).contains (py "version") = false) :
    kvnFromString src = .ok (.obj c bvs) := by
  have hpre : preprocess src = .ok ([py "id", id] :: [py "version", ver] :: raw) := by
    unfold preprocess
    rw [hsrc]
    rfl
  have hid : identifyDataType ([py "id", id] :: [py "version", ver] :: raw) = .ok c := by
    have : identifyDataType ([py "id", id] :: [py "version", ver] :: raw) = findKvnType id := rfl
    rw [this, h.find]
  have hdel' : deleteMarkers c ([py "id", id] :: [py "version", ver] :: raw) =
      [[py "id", id], [py "version", ver]] ++ ls := by
    rw [← hdel]
    unfold deleteMarkers
    rw [List.filter_cons_of_pos (by simp only [List.headD_cons, hdk.1, Bool.not_false]),
      List.filter_cons_of_pos (by simp only [List.headD_cons, hdk.2, Bool.not_false])]
    rfl
  obtain ⟨es, hes, hbuilt⟩ := hs [] [[py "id", id], [py "version", ver]] (by
    intro l hl
    simp only [List.mem_cons, List.not_mem_nil, or_false] at hl
    rcases hl with rfl | rfl
    · exact hav.1
    · exact hav.2)
  simp only [List.nil_append, List.append_nil] at hes hbuilt
  have htree : ∃ nm, objectMap c = { name := nm, cls := c, subs := subElems 9 c.blockAttrs, kw := [py "id", py "version"] } := by
    refine ⟨(c.idVersion.map (·.1)).getD [], ?_⟩
    unfold objectMap
    have : treeDepth = 9 + 1 := rfl
    rw [this, extract_ordinary h.ord.toRegular]
    simp [h.keys]
  obtain ⟨nm, htree⟩ := htree
  unfold kvnFromString
  rw [hpre]
  simp only [bind, Except.bind, hid, hdel', htree]
  generalize hL : [[py "id", id], [py "version", ver]] ++ ls = L at *
  have hrange : rootRange { name := nm, cls := c, subs := subElems 9 c.blockAttrs, kw := [py "id", py "version"] }
      (keysOf L) L 0 = .ok ((0, 2), [py "id", py "version"]) := by
    unfold rootRange
    rw [h.ord.ident, prefixOf_none h.ord.user]
    simp only [Bool.false_eq_true, if_false, Option.isSome_none]
    have hb : BlockAt [py "id", py "version"] [py "id", py "version"] (keysOf ls) :=
      ⟨by decide, fun t ht _ _ => ht, by decide, by decide, by decide, by decide, by decide, by decide⟩
    have := getMinMax_block (pre := []) (pref := none) hb (by simp)
    rw [← hL, keysOf_append]
    exact this
  have hident : identElem (keysOf L) L { name := nm, cls := c, subs := subElems 9 c.blockAttrs, kw := [py "id", py "version"] }
      0 = .ok (2 + ls.length, (0, 2),
        { name := nm, cls := c, subs := es, kw := [py "id", py "version"] }) := by
    rw [identElem_eq, hrange]
    simp only [Except.bind]
    rw [show ([[py "id", id], [py "version", ver]] : List Line).length = 2 from rfl] at hes
    rw [show ([] : List Line).length = 0 from rfl] at hes
    rw [hes]
  rw [hident]
  simp only
  obtain ⟨fuel, hfuel⟩ : ∃ f, buildFuel = f + 1 := ⟨19, rfl⟩
  rw [hfuel]
  have hloc : (L.drop 0).take (2 - 0) = [[py "id", id], [py "version", ver]] := by rw [← hL]; rfl
  have hnsp : ∀ d, isSpecialBuild d = true → c ≠ d := by
    rintro d hd rfl
    rw [h.ord.build] at hd
    cases hd
  have hpyget : ∀ a b : Str, pyGet [a, b] 0 = .ok a ∧ pyGet [a, b] 1 = .ok b := fun a b => ⟨rfl, rfl⟩
  have hplain : plainDoc { name := nm, cls := c, subs := es, kw := [py "id", py "version"], minMax := some (0, 2) }
      [[py "id", id], [py "version", ver]] =
      .ok (some ⟨(c.metaName).getD [], [(py "id", id), (py "version", ver)], [], []⟩) := by
    unfold plainDoc
    have hf : [[py "id", id], [py "version", ver]].filter (fun l => [py "id", py "version"].contains (l.headD [])) =
        [[py "id", id], [py "version", ver]] := by
      rw [List.filter_eq_self]
      intro l hl
      simp only [List.mem_cons, List.not_mem_nil, or_false] at hl
      rcases hl with rfl | rfl <;> simp
    simp only [prefixOf_none h.ord.user, Option.isSome_none, Bool.false_eq_true, if_false, hf, reduceCtorEq, false_and, if_true]
    simp only [xmlifyRoot, List.mapM_cons, List.mapM_nil, bind, Except.bind, pure, Except.pure, (hpyget _ _).1,
      (hpyget _ _).2, h.xid, hver]
    rfl
  have hsec : sectionDoc (keysOf L) L { name := nm, cls := c, subs := es, kw := [py "id", py "version"], minMax := some (0, 2) }
      [[py "id", id], [py "version", ver]] 2 =
      .ok (some (⟨(c.metaName).getD [], [(py "id", id), (py "version", ver)], [], []⟩, es)) := by
    unfold sectionDoc
    simp only
    rw [if_neg (hnsp _ (by decide)), if_neg (hnsp _ (by decide)), if_neg (hnsp _ (by decide)),
      if_neg (hnsp _ (by decide)), hplain]
    rfl
  have hattrs : c.attrs = c.blockAttrs := by
    have := h.ord.order
    rw [h.keys, List.nil_append] at this
    exact this
  have hbind : bindDoc c ⟨(c.metaName).getD [], [(py "id", id), (py "version", ver)], [], []⟩ =
      .ok (.obj c (c.blockAttrs.map fun f => (f.name, f.initial))) := by
    unfold bindDoc
    simp only [checkChildren, bind, Except.bind, pure, Except.pure]
    congr 2
    have : c.fields.filter (·.init) = c.blockAttrs := hattrs
    rw [this]
    apply List.map_congr_left
    intro f hf
    have hfa : f ∈ c.attrs := hattrs ▸ hf
    unfold bindField Field.initial
    rw [(h.ord.attr f hfa).1]
    simp only [List.filter_nil, List.map_nil]
  unfold build
  simp only [hloc]
  rw [if_neg (by simp), if_neg (hnsp _ (by decide))]
  simp only [bind, Except.bind, hsec, hbind]
  have hb := build_subs (fuel := fuel) (by omega) hbuilt (.obj c (c.blockAttrs.map fun f => (f.name, f.initial)))
  simp only [bind, Except.bind] at hb ⊢
  rw [hb]
  have := attach_all (c := c) hbv [] (by
    simp only [List.map_nil, List.nil_append, ← hattrs]
    exact attrs_nodup c)
  simpa using this

end Ndm
