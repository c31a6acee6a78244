import Verif.Lemmas.XmlOrder
import Verif.Props.Detect
import Verif.Props.XmlRead

/-! # C75: the layout of an XML document does not matter -/

namespace Ndm

/-- **C75.**  Two texts whose documents differ only in their layout are read alike, whatever the documents are and whatever the
instances were used for before: as equal objects, or with the same exception. -/
theorem C75_layout (X : XmlChars) (s s' : XmlSelf) (src src' : Str) (t t' : XTree) (h : X.read src = some t) (h' : X.read src' = some t')
    (hs : SameContent t t') : (s.fromString X.lib src).1 = (s'.fromString X.lib src').1 := by
  obtain ⟨htag, hbind⟩ := sameContent_bind (sizeOf t + 1) (by omega) hs
  have hparse : X.lib.parse src = X.lib.parse src' := by
    simp only [XmlChars.lib, h, h', bindRoot, htag, hbind]
  have htype : identifyXmlType X.lib src = identifyXmlType X.lib src' := by
    simp only [identifyXmlType, XmlChars.lib, h, h', Option.map_some, htag]
  show xmlFromString X.lib src = xmlFromString X.lib src'
  simp only [xmlFromString, hparse, htype]

/-- **C75** for `NdmIo`: likewise, for texts that begin with `<` and end with `>` apart from white space. -/
theorem C75_any (X : XmlChars) (src src' core core' : Str) (t t' : XTree) (hc : Core src core) (hc' : Core src' core')
    (hx : py "<" <+: core ∧ py ">" <:+ core) (hx' : py "<" <+: core' ∧ py ">" <:+ core') (h : X.read src = some t) (h' : X.read src' = some t')
    (hs : SameContent t t') : ndmFromString X.lib src = ndmFromString X.lib src' := by
  have e := (C01_detection src core hc).2.1.mpr hx
  have e' := (C01_detection src' core' hc').2.1.mpr hx'
  unfold ndmFromString
  rw [e, e']
  exact C75_layout X {} {} src src' t t' h h' hs

/-! ## Cases -/

/-- An orbit message in the usual order. -/
def usual : XTree := .node (py "opm") [(py "id", py "CCSDS_OPM_VERS"), (py "version", py "2.0")] (py "\n  ")
  [.node (py "header") [] [] [.node (py "COMMENT") [] (py "one") [], .node (py "COMMENT") [] (py "two") [],
    .node (py "ORIGINATOR") [] (py "X") []],
   .node (py "body") [] [] []]

/-- The same message: the body comes first, the originator between the comments, the version before the name. -/
def unusual : XTree := .node (py "opm") [(py "{xsi}schemaLocation", py "here"), (py "version", py "2.0"), (py "id", py "CCSDS_OPM_VERS")] []
  [.node (py "body") [] [] [],
   .node (py "header") [] [] [.node (py "COMMENT") [] (py "one") [], .node (py "ORIGINATOR") [] (py "X") [],
    .node (py "COMMENT") [] (py "two") []]]

theorem sameContent_leaf (tag text : Str) : SameContent (.node tag [] text []) (.node tag [] text []) :=
  .node (by simp) (by simp) (by simp) (by simp) (by intro t; exact .nil)

theorem forall₂_tags {ks ks' : List XTree} (tags : List Str) (hk : ∀ k ∈ ks, k.tag ∈ tags) (hk' : ∀ k ∈ ks', k.tag ∈ tags)
    {R : XTree → XTree → Prop} (h : ∀ t ∈ tags, List.Forall₂ R (ks.filter (·.tag == t)) (ks'.filter (·.tag == t))) (t : Str) :
    List.Forall₂ R (ks.filter (·.tag == t)) (ks'.filter (·.tag == t)) := by
  by_cases ht : t ∈ tags
  · exact h t ht
  · rw [List.filter_eq_nil_iff.mpr fun k hm e => ht (by rw [← show k.tag = t by simpa using e]; exact hk k hm),
      List.filter_eq_nil_iff.mpr fun k hm e => ht (by rw [← show k.tag = t by simpa using e]; exact hk' k hm)]
    exact .nil

theorem usual_unusual : SameContent usual unusual := by
  refine .node (by decide) (by decide) ?_ (by simp) (forall₂_tags [py "header", py "body"] (by decide) (by decide) ?_)
  · intro n s hn
    simp only [List.mem_cons, Prod.mk.injEq, List.not_mem_nil, or_false]
    constructor
    · rintro (h | h)
      · exact .inr (.inr h)
      · exact .inr (.inl h)
    · rintro (⟨rfl, -⟩ | h | h)
      · exact absurd (by decide) hn
      · exact .inr h
      · exact .inl h
  · intro t ht
    simp only [List.mem_cons, List.not_mem_nil, or_false] at ht
    rcases ht with rfl | rfl
    · refine .cons ?_ .nil
      refine .node (by simp) (by simp) (by simp) (by simp) (forall₂_tags [py "COMMENT", py "ORIGINATOR"] (by decide) (by decide) ?_)
      intro t ht
      simp only [List.mem_cons, List.not_mem_nil, or_false] at ht
      rcases ht with rfl | rfl
      · exact .cons (sameContent_leaf _ _) (.cons (sameContent_leaf _ _) .nil)
      · exact .cons (sameContent_leaf _ _) .nil
    · exact .cons (sameContent_leaf _ _) .nil

-- C75 applies to them, and the message is read
example : ∃ o, (XmlSelf.fromString (oneDoc usual).lib {} []).1 = .ok o ∧
    o.at [.f (py "header"), .f (py "originator")] = some (.str (py "X")) ∧
    o.at [.f (py "header"), .f (py "comment")] = some (.list [.str (py "one"), .str (py "two")]) :=
  ok_of_check (fun o : Val => o.at [.f (py "header"), .f (py "originator")] = some (.str (py "X")) ∧
    o.at [.f (py "header"), .f (py "comment")] = some (.list [.str (py "one"), .str (py "two")])) (by decide +kernel)

/-- An XML reader that knows two texts. -/
def twoDocs : XmlChars := ⟨fun _ _ _ => .ok [], fun s => if s = py "<a/>" then some usual else some unusual, fun _ => none⟩

-- and for `NdmIo`
example : ndmFromString twoDocs.lib (py "<a/>") = ndmFromString twoDocs.lib (py "<b/>\n") :=
  C75_any twoDocs (py "<a/>") (py "<b/>\n") (py "<a/>") (py "<b/>") usual unusual
    ⟨trimmed_iff_strip.mpr (by decide), [], [], by unfold Blank; decide, by unfold Blank; decide, by decide⟩
    ⟨trimmed_iff_strip.mpr (by decide), [], py "\n", by unfold Blank; decide, by unfold Blank; decide, by decide⟩
    ⟨⟨py "a/>", by decide⟩, ⟨py "<a/", by decide⟩⟩ ⟨⟨py "b/>", by decide⟩, ⟨py "<b/", by decide⟩⟩ (by simp [twoDocs]) (by simp [twoDocs, lit]) usual_unusual

/-- The order of elements with the same tag does matter: with the comments exchanged, another object is read. -/
theorem C75_same_tag : ∃ t t' o o', t.kids.length = 1 ∧ (∃ a b, t.kids = [.node (py "header") [] [] [a, b]] ∧ t'.kids = [.node (py "header") [] [] [b, a]]) ∧
    (XmlSelf.fromString (oneDoc t).lib {} []).1 = .ok o ∧ (XmlSelf.fromString (oneDoc t').lib {} []).1 = .ok o' ∧ o ≠ o' := by
  let a : XTree := .node (py "COMMENT") [] (py "one") []
  let b : XTree := .node (py "COMMENT") [] (py "two") []
  let d (ks : List XTree) : XTree := .node (py "opm") [] [] [.node (py "header") [] [] ks]
  obtain ⟨o, ho, h1⟩ := ok_of_check (x := (XmlSelf.fromString (oneDoc (d [a, b])).lib {} []).1)
    (fun o => o.at [.f (py "header"), .f (py "comment")] = some (.list [.str (py "one"), .str (py "two")])) (by decide +kernel)
  obtain ⟨o', ho', h2⟩ := ok_of_check (x := (XmlSelf.fromString (oneDoc (d [b, a])).lib {} []).1)
    (fun o => o.at [.f (py "header"), .f (py "comment")] = some (.list [.str (py "two"), .str (py "one")])) (by decide +kernel)
  refine ⟨d [a, b], d [b, a], o, o', rfl, ⟨a, b, rfl, rfl⟩, ho, ho', ?_⟩
  rintro rfl
  rw [h1] at h2
  cases h2

end Ndm
