import Verif.Lemmas.Cut
import Verif.Props.Stated
import Verif.Props.Refuted
import Verif.Props.Unknown

/-! # C63: texts that are cut short

`src = p ++ s` with `s ≠ []`: the text `p` is what is left of `src` when its end is lost. -/

namespace Ndm

theorem reads_eq {s : KvnSelf} {t : Str} : (s.fromString t).1 = kvnFromString t := kvn_history_independent s t

/-- **C63 is false of every ephemeris.**  Take any text of an OEM, any of its segments and any number of its state vectors
(at least one): the text can be cut so that what is left is read, without an error, as the OEM without the state vectors,
covariance matrices and segments that follow. -/
theorem C63_oem_refuted (s : KvnSelf) (src : Str) (h m co : Val) (before after kept lost cms : List Val)
    (hd : Denotes src (oem h (before ++ oemSegment m co (kept ++ lost) cms :: after))) (hk : kept ≠ []) (hl : lost ≠ []) :
    ∃ p cut, src = p ++ cut ∧ cut ≠ [] ∧ (s.fromString p).1 = .ok (oem h (before ++ [oemSegment m co kept []])) := by
  simp only [reads_eq]
  cases hd with
  | @mk rows cs c id ver raw ht hs hL hid hver hm =>
    have hsrc : (splitChar '\n' src).filterMap parseLine = [id, ver] :: raw := by
      rw [splitChar_textLines ht, filterMap_sigLines hs, lineItems_filterMap (sigLines_cores hs) hL]
    obtain ⟨ver₀, hkind⟩ := version_kind hid
    have hdel := markers_deleted c raw
    generalize hv : oem h (before ++ oemSegment m co (kept ++ lost) cms :: after) = v at hm
    generalize (raw.filter fun l => !(l.key ∈ markerLines c)) = ls at hm hdel
    cases hm with
    | keywords hc hg =>
      subst hv
      obtain ⟨vs, h1⟩ := good_isObj special_reads hg
      cases h1
      simp at hc
    | oem hh hne hseg =>
      cases hv
      obtain ⟨l, l', rfl, hn, hn', hcut⟩ := oem_cut (by rintro x l ⟨⟩; simp) hk hl hseg
      rw [← List.append_assoc] at hdel
      obtain ⟨p, cut, raw', rfl, hc, hp, hd'⟩ := marked_cut hsrc hdel hn'
      exact ⟨p, cut, rfl, hc, read_oem hkind (xmlCheck_ok hver) hp hd' hh hcut (by simp)⟩
    | tdm => cases hv
    | aem => cases hv

/-- **C63 is false of every tracking data message**, in the same way: any number of observations (at least one) can be
left. -/
theorem C63_tdm_refuted (s : KvnSelf) (src : Str) (h m co : Val) (before after kept lost : List Val)
    (hd : Denotes src (tdm h (before ++
      tdmSegment m (.obj .TdmData [(py "comment", co), (py "observation", .list (kept ++ lost))]) :: after)))
    (hk : kept ≠ []) (hl : lost ≠ []) :
    ∃ p cut, src = p ++ cut ∧ cut ≠ [] ∧ (s.fromString p).1 =
      .ok (tdm h (before ++ [tdmSegment m (.obj .TdmData [(py "comment", co), (py "observation", .list kept)])])) := by
  simp only [reads_eq]
  cases hd with
  | @mk rows cs c id ver raw ht hs hL hid hver hm =>
    have hsrc : (splitChar '\n' src).filterMap parseLine = [id, ver] :: raw := by
      rw [splitChar_textLines ht, filterMap_sigLines hs, lineItems_filterMap (sigLines_cores hs) hL]
    obtain ⟨ver₀, hkind⟩ := version_kind hid
    have hdel := markers_deleted c raw
    generalize hv : tdm h (before ++
      tdmSegment m (.obj .TdmData [(py "comment", co), (py "observation", .list (kept ++ lost))]) :: after) = v at hm
    generalize (raw.filter fun l => !(l.key ∈ markerLines c)) = ls at hm hdel
    cases hm with
    | keywords hc hg =>
      subst hv
      obtain ⟨vs, h1⟩ := good_isObj special_reads hg
      cases h1
      simp at hc
    | tdm hh hne hseg =>
      cases hv
      obtain ⟨l, l', rfl, hn, hn', hcut⟩ := tdm_cut (by rintro x l ⟨⟩; simp) hk hl hseg
      rw [← List.append_assoc] at hdel
      obtain ⟨p, cut, raw', rfl, hc, hp, hd'⟩ := marked_cut hsrc hdel hn'
      exact ⟨p, cut, rfl, hc, read_tdm hkind (xmlCheck_ok hver) hp hd' hh hcut (by simp)⟩
    | oem => cases hv
    | aem => cases hv

/-- **C63 is false of every attitude ephemeris**, in the same way: any number of attitude states (at least one) can be
left. -/
theorem C63_aem_refuted (s : KvnSelf) (src : Str) (h m co : Val) (before after kept lost : List Val)
    (hd : Denotes src (aem h (before ++
      aemSegment m (.obj .AemData [(py "comment", co), (py "attitude_state", .list (kept ++ lost))]) :: after)))
    (hk : kept ≠ []) (hl : lost ≠ []) :
    ∃ p cut, src = p ++ cut ∧ cut ≠ [] ∧ (s.fromString p).1 =
      .ok (aem h (before ++ [aemSegment m (.obj .AemData [(py "comment", co), (py "attitude_state", .list kept)])])) := by
  simp only [reads_eq]
  cases hd with
  | @mk rows cs c id ver raw ht hs hL hid hver hm =>
    have hsrc : (splitChar '\n' src).filterMap parseLine = [id, ver] :: raw := by
      rw [splitChar_textLines ht, filterMap_sigLines hs, lineItems_filterMap (sigLines_cores hs) hL]
    obtain ⟨ver₀, hkind⟩ := version_kind hid
    have hdel := markers_deleted c raw
    generalize hv : aem h (before ++
      aemSegment m (.obj .AemData [(py "comment", co), (py "attitude_state", .list (kept ++ lost))]) :: after) = v at hm
    generalize (raw.filter fun l => !(l.key ∈ markerLines c)) = ls at hm hdel
    cases hm with
    | keywords hc hg =>
      subst hv
      obtain ⟨vs, h1⟩ := good_isObj special_reads hg
      cases h1
      simp at hc
    | aem hh hne hseg =>
      cases hv
      obtain ⟨l, l', rfl, hn, hn', hcut⟩ := aem_cut (by intro D x l h; cases h; simp) hk hl hseg
      rw [← List.append_assoc] at hdel
      obtain ⟨p, cut, raw', rfl, hc, hp, hd'⟩ := marked_cut hsrc hdel hn'
      exact ⟨p, cut, rfl, hc, read_aem hkind (xmlCheck_ok hver) hp hd' hh hcut (by simp)⟩
    | oem => cases hv
    | tdm => cases hv

/-! The hypotheses are met. -/

example : ∃ p cut, freeOemText = p ++ cut ∧ cut ≠ [] ∧ (KvnSelf.fromString {} p).1 = .ok (oem header [oemSegment freeOemMeta (.list [])
    [freeVector (py "2000-01-01T00:00:00") oneToSix] []]) :=
  C63_oem_refuted {} _ _ _ _ [] [] [_] [_] [] freeOem_denotes (by simp) (by simp)

-- The written tracking data `laterKeyword`, cut after the first of the three observations of its first segment.
example : ∃ text p cut, kvnToString (tdm tdmHeader (laterKeyword.map TdmSeg.val)) = .ok text ∧ text = p ++ cut ∧
    (KvnSelf.fromString {} p).1 = .ok (tdm tdmHeader [tdmSegment (tdmMeta []) (.obj .TdmData [(py "comment", .list []),
      (py "observation", .list [obsVal (py "range", py "2000-01-01", dec 5)])])]) := by
  obtain ⟨text, hw, hd⟩ := C64_partial _ (.tdm (tdm_of_b (h := tdmHeader) (segs := laterKeyword) (by decide +kernel)))
  obtain ⟨p, cut, h1, -, h2⟩ := C63_tdm_refuted {} text tdmHeader (tdmMeta []) (.list []) [] [_] [_] [_, _] hd (by simp) (by simp)
  exact ⟨text, p, cut, hw, h1, h2⟩

-- The written attitude ephemeris `richAem`, cut after the first of the two attitude states of its first segment.
example : ∃ text p cut m x, kvnToString (aem header (richAem.map AemSeg.val)) = .ok text ∧ text = p ++ cut ∧
    (KvnSelf.fromString {} p).1 = .ok (aem header [aemSegment m (.obj .AemData [(py "comment", .list [S (py "data = c")]),
      (py "attitude_state", .list [x])])]) := by
  obtain ⟨text, hw, hd⟩ := C64_partial _ (.aem (aem_of_b (h := header) (segs := richAem) (by decide +kernel)))
  obtain ⟨p, cut, h1, -, h2⟩ := C63_aem_refuted {} text header _ (.list [S (py "data = c")]) [] [_, _, _] [_] [_] hd (by simp) (by simp)
  exact ⟨text, p, cut, _, _, hw, h1, h2⟩

/-! ## What is refused -/

theorem only_version (id : Str) (c : Cls) (h : findKvnType id = .ok c) (r : List Str) :
    identElem [py "id", py "version"] [[py "id", id], py "version" :: r] (objectMap c) 0 = .error .indexError := by
  have hc : c ∈ kvnTypes := by
    unfold findKvnType at h
    split at h
    · rename_i d hd
      cases h
      exact List.mem_of_find?_eq_some hd
    · cases h
  simp only [kvnTypes, List.mem_cons, List.not_mem_nil, or_false] at hc
  rcases hc with rfl | rfl | rfl | rfl | rfl | rfl | rfl | rfl <;> rfl

/-- **C63**, what holds: what is left is refused when the text is cut before its second line, that is when at most one line
is left that is not blank, complete or not.

Missing: every other cut, for which the claim is false. -/
theorem C63_first_line_partial (s : KvnSelf) {src : Str} {rows cs : List Str} (h1 : TextLines src rows) (h2 : SigLines rows cs)
    (h : cs.length ≤ 1) : (s.fromString src).1 = .error .indexError ∨ (s.fromString src).1 = .error .attributeError := by
  rw [reads_eq]
  have hlen : ((splitChar '\n' src).filterMap parseLine).length ≤ 1 := by
    rw [splitChar_textLines h1, filterMap_sigLines h2]
    exact (List.length_filterMap_le _ _).trans h
  unfold kvnFromString preprocess
  match hL : (splitChar '\n' src).filterMap parseLine with
  | [] => left; rfl
  | [l0] =>
    simp only [bind, Except.bind, pure, Except.pure]
    cases hk : pyGet l0 0 with
    | error e =>
      left
      unfold pyGet at hk
      split at hk <;> cases hk
      rfl
    | ok key =>
      have hid : identifyDataType [[py "id", key], py "version" :: l0.drop 1] = findKvnType key := rfl
      simp only [hid]
      cases hf : findKvnType key with
      | error e =>
        right
        unfold findKvnType at hf
        split at hf <;> cases hf
        rfl
      | ok c =>
        left
        have hdel : deleteMarkers c [[py "id", key], py "version" :: l0.drop 1] = [[py "id", key], py "version" :: l0.drop 1] := by
          cases c <;> rfl
        simp only [hdel]
        have hkeys : keysOf [[py "id", key], py "version" :: l0.drop 1] = [py "id", py "version"] := rfl
        rw [hkeys, only_version key c hf]
  | _ :: _ :: _ => rw [hL] at hlen; simp at hlen

example : ∃ rows cs, TextLines (py "\n CCSDS_OEM_VERS = 2.0 \n\n") rows ∧ SigLines rows cs ∧ cs.length ≤ 1 :=
  ⟨[[], py " CCSDS_OEM_VERS = 2.0 ", [], []], [py "CCSDS_OEM_VERS = 2.0"], ⟨by simp, by decide, by decide⟩, .blank (by unfold Blank; decide) (.line ⟨trimmed_iff_strip.mpr (by decide), py " ", py " ", by unfold Blank; decide, by unfold Blank; decide, by decide⟩ (by decide)
    (.blank (l := []) (by unfold Blank; decide) (.blank (l := []) (by unfold Blank; decide) .nil))), by decide⟩

/-! ## Other messages -/

/-- **C63 is false** also for messages made of keywords alone: an orbit parameter message with two manoeuvres, cut before the
second, is read without an error as the message with the first. -/
theorem C63_maneuver_refuted : ∃ p cut v v', ofLines ((opmLines ++ manLines) ++ manLines) = p ++ cut ∧
    kvnFromString (p ++ cut) = .ok v ∧ kvnFromString p = .ok v' ∧ count (v.at manPath) = 2 ∧ count (v'.at manPath) = 1 := by
  obtain ⟨v, hv, h⟩ := ok_of_check (x := kvnFromString (ofLines ((opmLines ++ manLines) ++ manLines)))
    (fun v => count (v.at manPath) = 2) (by decide +kernel)
  obtain ⟨v', hv', h'⟩ := ok_of_check (x := kvnFromString (ofLines (opmLines ++ manLines)))
    (fun v => count (v.at manPath) = 1) (by decide +kernel)
  have e : ofLines (opmLines ++ manLines) ++ (ofLines ((opmLines ++ manLines) ++ manLines)).drop (ofLines (opmLines ++ manLines)).length =
      ofLines ((opmLines ++ manLines) ++ manLines) := by decide +kernel
  exact ⟨ofLines (opmLines ++ manLines), (ofLines ((opmLines ++ manLines) ++ manLines)).drop (ofLines (opmLines ++ manLines)).length,
    v, v', e.symm, by rw [e]; exact hv, hv', h, h'⟩

/-- The mass of the spacecraft in an orbit message. -/
def massPath : List Step := [.f (py "body"), .f (py "segment"), .f (py "data"), .f (py "spacecraft_parameters"), .f (py "mass"), .f (py "value")]

/-- Cut inside its last number, an orbit message is read as the message with another number, without an error. -/
theorem C63_number_refuted : ∃ p cut v v', p ++ cut = ofLines (opmLines ++ [py "MASS = 3000"]) ∧
    kvnFromString (p ++ cut) = .ok v ∧ kvnFromString p = .ok v' ∧
    v.at massPath = some (.dec (.fin false 3000 0)) ∧ v'.at massPath = some (.dec (.fin false 30 0)) := by
  obtain ⟨v, hv, h⟩ := ok_of_check (x := kvnFromString (ofLines (opmLines ++ [py "MASS = 3000"])))
    (fun v => v.at massPath = some (.dec (.fin false 3000 0))) (by decide +kernel)
  obtain ⟨v', hv', h'⟩ := ok_of_check (x := kvnFromString (ofLines (opmLines ++ [py "MASS = 30"])))
    (fun v => v.at massPath = some (.dec (.fin false 30 0))) (by decide +kernel)
  have e : ofLines (opmLines ++ [py "MASS = 30"]) ++ py "00" = ofLines (opmLines ++ [py "MASS = 3000"]) := by decide +kernel
  exact ⟨ofLines (opmLines ++ [py "MASS = 30"]), py "00", v, v', e, by rw [e]; exact hv, hv', h, h'⟩

end Ndm
