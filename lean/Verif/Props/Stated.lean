import Verif.Props.Files
import Verif.Props.Reading

/-! # C64: what is written says what the object holds

`Denotes text o` (`SpecText.lean`) is the meaning of a text according to the notation.  It does not mention the reader: a
writer and a reader that agree on a wrong notation give a round trip, but not this. -/

namespace Ndm

theorem denotes_of {o : Val} {c : Cls} {text id ver : Str} {raw ls : List Line}
    (hl : (splitChar '\n' text).filterMap parseLine = [id, ver] :: raw) (hd : deleteMarkers c raw = ls)
    (hid : (c, id) ∈ versionKeywords) (hver : XmlText ver) (hm : MessageText c o ls) : Denotes text o := by
  obtain ⟨rows, cs, h1, h2, h3⟩ := items_of_text hl
  rw [markers_deleted] at hd
  exact .mk h1 h2 h3 hid hver (hd ▸ hm)

theorem kind_facts : ∀ p ∈ messageKinds, (p.1, p.2.1) ∈ versionKeywords ∧ XmlText p.2.2 := by
  decide +kernel

/-- **C64.**  Every well-formed message, of each of the eight kinds, can be written, and the text says, according to the
notation, what the message holds.  (By `C51_unique` it says nothing else.)

Missing: messages that are not well formed.  For some of them the claim is false (section 4 of `DESIGN.md`). -/
theorem C64_partial (o : Val) (h : WellFormedMessage o) : ∃ text, kvnToString o = .ok text ∧ Denotes text o := by
  cases h with
  | @plain c _ hc hw =>
    obtain ⟨id, ver, hk⟩ : ∃ id ver, (c, id, ver) ∈ messageKinds := by
      have : ∀ c ∈ ([.Opm, .Omm, .Rdm, .Cdm, .Apm] : List Cls), ∃ p ∈ messageKinds, p.1 = c := by decide
      obtain ⟨⟨c', id, ver⟩, hp, rfl⟩ := this c hc
      exact ⟨id, ver, hp⟩
    have hn : nice 10 c = true := by
      have : ∀ c ∈ ([.Opm, .Omm, .Rdm, .Cdm, .Apm] : List Cls), nice 10 c = true := by decide +kernel
      exact this c hc
    obtain ⟨ls, hg⟩ := hw
    obtain ⟨vs, rfl, hwr, -⟩ := write_good special_writes 10 c hn o ls hg
    obtain ⟨text, ht, hl⟩ := write_root (rootCls hk) hwr
    refine ⟨text, ht, denotes_of (c := c) hl rfl (kind_facts _ hk).1 (kind_facts _ hk).2 ?_⟩
    have hd : deleteMarkers c ls = ls := by
      rw [markers_deleted]
      have : ∀ c ∈ ([.Opm, .Omm, .Rdm, .Cdm, .Apm] : List Cls), markerLines c = [] := by decide
      rw [this c hc]
      simp
    rw [hd]
    exact .keywords hc (hg.mono (fun _ _ _ h => h.spelled) fun _ _ _ h => h.text)
  | oem h =>
    cases h with
    | mk hh hne hs =>
      obtain ⟨text, raw, h1, h2, h3⟩ := write_oem hh hs
      exact ⟨text, h1, denotes_of (c := .Oem) h2 h3 (by decide) (by decide +kernel) (.oem hh.spelled hne hs.text)⟩
  | tdm h =>
    cases h with
    | mk hh hne hs =>
      obtain ⟨text, raw, h1, h2, h3⟩ := write_tdm hh hs
      exact ⟨text, h1, denotes_of (c := .Tdm) h2 h3 (by decide) (by decide +kernel)
        (.tdm hh.spelled hne (hs.mono fun _ _ h => h.observed))⟩
  | aem h =>
    cases h with
    | mk hh hne hs =>
      obtain ⟨text, raw, h1, h2, h3⟩ := write_aem hh hs
      exact ⟨text, h1, denotes_of (c := .Aem) h2 h3 (by decide) (by decide +kernel)
        (.aem hh.spelled hne (hs.mono fun _ _ _ h => h.read))⟩

-- Messages that meet the hypothesis: an orbit message, an ephemeris, tracking data and an attitude ephemeris.
example : WellFormedMessage richOpm := .plain (c := .Opm) (by decide) (wellFormed_of_b (by decide +kernel))
example : WellFormedMessage (oem header (richOem.map OemSeg.val)) := .oem (oem_of_b (by decide +kernel))
example : WellFormedMessage (tdm tdmHeader (richTdm.map TdmSeg.val)) := .tdm (tdm_of_b (by decide +kernel))
example : WellFormedMessage (aem header (richAem.map AemSeg.val)) := .aem (aem_of_b (by decide +kernel))

end Ndm
