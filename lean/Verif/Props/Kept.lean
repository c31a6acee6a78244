import Verif.Lemmas.Kept
import Verif.Props.Reading

/-! # C40: which lines are represented in the result

`Kept v l` (`SpecKept.lean`) says that what the line `l` states is held by `v`. -/

namespace Ndm

/-- **C40**, what holds: let `src` be a text that says `v` (`Denotes`, in any layout, order of keywords and spelling).
Then it is read as `v`, and every line after the first one, other than the markers (`META_START`, ...), is
represented in `v`.

Missing: lines with unknown keywords, lines out of place and repeated keywords, for which it is false (`C40_refuted` and
following), and the version (`C41`). -/
theorem C40_partial (s : KvnSelf) (src : Str) (v : Val) (h : Denotes src v) {rows cs : List Str} {first : Line} {L : List Line}
    (hrows : TextLines src rows) (hcs : SigLines rows cs) (hL : List.Forall₂ LineItems cs (first :: L)) :
    (s.fromString src).1 = .ok v ∧ ∀ l ∈ L, (∀ c, l.key ∉ markerLines c) → Kept v l := by
  refine ⟨C51 s src v h, ?_⟩
  cases h with
  | @mk rows' cs' c id ver raw ht hs hL' hid hver hm =>
    have e1 : (splitChar '\n' src).filterMap parseLine = [id, ver] :: raw := by
      rw [splitChar_textLines ht, filterMap_sigLines hs, lineItems_filterMap (sigLines_cores hs) hL']
    have e2 : (splitChar '\n' src).filterMap parseLine = first :: L := by
      rw [splitChar_textLines hrows, filterMap_sigLines hcs, lineItems_filterMap (sigLines_cores hcs) hL]
    rw [e1, List.cons.injEq] at e2
    intro l hl hmk
    refine message_kept hm l (List.mem_filter.mpr ⟨by rw [e2.2]; exact hl, ?_⟩)
    simpa using hmk c

/-- The hypotheses are met by the text of another hand in `Props/Reading.lean`, with 16 lines after the first. -/
example : ∃ rows cs, Denotes freeOpmText freeOpm ∧ TextLines freeOpmText rows ∧ SigLines rows cs ∧
    List.Forall₂ LineItems cs ([py "CCSDS_OPM_VERS", py "1.0  beta"] :: freeGroups.flatten) ∧ freeGroups.flatten.length = 16 ∧
    ∀ l ∈ freeGroups.flatten, ∀ c, l.key ∉ markerLines c := by
  have hl : (splitChar '\n' freeOpmText).filterMap parseLine = [py "CCSDS_OPM_VERS", py "1.0  beta"] :: freeGroups.flatten := by
    decide +kernel
  obtain ⟨rows, cs, ht, hs, hL⟩ := items_of_text hl
  refine ⟨rows, cs, freeOpm_denotes, ht, hs, hL, by decide +kernel, ?_⟩
  intro l hl c
  have : (freeGroups.flatten.all fun l => Cls.all.all fun c => !(l.key ∈ markerLines c)) = true := by decide +kernel
  have := List.all_eq_true.mp (List.all_eq_true.mp this l hl) c (by cases c <;> decide)
  simpa using this

end Ndm
