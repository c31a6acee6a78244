import Verif.Lemmas.Trailing
import Verif.Props.History
import Verif.Props.Refuted
import Verif.Samples

/-! # C59: lines with unknown keywords -/

namespace Ndm

/-- C59, for lines at the end of the text: a text that is read is read as the same object when lines with unknown keywords (and
blank lines) follow it.

Missing: unknown lines elsewhere, where the claim is false (`C59_refuted`); unknown lines without '=', or with a value that
begins with a year. -/
theorem C59_unknown_at_end_partial (s s' : KvnSelf) {src src' : Str} {ls more cs : List Str} {L : List (List Str)}
    (h1 : TextLines src ls) (h2 : TextLines src' (ls ++ more)) (hs : SigLines more cs) (hi : List.Forall₂ LineItems cs L)
    (hf : ∀ l ∈ L, Foreign l) {v : Val} (hv : (s.fromString src).1 = .ok v) : (s'.fromString src').1 = .ok v := by
  rw [kvn_history_independent] at hv ⊢
  exact kvnFromString_trailing h1 h2 hs hi hf hv

/-! ## Cases -/

/-- A line with an unknown keyword. -/
def fooLine : Str := py "FOO = bar"

theorem foo_items : LineItems fooLine [py "FOO", py "bar"] :=
  .value (a := py "FOO ") (b := py " bar") (by decide) (by decide) ⟨trimmed_iff_strip.mpr (by decide), [], py " ", by unfold Blank; decide, by unfold Blank; decide, by decide⟩
    ⟨trimmed_iff_strip.mpr (by decide), py " ", [], by unfold Blank; decide, by unfold Blank; decide, by decide⟩ (by unfold UnitLike; decide)

theorem foo_unknown : ¬ Known (py "FOO") := by
  rintro (⟨c, f, hf, h⟩ | ⟨c, ms, hm, h⟩ | h | h | h)
  · have : ∀ f ∈ c.fields, f.ccsds ≠ some (py "FOO") := by cases c <;> decide +kernel
    exact this f hf h
  · have : ∀ ms, c.members = some ms → py "FOO" ∉ ms.map (·.1) := by
      intro ms hm
      cases c <;> first | cases hm; done | (simp only [Cls.members, Option.some.injEq] at hm; subst hm; decide +kernel)
    exact this ms hm h
  · revert h; decide
  · revert h; decide
  · revert h; decide

theorem foo_foreign : Foreign [py "FOO", py "bar"] := by
  refine ⟨_, _, _, rfl, foo_unknown, ⟨py "FOO", [], by decide, by decide⟩, ⟨py "bar", [], by decide, by decide⟩, ?_⟩
  intro w ws h
  have : words (py "FOO") = [py "FOO"] := by decide
  rw [this] at h
  cases h
  decide

/-- The lines of a manoeuvre. -/
def manLines : List Str := [py "MAN_EPOCH_IGNITION = 2000-01-01", py "MAN_DURATION = 1 [s]", py "MAN_DELTA_MASS = -1 [kg]",
  py "MAN_REF_FRAME = RTN", py "MAN_DV_1 = 1 [km/s]", py "MAN_DV_2 = 1 [km/s]", py "MAN_DV_3 = 1 [km/s]"]

/-- The lines of an orbit message up to its manoeuvres. -/
def opmLines : List Str := py "CCSDS_OPM_VERS = 2.0" :: (splitChar '\n' opmBodyText).dropLast

def ofLines (ls : List Str) : Str := ['\n'].intercalate ls

theorem ofLines_lines {ls : List Str} (h : (ls ≠ [] ∧ ∀ l ∈ ls, '\n' ∉ l)) : TextLines (ofLines ls) ls := ⟨h.1, h.2, rfl⟩

-- The hypotheses of `C59_unknown_at_end_partial` are met: an unknown line after the manoeuvres of an orbit message, and a blank
-- line.
example : ∃ v, (KvnSelf.fromString {} (ofLines (opmLines ++ manLines))).1 = .ok v ∧
    (KvnSelf.fromString {} (ofLines ((opmLines ++ manLines) ++ [fooLine, [], fooLine]))).1 = .ok v := by
  obtain ⟨v, hv, -⟩ := ok_of_check (x := (KvnSelf.fromString {} (ofLines (opmLines ++ manLines))).1) (fun _ => True) (by decide +kernel)
  have hc : Core fooLine fooLine := ⟨trimmed_iff_strip.mpr (by decide), [], [], by unfold Blank; decide, by unfold Blank; decide, by decide⟩
  refine ⟨v, hv, C59_unknown_at_end_partial {} {} (ofLines_lines (by decide +kernel)) (ofLines_lines (by decide +kernel))
    (.line hc (by decide) (.blank (by unfold Blank; decide) (.line hc (by decide) .nil))) (.cons foo_items (.cons foo_items .nil)) ?_ hv⟩
  simp only [List.mem_cons, List.not_mem_nil, or_false, or_self, forall_eq]
  exact foo_foreign

/-! ## Elsewhere -/

/-- The list of manoeuvres of an orbit message. -/
def manPath : List Step := [.f (py "body"), .f (py "segment"), .f (py "data"), .f (py "maneuver_parameters")]

/-- The number of items of a list. -/
def count : Option Val → Nat
  | some (.list xs) => xs.length
  | _ => 0

/-- **C59 is false.**  A line with an unknown keyword between two manoeuvres makes the reader ignore the second, without an
error. -/
theorem C59_refuted : ∃ a b items v v', LineItems fooLine items ∧ Foreign items ∧
    (KvnSelf.fromString {} (ofLines (a ++ b))).1 = .ok v ∧ (KvnSelf.fromString {} (ofLines (a ++ fooLine :: b))).1 = .ok v' ∧
    count (v.at manPath) = 2 ∧ count (v'.at manPath) = 1 := by
  obtain ⟨v, hv, h⟩ := ok_of_check (x := (KvnSelf.fromString {} (ofLines ((opmLines ++ manLines) ++ manLines))).1)
    (fun v => count (v.at manPath) = 2) (by decide +kernel)
  obtain ⟨v', hv', h'⟩ := ok_of_check (x := (KvnSelf.fromString {} (ofLines ((opmLines ++ manLines) ++ fooLine :: manLines))).1)
    (fun v => count (v.at manPath) = 1) (by decide +kernel)
  exact ⟨opmLines ++ manLines, manLines, _, v, v', foo_items, foo_foreign, hv, hv', h, h'⟩

/-- Two lines with an unknown keyword inside the header make the reader ignore the originator, without an error. -/
theorem C59_header : ∃ a b v v',
    (KvnSelf.fromString {} (ofLines (a ++ b))).1 = .ok v ∧ (KvnSelf.fromString {} (ofLines (a ++ fooLine :: fooLine :: b))).1 = .ok v' ∧
    v.at [.f (py "header"), .f (py "originator")] = some (S (py "X")) ∧ v'.at [.f (py "header"), .f (py "originator")] = some .none := by
  obtain ⟨v, hv, h⟩ := ok_of_check (x := (KvnSelf.fromString {} (ofLines (opmLines.take 2 ++ (py "ORIGINATOR = X" :: opmLines.drop 3)))).1)
    (fun v => v.at [.f (py "header"), .f (py "originator")] = some (S (py "X"))) (by decide +kernel)
  obtain ⟨v', hv', h'⟩ := ok_of_check
    (x := (KvnSelf.fromString {} (ofLines (opmLines.take 2 ++ fooLine :: fooLine :: (py "ORIGINATOR = X" :: opmLines.drop 3)))).1)
    (fun v => v.at [.f (py "header"), .f (py "originator")] = some .none) (by decide +kernel)
  exact ⟨_, _, v, v', hv, hv', h, h'⟩

end Ndm
