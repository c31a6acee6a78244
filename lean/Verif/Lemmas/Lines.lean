import Verif.KvnIo
import Verif.Lemmas.Str

/-! Lemmas about the line reader. -/

namespace Ndm

theorem joinWith_eq_intercalate (sep : Str) (ls : List Str) : joinWith sep ls = sep.intercalate ls := by
  induction ls with
  | nil => rfl
  | cons l ls ih =>
    cases ls with
    | nil => simp [joinWith, List.intercalate]
    | cons m ms => simp [joinWith, ih, List.intercalate]

theorem splitChar_textLines {src : Str} {ls : List Str} (h : TextLines src ls) : splitChar '\n' src = ls := by
  obtain ⟨hne, hnl, rfl⟩ := h
  rw [← joinWith_eq_intercalate]
  exact splitChar_joinWith hne hnl

theorem splitChar_noNewline (d : Char) (s : Str) : ∀ l ∈ splitChar d s, d ∉ l := by
  induction s with
  | nil => simp [splitChar]
  | cons c s ih =>
    by_cases hc : c = d
    · subst hc
      intro l hl
      simp only [splitChar, if_true, List.mem_cons] at hl
      rcases hl with rfl | hl
      · simp
      · exact ih l hl
    · obtain ⟨a, as, h1, h2⟩ := splitChar_cons_ne hc s
      intro l hl
      rw [h2] at hl
      rw [h1] at ih
      rcases List.mem_cons.mp hl with rfl | hl
      · intro hd
        rcases List.mem_cons.mp hd with h | h
        · exact hc h.symm
        · exact ih a (by simp) h
      · exact ih l (by simp [hl])

theorem textLines_exists (src : Str) : TextLines src (splitChar '\n' src) :=
  ⟨splitChar_ne_nil _ _, splitChar_noNewline _ _, by rw [← joinWith_eq_intercalate, joinWith_splitChar]⟩

theorem sigLines_exists (ls : List Str) : ∃ cs, SigLines ls cs := by
  induction ls with
  | nil => exact ⟨[], .nil⟩
  | cons l ls ih =>
    obtain ⟨cs, h⟩ := ih
    by_cases hb : strip l = []
    · exact ⟨cs, .blank (strip_eq_nil_iff.mp hb) h⟩
    · exact ⟨strip l :: cs, .line (core_strip l) hb h⟩

theorem parseLine_strip (l : Str) : parseLine (strip l) = parseLine l := by
  simp only [parseLine, strip_strip]

theorem parseLine_blank {l : Str} (h : Blank l) : parseLine l = none := by
  simp [parseLine, strip_eq_nil_iff.mpr h]

theorem parseLine_core {l c : Str} (h : Core l c) : parseLine l = parseLine c := by
  rw [← strip_of_core h, parseLine_strip]

theorem filterMap_sigLines {ls cs : List Str} (h : SigLines ls cs) :
    ls.filterMap parseLine = cs.filterMap parseLine := by
  induction h with
  | nil => rfl
  | blank hb _ ih => rw [List.filterMap_cons, parseLine_blank hb, ih]
  | line hc _ _ ih => rw [List.filterMap_cons, List.filterMap_cons, parseLine_core hc, ih]

/-- The pre-processed lines are a function of the contents of the non-blank lines. -/
theorem preprocess_sigLines {src : Str} {ls cs : List Str} (ht : TextLines src ls) (hs : SigLines ls cs) :
    preprocess src = match cs.filterMap parseLine with
      | [] => .error .indexError
      | l0 :: rest => do
        let key ← pyGet l0 0
        return [py "id", key] :: (py "version" :: l0.drop 1) :: rest := by
  unfold preprocess
  rw [splitChar_textLines ht, filterMap_sigLines hs]
  rfl

/-! ### One line -/

theorem not_startsWith_comment {k : Str} (hk : ¬ py "COMMENT" <+: k) (t : Str) :
    startsWith (k ++ '=' :: t) (py "COMMENT") = false := by
  rw [← Bool.not_eq_true, startsWith_iff]
  intro h
  apply hk
  by_cases hl : (py "COMMENT").length ≤ k.length
  · exact List.prefix_of_prefix_length_le h (List.prefix_append _ _) hl
  · exfalso
    have h2 : k ++ ['='] <+: py "COMMENT" := by
      apply List.prefix_of_prefix_length_le (l₃ := k ++ '=' :: t)
      · exact ⟨t, by simp⟩
      · exact h
      · simp only [List.length_append, List.length_singleton]; omega
    have : '=' ∈ py "COMMENT" := h2.subset (by simp)
    revert this; decide

/-- A data line: keyword, '=' and a text. -/
theorem parseLine_data {w0 k w1 : Str} (text : Str) (hw0 : Blank w0) (hk : Keyword k) (hw1 : Blank w1) :
    parseLine (w0 ++ k ++ w1 ++ '=' :: text) =
      some (if endsWith (rstrip text) (py "]") && (rstrip text).contains '[' then
        [k, strip ((rstrip text).takeWhile (· ≠ '[')),
          strip (((rstrip text).dropWhile (· ≠ '[')).filter (fun c => c ≠ '[' && c ≠ ']'))]
      else [k, strip (rstrip text)]) := by
  have hkh : ∀ c, k.head? = some c → isSpace c = false := hk.trimmed.1
  obtain ⟨c0, k', rfl⟩ : ∃ c k', k = c :: k' := by
    cases k with
    | nil => exact absurd rfl hk.ne
    | cons c k' => exact ⟨c, k', rfl⟩
  have hl : lstrip (w0 ++ (c0 :: k') ++ w1 ++ '=' :: text) = (c0 :: k') ++ w1 ++ '=' :: text := by
    rw [List.append_assoc, List.append_assoc, lstrip_blank_append _ hw0]
    simp only [lstrip, List.cons_append, List.dropWhile_cons, hkh c0 rfl, List.append_assoc]
    rfl
  -- right strip stops at or after the '='
  have hr : rstrip ((c0 :: k') ++ w1 ++ '=' :: text) = (c0 :: k') ++ w1 ++ '=' :: rstrip text := by
    obtain ⟨v, hv, ht, hlast⟩ := dropWhile_decomp isSpace text.reverse
    have e : text = rstrip text ++ v.reverse := by
      have := congrArg List.reverse ht
      simpa [rstrip] using this
    have hb : Blank v.reverse := fun c hc => hv c (by simpa using hc)
    conv_lhs => rw [e]
    rw [← List.cons_append, ← List.append_assoc, rstrip_append_blank _ hb]
    apply rstrip_of_last
    intro c hc
    by_cases hn : rstrip text = []
    · rw [hn] at hc
      simp only [List.getLast?_append] at hc
      have hc : '=' = c := by simpa using hc
      subst hc; decide
    · apply hlast c
      have : (rstrip text).getLast? = some c := by
        rw [List.getLast?_append] at hc
        rw [List.getLast?_cons] at hc
        cases hq : (rstrip text).getLast? with
        | none => rw [List.getLast?_eq_none_iff] at hq; exact absurd hq hn
        | some x => rw [hq] at hc; simpa using hc
      simpa [rstrip] using this
  have hs : strip (w0 ++ (c0 :: k') ++ w1 ++ '=' :: text) = (c0 :: k') ++ w1 ++ '=' :: rstrip text := by
    unfold strip; rw [hl, hr]
  have hne : ((c0 :: k') ++ w1 ++ '=' :: rstrip text).isEmpty = false := rfl
  have hkw : '=' ∉ (c0 :: k') ++ w1 := by
    intro h
    rcases List.mem_append.mp h with h | h
    · exact hk.noEq h
    · have := hw1 '=' h
      revert this; decide
  have hcm : ¬ py "COMMENT" <+: (c0 :: k') ++ w1 := by
    intro h
    by_cases hlen : (py "COMMENT").length ≤ (c0 :: k').length
    · exact hk.noComment (List.prefix_of_prefix_length_le h (List.prefix_append _ _) hlen)
    · cases w1 with
      | nil =>
        have := h.length_le
        rw [List.append_nil] at this
        exact hlen this
      | cons d w1 =>
        have hd : isSpace d = true := hw1 d (by simp)
        have h2 : (c0 :: k') ++ [d] <+: py "COMMENT" := by
          apply List.prefix_of_prefix_length_le (l₃ := (c0 :: k') ++ d :: w1)
          · exact ⟨w1, by simp⟩
          · exact h
          · simp only [List.length_append, List.length_singleton]; omega
        have hmem : d ∈ py "COMMENT" := h2.subset (by simp)
        have hall : ∀ d ∈ py "COMMENT", isSpace d = false := by decide
        rw [hall d hmem] at hd
        cases hd
  have hsk : strip ((c0 :: k') ++ w1) = c0 :: k' := by
    have := strip_pad (w := []) (c0 :: k') blank_nil hw1
    rw [List.nil_append] at this
    rw [this, strip_trimmed hk.trimmed]
  have hrr : rstrip (rstrip text) = rstrip text := by
    apply rstrip_of_last
    intro c hc
    obtain ⟨v, hv, ht, hlast⟩ := dropWhile_decomp isSpace text.reverse
    apply hlast c
    simpa [rstrip] using hc
  generalize (c0 :: k') ++ w1 = kw at *
  generalize rstrip text = t at *
  simp only [parseLine, hs, hne, not_startsWith_comment hcm, splitOnce_append hkw, hrr]
  cases h1 : endsWith t (py "]") <;> cases h2 : t.contains '[' <;> simp_all

end Ndm
