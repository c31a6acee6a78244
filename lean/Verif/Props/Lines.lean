import Verif.Lemmas.Lines

/-! # C04-C09: lines of KVN text -/

namespace Ndm

/-! ## C04 -/

/-- The specification is total: every text has lines, and these have significant contents. -/
theorem textLines_sigLines_total (src : Str) : ∃ ls cs, TextLines src ls ∧ SigLines ls cs :=
  let ⟨cs, h⟩ := sigLines_exists (splitChar '\n' src)
  ⟨_, cs, textLines_exists src, h⟩

theorem preprocess_congr {a b : Str} {la lb cs : List Str} (ha : TextLines a la) (hb : TextLines b lb)
    (hsa : SigLines la cs) (hsb : SigLines lb cs) : preprocess a = preprocess b := by
  rw [preprocess_sigLines ha hsa, preprocess_sigLines hb hsb]

/-- **C04.** Two texts with the same non-blank line contents are read alike (same object or same exception), by every
instance in every state. -/
theorem C04_whitespace_irrelevant (s : KvnSelf) (a b : Str) (la lb cs : List Str) (ha : TextLines a la)
    (hb : TextLines b lb) (hsa : SigLines la cs) (hsb : SigLines lb cs) : s.fromString a = s.fromString b := by
  simp only [KvnSelf.fromString, KvnM.fromString, KvnM.preProcess, preprocess_congr ha hb hsa hsb]

theorem sigLines_map_pad (f : Str → Str) (hf : ∀ l c, Core l c → Core (f l) c) {ls cs : List Str}
    (h : SigLines ls cs) : SigLines (ls.map f) cs := by
  induction h with
  | nil => exact .nil
  | blank hb _ ih =>
    refine .blank ?_ ih
    have := hf _ _ (strip_eq_iff.mp (strip_eq_nil_iff.mpr hb))
    exact strip_eq_nil_iff.mp (strip_of_core this)
  | line hc hn _ ih => exact .line (hf _ _ hc) hn ih

/-- **C04** (line endings).  A text with CRLF line ends is read like the same text with LF line ends. -/
theorem C04_crlf (s : KvnSelf) (ls : List Str) (hne : ls ≠ []) (hnl : ∀ l ∈ ls, '\n' ∉ l) :
    s.fromString (['\n'].intercalate (ls.map (· ++ ['\r']))) = s.fromString (['\n'].intercalate ls) := by
  obtain ⟨cs, hcs⟩ := sigLines_exists ls
  refine C04_whitespace_irrelevant s _ _ _ _ cs ⟨by simpa using hne, ?_, rfl⟩ ⟨hne, hnl, rfl⟩ ?_ hcs
  · intro l hl
    obtain ⟨m, hm, rfl⟩ := List.mem_map.mp hl
    simpa using hnl m hm
  · apply sigLines_map_pad _ _ hcs
    intro l c hc
    have hb : Blank ['\r'] := by intro d hd; simp at hd; subst hd; decide
    rw [← strip_eq_iff]
    have := strip_pad (w := []) l blank_nil hb
    rw [List.nil_append] at this
    rw [this, strip_of_core hc]

/-- **C04** (blank lines and indentation).  Adding whitespace at the ends of lines and blank lines between them does
not change the outcome. -/
theorem C04_pad_line (s : KvnSelf) (before after : List Str) (l w w' : Str) (blanks : List Str)
    (h1 : ∀ l ∈ before, '\n' ∉ l) (h2 : ∀ l ∈ after, '\n' ∉ l) (hl : '\n' ∉ w ++ l ++ w') (hw : Blank w)
    (hw' : Blank w') (hbn : ∀ b ∈ blanks, Blank b ∧ '\n' ∉ b) :
    s.fromString (['\n'].intercalate (before ++ blanks ++ (w ++ l ++ w') :: after)) =
    s.fromString (['\n'].intercalate (before ++ l :: after)) := by
  have happ : ∀ {a b cs ds : List Str}, SigLines a cs → SigLines b ds → SigLines (a ++ b) (cs ++ ds) := by
    intro a b cs ds ha hb
    induction ha with
    | nil => exact hb
    | blank h _ ih => exact .blank h ih
    | line h hn _ ih => exact .line h hn ih
  have hbl : SigLines blanks [] := by
    induction blanks with
    | nil => exact .nil
    | cons b bs ih =>
      exact .blank (hbn b (by simp)).1 (ih (fun x hx => hbn x (by simp [hx])))
  have hl' : '\n' ∉ l := by simp at hl; exact hl.2.1
  obtain ⟨c1, hc1⟩ := sigLines_exists before
  obtain ⟨c2, hc2⟩ := sigLines_exists after
  have hone : ∃ c, SigLines (l :: after) c ∧ SigLines ((w ++ l ++ w') :: after) c := by
    by_cases hb : strip l = []
    · refine ⟨c2, .blank (strip_eq_nil_iff.mp hb) hc2, .blank (strip_eq_nil_iff.mp ?_) hc2⟩
      rw [strip_pad l hw hw', hb]
    · refine ⟨strip l :: c2, .line (core_strip l) hb hc2, .line (strip_eq_iff.mp (strip_pad l hw hw')) hb hc2⟩
  obtain ⟨c, hc, hc'⟩ := hone
  refine C04_whitespace_irrelevant s _ _ _ _ (c1 ++ c) ⟨by simp, ?_, rfl⟩ ⟨by simp, ?_, rfl⟩ ?_ (happ hc1 hc)
  · intro x hx
    simp only [List.append_assoc, List.mem_append, List.mem_cons] at hx
    rcases hx with h | h | h | h
    · exact h1 x h
    · exact (hbn x h).2
    · subst h; simpa using hl
    · exact h2 x h
  · intro x hx
    simp only [List.mem_append, List.mem_cons] at hx
    rcases hx with h | h | h
    · exact h1 x h
    · exact h ▸ hl'
    · exact h2 x h
  · have := happ (happ hc1 hbl) hc'
    simpa using this

example : TextLines (py "A = 1\r\n\r\n  B = 2 ") [py "A = 1\r", py "\r", py "  B = 2 "] :=
  ⟨by decide, by decide, by decide⟩
example : SigLines [py "A = 1\r", py "\r", py "  B = 2 "] [py "A = 1", py "B = 2"] :=
  .line (strip_eq_iff.mp (by decide)) (by decide) (.blank (strip_eq_nil_iff.mp (by decide))
    (.line (strip_eq_iff.mp (by decide)) (by decide) .nil))

/-! ## C05 -/

/-- **C05.** A data line is read as its keyword and value whatever whitespace surrounds them; the value may contain
further '=' signs. -/
theorem C05_key_value (w0 key w1 w2 value w3 : Str) (hw0 : Blank w0) (hw1 : Blank w1) (hw2 : Blank w2)
    (hw3 : Blank w3) (hk : Keyword key) (hv : Trimmed value) (hu : ¬ UnitLike value) :
    parseLine (w0 ++ key ++ w1 ++ ['='] ++ w2 ++ value ++ w3) = some [key, value] := by
  have e : w0 ++ key ++ w1 ++ ['='] ++ w2 ++ value ++ w3 = w0 ++ key ++ w1 ++ '=' :: (w2 ++ value ++ w3) := by simp
  rw [e, parseLine_data _ hw0 hk hw1]
  have hr : rstrip (w2 ++ value ++ w3) = rstrip (w2 ++ value) := rstrip_append_blank _ hw3
  have hs : strip (rstrip (w2 ++ value ++ w3)) = value := by
    rw [strip_rstrip, strip_pad value hw2 hw3, strip_trimmed hv]
  have hcond : (endsWith (rstrip (w2 ++ value ++ w3)) (py "]") && (rstrip (w2 ++ value ++ w3)).contains '[') = false := by
    rw [hr]
    cases value with
    | nil =>
      rw [List.append_nil, rstrip_blank hw2]; rfl
    | cons c v =>
      have hl : rstrip (w2 ++ c :: v) = w2 ++ c :: v := by
        apply rstrip_of_last
        intro d hd
        apply hv.2 d
        rw [List.getLast?_append] at hd
        cases hq : (c :: v).getLast? with
        | none => simp at hq
        | some x => rw [hq] at hd; simpa using hd
      rw [hl]
      by_contra hcon
      rw [Bool.not_eq_false, Bool.and_eq_true] at hcon
      obtain ⟨h1, h2⟩ := hcon
      apply hu
      constructor
      · have : '[' ∈ w2 ++ c :: v := by simpa using h2
        rcases List.mem_append.mp this with h | h
        · exact absurd (hw2 '[' h) (by decide)
        · exact h
      · rw [endsWith_iff] at h1
        obtain ⟨t, ht⟩ := h1
        have : (w2 ++ c :: v).getLast? = some ']' := by rw [← ht]; simp [lit]
        rw [List.getLast?_append] at this
        cases hq : (c :: v).getLast? with
        | none => simp at hq
        | some x => rw [hq] at this; simpa using this
  rw [hcond, hs]; rfl

/-- **C05** (observable effect).  Respacing one data line of a text does not change what is read. -/
theorem C05_respacing (s : KvnSelf) (before after : List Str) (key value w0 w1 w2 w3 v0 v1 v2 v3 : Str)
    (hb : ∀ l ∈ before, '\n' ∉ l) (ha : ∀ l ∈ after, '\n' ∉ l)
    (hn : '\n' ∉ w0 ++ key ++ w1 ++ ['='] ++ w2 ++ value ++ w3)
    (hm : '\n' ∉ v0 ++ key ++ v1 ++ ['='] ++ v2 ++ value ++ v3)
    (hw : Blank w0 ∧ Blank w1 ∧ Blank w2 ∧ Blank w3) (hv : Blank v0 ∧ Blank v1 ∧ Blank v2 ∧ Blank v3)
    (hk : Keyword key) (ht : Trimmed value) (hu : ¬ UnitLike value) :
    s.fromString (['\n'].intercalate (before ++ (w0 ++ key ++ w1 ++ ['='] ++ w2 ++ value ++ w3) :: after)) =
    s.fromString (['\n'].intercalate (before ++ (v0 ++ key ++ v1 ++ ['='] ++ v2 ++ value ++ v3) :: after)) := by
  have key1 := C05_key_value w0 key w1 w2 value w3 hw.1 hw.2.1 hw.2.2.1 hw.2.2.2 hk ht hu
  have key2 := C05_key_value v0 key v1 v2 value v3 hv.1 hv.2.1 hv.2.2.1 hv.2.2.2 hk ht hu
  have hp : ∀ l : Str, '\n' ∉ l → parseLine l = some [key, value] →
      (splitChar '\n' (['\n'].intercalate (before ++ l :: after))).filterMap parseLine =
        before.filterMap parseLine ++ [key, value] :: after.filterMap parseLine := by
    intro l hl hpl
    rw [splitChar_textLines (ls := before ++ l :: after) ⟨by simp, ?_, rfl⟩]
    · rw [List.filterMap_append, List.filterMap_cons, hpl]
    · intro x hx
      simp only [List.mem_append, List.mem_cons] at hx
      rcases hx with h | h | h
      · exact hb x h
      · exact h ▸ hl
      · exact ha x h
  have e : preprocess (['\n'].intercalate (before ++ (w0 ++ key ++ w1 ++ ['='] ++ w2 ++ value ++ w3) :: after)) =
      preprocess (['\n'].intercalate (before ++ (v0 ++ key ++ v1 ++ ['='] ++ v2 ++ value ++ v3) :: after)) := by
    unfold preprocess
    rw [hp _ hn key1, hp _ hm key2]
  simp only [KvnSelf.fromString, KvnM.fromString, KvnM.preProcess, e]

example : Keyword (py "OBJECT_NAME") ∧ Trimmed (py "a=b=c") ∧ ¬ UnitLike (py "a=b=c") :=
  ⟨⟨by decide, trimmed_iff_strip.mpr (by decide), by decide, by decide⟩, trimmed_iff_strip.mpr (by decide),
    fun h => by have := h.1; revert this; decide⟩
example : parseLine (py "  OBJECT_NAME=\t a=b=c \r") = some [py "OBJECT_NAME", py "a=b=c"] := by decide

/-! ## C06 -/

theorem takeWhile_not_bracket {v r : Str} (hv : '[' ∉ v) : (v ++ '[' :: r).takeWhile (· ≠ '[') = v ∧
    (v ++ '[' :: r).dropWhile (· ≠ '[') = '[' :: r := by
  induction v with
  | nil => simp
  | cons c v ih =>
    have hc : c ≠ '[' := by intro h; exact hv (by simp [h])
    have := ih (fun h => hv (by simp [h]))
    simpa [hc] using this

/-- **C06.** `KEY = value [unit]` is read as keyword, value and unit, whatever whitespace surrounds them. -/
theorem C06_units (w0 key w1 w2 value w3 w4 unit w5 w6 : Str) (hw0 : Blank w0) (hw1 : Blank w1) (hw2 : Blank w2)
    (hw3 : Blank w3) (hw4 : Blank w4) (hw5 : Blank w5) (hw6 : Blank w6) (hk : Keyword key) (hv : Trimmed value)
    (hvb : '[' ∉ value) (hu : Trimmed unit) (hub : '[' ∉ unit ∧ ']' ∉ unit) :
    parseLine (w0 ++ key ++ w1 ++ ['='] ++ w2 ++ value ++ w3 ++ ['['] ++ w4 ++ unit ++ w5 ++ [']'] ++ w6) =
      some [key, value, unit] := by
  have blank_no : ∀ {w : Str} (c : Char), isSpace c = false → Blank w → c ∉ w := by
    intro w c hc hw h
    rw [hw c h] at hc; cases hc
  have e : w0 ++ key ++ w1 ++ ['='] ++ w2 ++ value ++ w3 ++ ['['] ++ w4 ++ unit ++ w5 ++ [']'] ++ w6 =
      w0 ++ key ++ w1 ++ '=' :: ((w2 ++ value ++ w3) ++ '[' :: (w4 ++ unit ++ w5 ++ [']']) ++ w6) := by simp
  rw [e, parseLine_data _ hw0 hk hw1, rstrip_append_blank _ hw6]
  have hlast : rstrip ((w2 ++ value ++ w3) ++ '[' :: (w4 ++ unit ++ w5 ++ [']'])) =
      (w2 ++ value ++ w3) ++ '[' :: (w4 ++ unit ++ w5 ++ [']']) := by
    apply rstrip_of_last
    intro c hc
    rw [List.getLast?_append, List.getLast?_cons, List.getLast?_append] at hc
    simp at hc
    subst hc; decide
  rw [hlast]
  have h1 : endsWith ((w2 ++ value ++ w3) ++ '[' :: (w4 ++ unit ++ w5 ++ [']'])) (py "]") = true := by
    rw [endsWith_iff]
    exact ⟨(w2 ++ value ++ w3) ++ '[' :: (w4 ++ unit ++ w5), by simp [lit]⟩
  have h2 : ((w2 ++ value ++ w3) ++ '[' :: (w4 ++ unit ++ w5 ++ [']'])).contains '[' = true := by simp
  have hv3 : '[' ∉ w2 ++ value ++ w3 := by
    simp only [List.mem_append, not_or]
    exact ⟨⟨blank_no _ (by decide) hw2, hvb⟩, blank_no _ (by decide) hw3⟩
  obtain ⟨ht, hd⟩ := takeWhile_not_bracket (r := w4 ++ unit ++ w5 ++ [']']) hv3
  have hf : ('[' :: (w4 ++ unit ++ w5 ++ [']'])).filter (fun c => c ≠ '[' && c ≠ ']') = w4 ++ unit ++ w5 := by
    have hkeep : ∀ t : Str, '[' ∉ t → ']' ∉ t → t.filter (fun c => c ≠ '[' && c ≠ ']') = t := by
      intro t ht1 ht2
      rw [List.filter_eq_self]
      intro c hc
      have : c ≠ '[' := fun h => ht1 (h ▸ hc)
      have : c ≠ ']' := fun h => ht2 (h ▸ hc)
      simp_all
    have hb : ∀ w : Str, Blank w → w.filter (fun c => c ≠ '[' && c ≠ ']') = w := fun w hw =>
      hkeep w (blank_no _ (by decide) hw) (blank_no _ (by decide) hw)
    have hu' := hkeep unit hub.1 hub.2
    have h4 := hb w4 hw4
    have h5 := hb w5 hw5
    simp only [List.filter_cons, List.filter_append, hu', h4, h5]
    simp
  rw [h1, h2, ht, hd, hf]
  rw [strip_pad value hw2 hw3, strip_trimmed hv, strip_pad unit hw4 hw5, strip_trimmed hu]
  rfl

/-- **C06** (converse).  A unit is only ever split off a data line whose stripped text contains '[' and ends in ']'. -/
theorem C06_no_spurious_unit (raw core : Str) (l : Line) (hc : Core raw core) (h : parseLine raw = some l)
    (hl : 3 ≤ l.length) : UnitLike core := by
  have hcs := strip_of_core hc
  simp only [parseLine, hcs] at h
  split at h
  · cases h
  · split at h
    · simp only [Option.some.injEq] at h
      subst h
      simp at hl
    · simp only [Option.some.injEq] at h
      subst h
      rw [List.length_map] at hl
      have hsplit : ∀ s : Str, (splitOnce '=' s = [s] ∨ ∃ a b, splitOnce '=' s = [a, b] ∧ s = a ++ '=' :: b) := by
        intro s
        induction s with
        | nil => left; rfl
        | cons c s ih =>
          by_cases hce : c = '='
          · right; exact ⟨[], s, by simp [splitOnce, hce], by simp [hce]⟩
          · rcases ih with ih | ⟨a, b, ih, hs⟩
            · left; simp [splitOnce, hce, ih]
            · right; exact ⟨c :: a, b, by simp [splitOnce, hce, ih], by simp [hs]⟩
      rcases hsplit core with h1 | ⟨a, b, h1, h2⟩
      · rw [h1] at hl; simp at hl
      · rw [h1] at hl
        simp only at hl
        split at hl
        · split at hl
          · rename_i he hbr
            have hm : '[' ∈ b := by simpa using hbr
            constructor
            · rw [h2]; simp [hm]
            · have hbn : b ≠ [] := by intro hb; rw [hb] at hm; simp at hm
              -- the last character of `core` is the last one of `b`, which is not a space
              have hlast : core.getLast? = b.getLast? := by
                rw [h2, List.getLast?_append]
                cases b with
                | nil => exact absurd rfl hbn
                | cons x b =>
                  rw [List.getLast?_cons_cons]
                  cases hq : (x :: b).getLast? with
                  | none => simp at hq
                  | some y => rfl
              have hrb : rstrip b = b := rstrip_of_last (fun c hc' => hc.1.2 c (by rw [hlast]; exact hc'))
              rw [hrb, endsWith_iff] at he
              obtain ⟨t, ht⟩ := he
              rw [hlast, ← ht]
              simp [lit]
          · simp at hl
        · simp at hl

example : parseLine (py "GM=398600.4415[ km**3/s**2 ] ") = some [py "GM", py "398600.4415", py "km**3/s**2"] := by
  decide

/-! ## C07 -/

/-- **C07.** A line beginning with `COMMENT` is a comment whose text is the stripped remainder, minus one optional
leading '='; nothing inside the text is split off, whatever it contains. -/
theorem C07_comment (w0 rest text : Str) (hw0 : Blank w0) (hr : Core rest text) :
    (∀ t, text = '=' :: t → ∀ t', Core t t' →
      parseLine (w0 ++ py "COMMENT" ++ rest) = some [py "COMMENT", t']) ∧
    (text.head? ≠ some '=' → parseLine (w0 ++ py "COMMENT" ++ rest) = some [py "COMMENT", text]) := by
  have hl : lstrip (w0 ++ py "COMMENT" ++ rest) = py "COMMENT" ++ rest := by
    rw [List.append_assoc, lstrip_blank_append _ hw0]
    rfl
  have hs : ∃ r, strip (w0 ++ py "COMMENT" ++ rest) = py "COMMENT" ++ r ∧ strip r = text := by
    obtain ⟨v, hv, ht, hlast⟩ := dropWhile_decomp isSpace rest.reverse
    have e : rest = rstrip rest ++ v.reverse := by
      have := congrArg List.reverse ht
      simpa [rstrip] using this
    have hb : Blank v.reverse := fun c hc => hv c (by simpa using hc)
    refine ⟨rstrip rest, ?_, by rw [strip_rstrip, strip_of_core hr]⟩
    unfold strip
    rw [hl]
    conv_lhs => rw [e]
    rw [← List.append_assoc, rstrip_append_blank _ hb]
    apply rstrip_of_last
    intro c hc
    by_cases hn : rstrip rest = []
    · rw [hn, List.append_nil] at hc
      have : c = 'T' := by
        have h2 : (py "COMMENT").getLast? = some 'T' := by decide
        rw [h2] at hc; cases hc; rfl
      subst this; decide
    · apply hlast c
      have : (rstrip rest).getLast? = some c := by
        rw [List.getLast?_append] at hc
        cases hq : (rstrip rest).getLast? with
        | none => rw [List.getLast?_eq_none_iff] at hq; exact absurd hq hn
        | some x => rw [hq] at hc; simpa using hc
      simpa [rstrip] using this
  obtain ⟨r, hs, hsr⟩ := hs
  have hne : (py "COMMENT" ++ r).isEmpty = false := rfl
  have hst : startsWith (py "COMMENT" ++ r) (py "COMMENT") = true := startsWith_iff.mpr ⟨r, rfl⟩
  have hd : (py "COMMENT" ++ r).drop 7 = r := rfl
  have hcs : strip (py "COMMENT") = py "COMMENT" := by decide
  constructor
  · intro t ht t' hct
    have h1 : startsWith text (py "=") = true := startsWith_iff.mpr ⟨t, by rw [ht]; rfl⟩
    have h2 : text.drop 1 = t := by rw [ht]; rfl
    simp only [parseLine, hs, hne, hst, hd, hsr, h1, h2, if_true]
    simp [strip_of_core hct, strip_trimmed hct.1, hcs]
  · intro hh
    have h1 : startsWith text (py "=") = false := by
      rw [← Bool.not_eq_true, startsWith_iff]
      rintro ⟨u, hu⟩
      apply hh
      rw [← hu]; rfl
    simp only [parseLine, hs, hne, hst, hd, hsr, h1, if_true]
    simp [strip_trimmed hr.1, hcs]

example : parseLine (py "COMMENT a = b [km]") = some [py "COMMENT", py "a = b [km]"] := by decide
example : parseLine (py " COMMENT = = b [km] ") = some [py "COMMENT", py "= b [km]"] := by decide

/-! ## C08, C09 -/

theorem blank_replicate (n : Nat) : Blank (List.replicate n ' ') := by
  intro c hc
  rw [List.mem_replicate] at hc
  rw [hc.2]; decide

theorem blank_space : Blank [' '] := blank_replicate 1

/-- **C08** (values).  The line written for a keyword and a value is read as the upper-cased keyword and that value. -/
theorem C08_value (key value : Str) (hk : Keyword (upper key)) (hv : Trimmed value) (hu : ¬ UnitLike value) :
    parseLine (fillKvn key value none) = some [upper key, value] := by
  have e : fillKvn key value none = [] ++ upper key ++ (List.replicate (20 - (upper key).length) ' ' ++ [' ']) ++ ['='] ++
      [' '] ++ value ++ [] := by
    simp [fillKvn, ljust, lit]
  rw [e]
  refine C05_key_value _ _ _ _ _ _ blank_nil ?_ blank_space blank_nil hk hv hu
  have := blank_replicate (20 - (upper key).length + 1)
  rwa [List.replicate_succ'] at this

/-- **C08** (values with units). -/
theorem C08_unit (key value unit : Str) (hk : Keyword (upper key)) (hv : Trimmed value) (hvb : '[' ∉ value)
    (hun : unit ≠ []) (hu : Trimmed unit) (hub : '[' ∉ unit ∧ ']' ∉ unit) :
    parseLine (fillKvn key value (some unit)) = some [upper key, value, unit] := by
  have hune : unit.isEmpty = false := by cases unit <;> simp_all
  have e : fillKvn key value (some unit) =
      [] ++ upper key ++ (List.replicate (20 - (upper key).length) ' ' ++ [' ']) ++ ['='] ++ [' '] ++ value ++
        List.replicate (18 - value.length) ' ' ++ ['['] ++ [] ++ unit ++ [] ++ [']'] ++ [] := by
    simp [fillKvn, hune, ljust, lit]
  rw [e]
  refine C06_units _ _ _ _ _ _ _ _ _ _ blank_nil ?_ blank_space (blank_replicate _) blank_nil blank_nil blank_nil hk hv
    hvb hu hub
  have := blank_replicate (20 - (upper key).length + 1)
  rwa [List.replicate_succ'] at this

/-- **C08** (comments).  Every stripped comment text, including the empty text, texts starting with '=' and texts of
the ambiguous form, is read back unchanged. -/
theorem C08_comment (text : Str) (ht : Trimmed text) :
    parseLine (fillKvn (py "comment") text none) = some [py "COMMENT", text] := by
  have hup : upper (py "comment") = py "COMMENT" := by decide
  have e : fillKvn (py "comment") text none = [] ++ py "COMMENT" ++ (List.replicate 14 ' ' ++ '=' :: ' ' :: text) := by
    simp only [fillKvn, hup, ljust]
    have : 20 - (py "COMMENT").length = 13 := by decide
    rw [this]
    simp [lit, List.replicate_succ']
  rw [e]
  by_cases hn : text = []
  · subst hn
    have hb : Core (List.replicate 14 ' ' ++ ['=', ' ']) ['='] :=
      strip_eq_iff.mp (by decide)
    exact (C07_comment [] _ _ blank_nil hb).1 [] rfl [] (strip_eq_iff.mp rfl)
  · have hb : Core (List.replicate 14 ' ' ++ '=' :: ' ' :: text) ('=' :: ' ' :: text) := by
      refine ⟨⟨?_, ?_⟩, List.replicate 14 ' ', [], blank_replicate _, blank_nil, by simp⟩
      · intro c hc; simp at hc; subst hc; decide
      · intro c hc
        apply ht.2 c
        cases hq : text.getLast? with
        | none => rw [List.getLast?_eq_none_iff] at hq; exact absurd hq hn
        | some x =>
          rw [List.getLast?_cons, List.getLast?_cons, hq] at hc
          simpa using hc
    refine (C07_comment [] _ _ blank_nil hb).1 (' ' :: text) rfl text ?_
    exact ⟨ht, [' '], [], blank_space, blank_nil, by simp⟩

example : Keyword (upper (py "object_name")) := by
  have : upper (py "object_name") = py "OBJECT_NAME" := by decide
  rw [this]
  exact ⟨by decide, trimmed_iff_strip.mpr (by decide), by decide, by decide⟩
example : Trimmed (py "SPUTNIK 1") ∧ ¬ UnitLike (py "SPUTNIK 1") :=
  ⟨trimmed_iff_strip.mpr (by decide), fun h => by have := h.1; revert this; decide⟩
example : Trimmed (py "= 5 [km]") := trimmed_iff_strip.mpr (by decide)

/-- **C09 is false**: the written line of the value `SAT [A]` is read as value `SAT` with unit `A`. -/
theorem C09_refuted : ∃ value, Trimmed value ∧ '\n' ∉ value ∧
    parseLine (fillKvn (py "object_name") value none) = some [py "OBJECT_NAME", py "SAT", py "A"] ∧
    value ≠ py "SAT" :=
  ⟨py "SAT [A]", trimmed_iff_strip.mpr (by decide), by decide, by decide, by decide⟩

/-- **C09, what holds and what does not**: for *every* value of the ambiguous form the value is lost: the line is
read as a line with a unit. -/
theorem C09_never_preserved (key value : Str) (hk : Keyword (upper key)) (hv : Trimmed value) (hu : UnitLike value) :
    ∃ v u, parseLine (fillKvn key value none) = some [upper key, v, u] ∧ v ≠ value := by
  have e : fillKvn key value none = [] ++ upper key ++ (List.replicate (20 - (upper key).length) ' ' ++ [' ']) ++
      '=' :: (' ' :: value) := by
    simp [fillKvn, ljust, lit]
  have hb : Blank (List.replicate (20 - (upper key).length) ' ' ++ [' ']) := by
    have := blank_replicate (20 - (upper key).length + 1)
    rwa [List.replicate_succ'] at this
  have hr : rstrip (' ' :: value) = ' ' :: value := by
    apply rstrip_of_last
    intro c hc
    rw [List.getLast?_cons, hu.2] at hc
    simp at hc
    subst hc; decide
  have h1 : endsWith (' ' :: value) (py "]") = true := by
    rw [endsWith_iff]
    obtain ⟨t, ht⟩ := List.getLast?_eq_some_iff.mp hu.2
    exact ⟨' ' :: t, by rw [ht]; rfl⟩
  have h2 : (' ' :: value).contains '[' = true := by
    have := hu.1
    simp [this]
  refine ⟨_, _, by rw [e, parseLine_data _ blank_nil hk hb, hr, h1, h2]; rfl, ?_⟩
  intro heq
  have hmem : '[' ∈ strip ((' ' :: value).takeWhile (· ≠ '[')) := by rw [heq]; exact hu.1
  have hsub : ∀ s : Str, ∀ c ∈ strip s, c ∈ s := by
    intro s c hc
    obtain ⟨-, w, w', -, -, hs⟩ := core_strip s
    rw [hs]; simp [hc]
  have := List.mem_takeWhile_imp (hsub _ _ hmem)
  simp at this

example : UnitLike (py "SAT [A]") := ⟨by decide, by decide⟩

end Ndm
