import Verif.Spec
import Mathlib.Data.List.TakeWhile
import Mathlib.Tactic.ByContra
import Mathlib.Tactic.Cases

/-! Lemmas about the Python string operations. -/

namespace Ndm

theorem lstrip_blank_append {w : Str} (s : Str) (h : Blank w) : lstrip (w ++ s) = lstrip s := by
  induction w with
  | nil => rfl
  | cons c w ih =>
    have hc : isSpace c = true := h c (by simp)
    have hw : Blank w := fun d hd => h d (by simp [hd])
    simp only [lstrip, List.cons_append, List.dropWhile_cons, hc, if_true]
    exact ih hw

theorem rstrip_append_blank {w : Str} (s : Str) (h : Blank w) : rstrip (s ++ w) = rstrip s := by
  unfold rstrip
  rw [List.reverse_append]
  congr 1
  exact lstrip_blank_append (w := w.reverse) s.reverse (fun c hc => h c (by simpa using hc))

theorem lstrip_blank {w : Str} (h : Blank w) : lstrip w = [] := by
  have := lstrip_blank_append [] h
  simpa [lstrip] using this

theorem rstrip_blank {w : Str} (h : Blank w) : rstrip w = [] := by
  have := rstrip_append_blank [] h
  simpa [rstrip] using this

theorem lstrip_of_head {s : Str} (h : ∀ c, s.head? = some c → isSpace c = false) : lstrip s = s := by
  cases s with
  | nil => rfl
  | cons c s => simp [lstrip, List.dropWhile_cons, h c rfl]

theorem rstrip_of_last {s : Str} (h : ∀ c, s.getLast? = some c → isSpace c = false) : rstrip s = s := by
  unfold rstrip
  have := lstrip_of_head (s := s.reverse) (by simpa using h)
  unfold lstrip at this
  rw [this, List.reverse_reverse]

theorem strip_trimmed {s : Str} (h : Trimmed s) : strip s = s := by
  unfold strip
  rw [lstrip_of_head h.1, rstrip_of_last h.2]

theorem lstrip_append_blank_of_ne {s w : Str} (hs : lstrip s ≠ []) : lstrip (s ++ w) = lstrip s ++ w := by
  induction s with
  | nil => simp [lstrip] at hs
  | cons c s ih =>
    unfold lstrip at *
    by_cases hc : isSpace c = true
    · simp only [List.cons_append, List.dropWhile_cons, hc, if_true] at *
      exact ih hs
    · simp [List.dropWhile_cons, hc]

theorem strip_pad {w w' : Str} (s : Str) (h : Blank w) (h' : Blank w') : strip (w ++ s ++ w') = strip s := by
  unfold strip
  rw [List.append_assoc, lstrip_blank_append _ h]
  by_cases hs : lstrip s = []
  · have hb : Blank s := by
      intro c hc
      by_contra hne
      have : s.dropWhile isSpace ≠ [] := by
        intro h0
        rw [List.dropWhile_eq_nil_iff] at h0
        exact hne (h0 c hc)
      exact this hs
    rw [hs, lstrip_blank (w := s ++ w')]
    intro c hc
    rcases List.mem_append.mp hc with h1 | h1
    · exact hb c h1
    · exact h' c h1
  · rw [lstrip_append_blank_of_ne hs, rstrip_append_blank _ h']

theorem dropWhile_decomp (p : Char → Bool) (s : Str) :
    ∃ w, (∀ c ∈ w, p c = true) ∧ s = w ++ s.dropWhile p ∧ ∀ c, (s.dropWhile p).head? = some c → p c = false := by
  refine ⟨s.takeWhile p, fun c hc => List.mem_takeWhile_imp hc, (List.takeWhile_append_dropWhile).symm, ?_⟩
  intro c hc
  have := List.head?_dropWhile_not p s
  rw [hc] at this
  simpa using this

theorem core_strip (s : Str) : Core s (strip s) := by
  obtain ⟨w, hw, hs, hh⟩ := dropWhile_decomp isSpace s
  obtain ⟨v, hv, ht, hl⟩ := dropWhile_decomp isSpace (lstrip s).reverse
  have e : lstrip s = strip s ++ v.reverse := by
    have := congrArg List.reverse ht
    simpa [strip, rstrip] using this
  refine ⟨⟨?_, ?_⟩, w, v.reverse, hw, fun c hc => hv c (by simpa using hc), ?_⟩
  · intro c hc
    apply hh c
    change (lstrip s).head? = some c
    rw [e]
    cases hq : strip s with
    | nil => rw [hq] at hc; simp at hc
    | cons a t => rw [hq] at hc; simpa using hc
  · intro c hc
    apply hl c
    simpa [strip, rstrip] using hc
  · rw [List.append_assoc, ← e]; exact hs

theorem trimmed_strip (s : Str) : Trimmed (strip s) := (core_strip s).1

theorem strip_strip (s : Str) : strip (strip s) = strip s := strip_trimmed (trimmed_strip s)

theorem strip_of_core {s core : Str} (h : Core s core) : strip s = core := by
  obtain ⟨ht, w, w', hw, hw', rfl⟩ := h
  rw [strip_pad _ hw hw', strip_trimmed ht]

theorem strip_eq_iff {s core : Str} : strip s = core ↔ Core s core :=
  ⟨fun h => h ▸ core_strip s, strip_of_core⟩

theorem strip_lstrip (s : Str) : strip (lstrip s) = strip s := by
  obtain ⟨w, hw, hs, -⟩ := dropWhile_decomp isSpace s
  have := strip_pad (w := w) (w' := []) (lstrip s) hw (by intro c hc; simp at hc)
  rw [List.append_nil] at this
  rw [← this]; congr 1; exact hs.symm

theorem strip_rstrip (s : Str) : strip (rstrip s) = strip s := by
  obtain ⟨v, hv, ht, hl⟩ := dropWhile_decomp isSpace s.reverse
  have e : s = rstrip s ++ v.reverse := by
    have := congrArg List.reverse ht
    simpa [rstrip] using this
  have := strip_pad (w := []) (w' := v.reverse) (rstrip s) (by intro c hc; simp at hc)
    (fun c hc => hv c (by simpa using hc))
  rw [List.nil_append, ← e] at this
  exact this.symm

theorem strip_eq_nil_iff {s : Str} : strip s = [] ↔ Blank s := by
  constructor
  · intro h
    obtain ⟨-, w, w', hw, hw', hs⟩ := h ▸ core_strip s
    subst hs
    intro c hc
    simp at hc
    rcases hc with h1 | h1
    · exact hw c h1
    · exact hw' c h1
  · intro h
    unfold strip
    rw [lstrip_blank h]
    rfl

theorem blank_nil : Blank [] := by intro c hc; simp at hc

theorem trimmed_nil : Trimmed [] := by constructor <;> simp

theorem trimmed_iff_strip {s : Str} : Trimmed s ↔ strip s = s :=
  ⟨strip_trimmed, fun h => h ▸ trimmed_strip s⟩

/-! ### startsWith / endsWith -/

theorem startsWith_iff {s p : Str} : startsWith s p = true ↔ p <+: s := by
  simp [startsWith]

theorem endsWith_iff {s p : Str} : endsWith s p = true ↔ p <:+ s := by
  simp [endsWith]

/-! ### split / join -/

theorem splitChar_ne_nil (d : Char) (s : Str) : splitChar d s ≠ [] := by
  cases s with
  | nil => simp [splitChar]
  | cons c s =>
    simp only [splitChar]
    split
    · simp
    · split <;> simp

theorem splitChar_cons_ne {d c : Char} (h : c ≠ d) (s : Str) :
    ∃ l ls, splitChar d s = l :: ls ∧ splitChar d (c :: s) = (c :: l) :: ls := by
  cases hs : splitChar d s with
  | nil => exact absurd hs (splitChar_ne_nil d s)
  | cons l ls => exact ⟨l, ls, rfl, by simp [splitChar, h, hs]⟩

theorem splitChar_append {d : Char} {l : Str} (hl : d ∉ l) (s : Str) :
    splitChar d (l ++ d :: s) = l :: splitChar d s := by
  induction l with
  | nil => simp [splitChar]
  | cons c l ih =>
    have hc : c ≠ d := by intro h; exact hl (by simp [h])
    have := ih (fun h => hl (by simp [h]))
    simp [splitChar, hc, this]

theorem splitChar_self {d : Char} {l : Str} (hl : d ∉ l) : splitChar d l = [l] := by
  induction l with
  | nil => simp [splitChar]
  | cons c l ih =>
    have hc : c ≠ d := by intro h; exact hl (by simp [h])
    have := ih (fun h => hl (by simp [h]))
    simp [splitChar, hc, this]

theorem splitChar_joinWith {d : Char} : ∀ {ls : List Str}, ls ≠ [] → (∀ l ∈ ls, d ∉ l) →
    splitChar d (joinWith [d] ls) = ls
  | [], h, _ => absurd rfl h
  | [l], _, h => by simpa [joinWith] using splitChar_self (h l (by simp))
  | l :: m :: ls, _, h => by
    have ih := splitChar_joinWith (d := d) (ls := m :: ls) (by simp) (fun x hx => h x (by simp [hx]))
    have : joinWith [d] (l :: m :: ls) = l ++ d :: joinWith [d] (m :: ls) := by
      simp [joinWith]
    rw [this, splitChar_append (h l (by simp)), ih]

theorem joinWith_splitChar (d : Char) (s : Str) : joinWith [d] (splitChar d s) = s := by
  induction s with
  | nil => simp [splitChar, joinWith]
  | cons c s ih =>
    by_cases hc : c = d
    · subst hc
      simp only [splitChar, if_true]
      cases hs : splitChar c s with
      | nil => exact absurd hs (splitChar_ne_nil c s)
      | cons l ls => rw [hs] at ih; simp [joinWith, ih]
    · obtain ⟨l, ls, h1, h2⟩ := splitChar_cons_ne hc s
      rw [h2]; rw [h1] at ih
      cases ls with
      | nil => simpa [joinWith] using ih
      | cons m ms => simpa [joinWith] using ih

theorem splitOnce_append {d : Char} {l : Str} (hl : d ∉ l) (s : Str) : splitOnce d (l ++ d :: s) = [l, s] := by
  induction l with
  | nil => simp [splitOnce]
  | cons c l ih =>
    have hc : c ≠ d := by intro h; exact hl (by simp [h])
    have := ih (fun h => hl (by simp [h]))
    simp [splitOnce, hc, this]

theorem splitOnce_self {d : Char} {l : Str} (hl : d ∉ l) : splitOnce d l = [l] := by
  induction l with
  | nil => simp [splitOnce]
  | cons c l ih =>
    have hc : c ≠ d := by intro h; exact hl (by simp [h])
    have := ih (fun h => hl (by simp [h]))
    simp [splitOnce, hc, this]

/-! ### words -/

theorem wordsGo_blank {w : Str} (h : Blank w) (s : Str) : wordsGo [] (w ++ s) = wordsGo [] s := by
  induction w with
  | nil => rfl
  | cons c w ih =>
    have hc : isSpace c = true := h c (by simp)
    have := ih (fun d hd => h d (by simp [hd]))
    simp [wordsGo, hc, this]

theorem wordsGo_token {t : Str} (h : ∀ c ∈ t, isSpace c = false) (cur s : Str) :
    wordsGo cur (t ++ s) = wordsGo (t.reverse ++ cur) s := by
  induction t generalizing cur with
  | nil => rfl
  | cons c t ih =>
    have hc : isSpace c = false := h c (by simp)
    have := ih (fun d hd => h d (by simp [hd])) (c :: cur)
    simp [wordsGo, hc, this]

theorem words_cons {t w : Str} (ht : t ≠ []) (h : ∀ c ∈ t, isSpace c = false) (hw : Blank w) (hwn : w ≠ [])
    (s : Str) : words (t ++ w ++ s) = t :: words s := by
  unfold words
  rw [List.append_assoc, wordsGo_token h]
  cases w with
  | nil => exact absurd rfl hwn
  | cons c w =>
    have hc : isSpace c = true := hw c (by simp)
    have hne : (t.reverse ++ []).isEmpty = false := by
      cases t <;> simp_all
    simp only [List.cons_append, wordsGo, hc, if_true, hne]
    rw [wordsGo_blank (fun d hd => hw d (by simp [hd]))]
    simp

theorem words_single {t : Str} (ht : t ≠ []) (h : ∀ c ∈ t, isSpace c = false) : words t = [t] := by
  unfold words
  have := wordsGo_token h [] []
  rw [List.append_nil] at this
  rw [this]
  cases t <;> simp_all [wordsGo]

theorem words_blank_append {w : Str} (h : Blank w) (s : Str) : words (w ++ s) = words s := wordsGo_blank h s

theorem words_join {sep : Str} (hs : Blank sep) (hsn : sep ≠ []) :
    ∀ {ts : List Str}, (∀ t ∈ ts, t ≠ [] ∧ ∀ c ∈ t, isSpace c = false) → words (joinWith sep ts) = ts
  | [], _ => rfl
  | [t], h => by simpa [joinWith] using words_single (h t (by simp)).1 (h t (by simp)).2
  | t :: u :: ts, h => by
    have ih := words_join hs hsn (ts := u :: ts) (fun x hx => h x (by simp [hx]))
    have e : joinWith sep (t :: u :: ts) = t ++ sep ++ joinWith sep (u :: ts) := by simp [joinWith]
    rw [e, words_cons (h t (by simp)).1 (h t (by simp)).2 hs hsn, ih]

theorem words_append_blank {w : Str} (s : Str) (h : Blank w) : words (s ++ w) = words s := by
  have key : ∀ (s cur : Str), wordsGo cur (s ++ w) = wordsGo cur s := by
    intro s
    induction s with
    | nil =>
      intro cur
      cases w with
      | nil => simp
      | cons c w =>
        have hc : isSpace c = true := h c (by simp)
        have hb := wordsGo_blank (w := w) (fun d hd => h d (by simp [hd])) []
        simp only [List.append_nil] at hb
        by_cases hcur : cur.isEmpty = true
        · simp [wordsGo, hc, hcur, hb]
        · simp [wordsGo, hc, hcur, hb]
    | cons c s ih =>
      intro cur
      simp only [List.cons_append, wordsGo, ih]
  exact key s []

theorem words_tokens (s : Str) : ∀ t ∈ words s, t ≠ [] ∧ ∀ c ∈ t, isSpace c = false := by
  have key : ∀ (s cur : Str), (∀ c ∈ cur, isSpace c = false) →
      ∀ t ∈ wordsGo cur s, t ≠ [] ∧ ∀ c ∈ t, isSpace c = false := by
    intro s
    induction s with
    | nil =>
      intro cur hcur t ht
      unfold wordsGo at ht
      cases cur with
      | nil => simp at ht
      | cons a cur =>
        simp only [List.isEmpty_cons, Bool.false_eq_true, if_false, List.mem_singleton] at ht
        subst ht
        exact ⟨by simp, fun c hc => hcur c (by simpa [or_comm] using hc)⟩
    | cons c s ih =>
      intro cur hcur t ht
      unfold wordsGo at ht
      by_cases hc : isSpace c = true
      · rw [if_pos hc] at ht
        cases cur with
        | nil => exact ih [] (by simp) t (by simpa using ht)
        | cons a cur =>
          simp only [List.isEmpty_cons, Bool.false_eq_true, if_false, List.mem_cons] at ht
          rcases ht with rfl | ht
          · exact ⟨by simp, fun c hc => hcur c (by simpa [or_comm] using hc)⟩
          · exact ih [] (by simp) t ht
      · rw [if_neg hc] at ht
        refine ih (c :: cur) ?_ t ht
        intro d hd
        rcases List.mem_cons.mp hd with rfl | hd
        · simpa using hc
        · exact hcur d hd
  exact key s [] (by simp)

/-! ### ljust -/

theorem ljust_eq (n : Nat) (s : Str) : ∃ w, Blank w ∧ ljust n s = s ++ w := by
  refine ⟨List.replicate (n - s.length) ' ', ?_, rfl⟩
  intro c hc
  rw [List.mem_replicate] at hc
  rw [hc.2]; decide

end Ndm
