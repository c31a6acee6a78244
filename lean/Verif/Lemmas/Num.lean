import Verif.Dec
import Verif.Lemmas.Str

/-! # Numbers as text -/

namespace Ndm

/-- ASCII digit characters. -/
def DigitC (c : Char) : Prop := 48 ≤ c.toNat ∧ c.toNat ≤ 57

theorem DigitC.isDigit {c : Char} (h : DigitC c) : isDigit c = true ∧ (digitVal c).getD 0 = c.toNat - 48 := by
  obtain ⟨h1, h2⟩ := h
  have ha : isAscii c = true := by simp only [isAscii, decide_eq_true_eq]; omega
  have hd : isAsciiDigit c = true := by simp [isAsciiDigit, h1, h2]
  simp [Ndm.isDigit, digitVal, ha, hd]

theorem DigitC.notSpace {c : Char} (h : DigitC c) : isSpace c = false := by
  obtain ⟨h1, h2⟩ := h
  simp only [isSpace]
  simp only [Bool.or_eq_false_iff, Bool.and_eq_false_iff, decide_eq_false_iff_not, beq_eq_false_iff_ne]
  omega

theorem DigitC.ne {c d : Char} (h : DigitC c) (hd : ¬ DigitC d) : c ≠ d := fun e => hd (e ▸ h)

theorem natDigits_digit {n : Nat} : ∀ c ∈ natDigits n, DigitC c := by
  intro c hc
  have := Nat.isDigit_of_mem_toDigits (b := 10) (n := n) (by omega) (by omega) hc
  simp only [Char.isDigit, Bool.and_eq_true, decide_eq_true_eq] at this
  exact ⟨this.1, this.2⟩

theorem natDigits_ne (n : Nat) : natDigits n ≠ [] := Nat.toDigits_ne_nil

theorem digitsVal_ofDigitChars {s : Str} (h : ∀ c ∈ s, DigitC c) (a : Nat) :
    s.foldl (fun a c => a * 10 + (digitVal c).getD 0) a = Nat.ofDigitChars 10 s a := by
  induction s generalizing a with
  | nil => rfl
  | cons c s ih =>
    have h1 := (h c (by simp)).isDigit.2
    simp only [List.foldl_cons, h1]
    rw [ih (fun c hc => h c (by simp [hc]))]
    simp only [Nat.ofDigitChars, List.foldl_cons]
    congr 1
    show a * 10 + (c.toNat - 48) = 10 * a + (c.toNat - 48)
    omega

theorem digitsVal_natDigits (n : Nat) : digitsVal (natDigits n) = n := by
  unfold digitsVal
  rw [digitsVal_ofDigitChars natDigits_digit]
  exact Nat.ofDigitChars_ten_toDigits

theorem digitsVal_zeros (n : Nat) (s : Str) : digitsVal (zeros n ++ s) = digitsVal s := by
  unfold digitsVal zeros
  rw [List.foldl_append]
  congr 1
  induction n with
  | zero => rfl
  | succ n ih =>
    rw [List.replicate_succ, List.foldl_cons]
    exact ih

theorem zeros_digit (n : Nat) : ∀ c ∈ zeros n, DigitC c := by
  intro c hc
  rw [zeros, List.mem_replicate] at hc
  rw [hc.2]; exact ⟨by decide, by decide⟩

theorem takeWhile_digits {i r : Str} (hi : ∀ c ∈ i, DigitC c) (hr : ∀ c, r.head? = some c → isDigit c = false) :
    (i ++ r).takeWhile isDigit = i ∧ (i ++ r).dropWhile isDigit = r := by
  induction i with
  | nil =>
    cases r with
    | nil => simp
    | cons c r => simp [hr c rfl]
  | cons c i ih =>
    obtain ⟨h1, h2⟩ := ih fun c hc => hi c (by simp [hc])
    have := (hi c (by simp)).isDigit.1
    simp [this, h1, h2]

/-- The exponent part of a number. -/
def expText (k : Int) : Str := if k = 0 then [] else 'E' :: signedStr k

theorem all_digit {s : Str} (h : ∀ c ∈ s, DigitC c) : s.all isDigit = true :=
  List.all_eq_true.mpr fun c hc => (h c hc).isDigit.1

theorem parseExp_expText (k : Int) : parseExp (expText k) = some k := by
  unfold expText
  split
  · next h => subst h; rfl
  · next h =>
    unfold signedStr
    have hd : (natDigits k.natAbs).isEmpty = false := by
      cases hn : natDigits k.natAbs with
      | nil => exact absurd hn (natDigits_ne _)
      | cons => rfl
    have ha := all_digit (natDigits_digit (n := k.natAbs))
    split
    · next hk =>
      simp only [parseExp, takeSign, hd, ha, digitsVal_natDigits, or_true, if_true, Bool.not_true, Bool.or_self,
        Bool.false_eq_true, if_false, Option.some.injEq]
      omega
    · next hk =>
      simp only [parseExp, takeSign, hd, ha, digitsVal_natDigits, or_true, if_true, Bool.not_true, Bool.or_self,
        Bool.false_eq_true, if_false, Option.some.injEq]
      omega

theorem expText_head (k : Int) : ∀ c, (expText k).head? = some c → isDigit c = false := by
  intro c hc
  unfold expText at hc
  split at hc
  · cases hc
  · simp at hc; rw [← hc]; decide

theorem parseNumber_point {neg : Bool} {i f : Str} (hi : ∀ c ∈ i, DigitC c) (hne : i ≠ []) (hf : ∀ c ∈ f, DigitC c)
    (k : Int) : parseNumber neg (i ++ '.' :: (f ++ expText k)) = some (.fin neg (digitsVal (i ++ f)) (k - f.length)) := by
  obtain ⟨h1, h2⟩ := takeWhile_digits (r := '.' :: (f ++ expText k)) hi (by intro c hc; simp at hc; rw [← hc]; decide)
  obtain ⟨h3, h4⟩ := takeWhile_digits hf (expText_head k)
  have he : i.isEmpty = false := by cases i with | nil => exact absurd rfl hne | cons => rfl
  simp only [parseNumber, h1, h2, h3, h4, he, parseExp_expText, Bool.false_and, Bool.false_eq_true, if_false]

theorem parseNumber_int {neg : Bool} {i : Str} (hi : ∀ c ∈ i, DigitC c) (hne : i ≠ []) (k : Int) :
    parseNumber neg (i ++ expText k) = some (.fin neg (digitsVal i) k) := by
  obtain ⟨h1, h2⟩ := takeWhile_digits hi (expText_head k)
  have he : i.isEmpty = false := by cases i with | nil => exact absurd rfl hne | cons => rfl
  have hp := parseExp_expText k
  unfold parseNumber
  simp only [h1, h2, he, Bool.false_and, Bool.false_eq_true, if_false]
  by_cases hk : k = 0
  · subst hk
    simp [expText, parseExp]
  · simp only [expText, hk, if_false] at hp ⊢
    simp [hp]

/-- The text of a finite decimal after its sign. -/
def Dec.body (coef : Nat) (exp : Int) : Str := Dec.toStr (.fin false coef exp)

theorem dec_toStr_fin (neg : Bool) (coef : Nat) (exp : Int) :
    Dec.toStr (.fin neg coef exp) = signStr neg ++ Dec.body coef exp := by
  simp [Dec.toStr, Dec.body, signStr]

/-- The three shapes of the text of a finite decimal. -/
theorem dec_body_shape (coef : Nat) (exp : Int) :
    (∃ i f : Str, ∃ k : Int, (∀ c ∈ i, DigitC c) ∧ i ≠ [] ∧ (∀ c ∈ f, DigitC c) ∧
      Dec.body coef exp = i ++ '.' :: (f ++ expText k) ∧ digitsVal (i ++ f) = coef ∧ k - f.length = exp) ∨
    (∃ k : Int, Dec.body coef exp = natDigits coef ++ expText k ∧ k = exp) := by
  unfold Dec.body Dec.toStr
  simp only [signStr, Bool.false_eq_true, if_false, List.nil_append]
  have hlen : 0 < (natDigits coef).length := by
    cases h : natDigits coef with
    | nil => exact absurd h (natDigits_ne _)
    | cons => simp
  generalize hL : (natDigits coef).length = L at *
  generalize hdp : (if exp ≤ 0 ∧ exp + (L : Int) > -6 then exp + (L : Int) else 1) = dp
  have hexp : (if exp + (L : Int) = dp then [] else 'E' :: signedStr (exp + L - dp)) = expText (exp + L - dp) := by
    unfold expText
    by_cases h : exp + (L : Int) = dp
    · rw [if_pos h, if_pos (by omega)]
    · rw [if_neg h, if_neg (by omega)]
  rw [hexp]
  split
  · next h =>
    left
    have hk : exp + L = dp := by
      split at hdp
      · exact hdp
      · omega
    refine ⟨['0'], zeros (-dp).toNat ++ natDigits coef, exp + L - dp, ?_, by simp, ?_, by simp, ?_, ?_⟩
    · intro c hc; simp at hc; rw [hc]; exact ⟨by decide, by decide⟩
    · intro c hc
      rcases List.mem_append.mp hc with hc | hc
      · exact zeros_digit _ c hc
      · exact natDigits_digit c hc
    · have := digitsVal_zeros 1 (zeros (-dp).toNat ++ natDigits coef)
      rw [show zeros 1 = ['0'] from rfl] at this
      rw [this, digitsVal_zeros, digitsVal_natDigits]
    · rw [List.length_append, hL]; simp only [zeros, List.length_replicate]; push_cast; omega
  · next h =>
    split
    · next h2 =>
      right
      have : dp = L := by
        split at hdp
        · omega
        · omega
      refine ⟨exp + L - dp, ?_, by omega⟩
      rw [this]; simp [zeros]
    · next h2 =>
      left
      refine ⟨(natDigits coef).take dp.toNat, (natDigits coef).drop dp.toNat, exp + L - dp, ?_, ?_, ?_, by simp, ?_, ?_⟩
      · intro c hc; exact natDigits_digit c (List.mem_of_mem_take hc)
      · intro hc
        have := congrArg List.length hc
        rw [List.length_take, hL] at this
        simp at this
        omega
      · intro c hc; exact natDigits_digit c (List.mem_of_mem_drop hc)
      · rw [List.take_append_drop, digitsVal_natDigits]
      · rw [List.length_drop, hL]; omega

/-- Characters of number texts: no whitespace, no '_', no brackets, no '='. -/
def NumC (c : Char) : Prop :=
  DigitC c ∨ c ∈ ['.', 'E', '+', '-'] ∨ c ∈ ['I', 'n', 'f', 'i', 't', 'y', 'N', 'a', 's']

theorem NumC.plain {c : Char} (h : NumC c) : isSpace c = false ∧ c ≠ '_' ∧ c ≠ '[' ∧ c ≠ ']' ∧ c ≠ '=' ∧ c ≠ '\n' ∧
    c ≠ ' ' := by
  rcases h with h | h | h
  · refine ⟨h.notSpace, ?_, ?_, ?_, ?_, ?_, ?_⟩ <;> refine h.ne ?_ <;> intro hd <;> revert hd <;> unfold DigitC <;> decide
  · simp only [List.mem_cons, List.not_mem_nil, or_false] at h
    rcases h with rfl | rfl | rfl | rfl <;> decide
  · simp only [List.mem_cons, List.not_mem_nil, or_false] at h
    rcases h with rfl | rfl | rfl | rfl | rfl | rfl | rfl | rfl | rfl <;> decide

theorem expText_num (k : Int) : ∀ c ∈ expText k, NumC c := by
  intro c hc
  unfold expText signedStr at hc
  split at hc
  · cases hc
  · rcases List.mem_cons.mp hc with rfl | hc
    · right; left; decide
    · rcases List.mem_cons.mp hc with rfl | hc
      · right; left; split <;> decide
      · exact Or.inl (natDigits_digit c hc)

theorem body_num (coef : Nat) (exp : Int) : ∀ c ∈ Dec.body coef exp, NumC c := by
  intro c hc
  rcases dec_body_shape coef exp with ⟨i, f, k, hi, -, hf, hb, -, -⟩ | ⟨k, hb, -⟩
  · rw [hb] at hc
    simp only [List.mem_append, List.mem_cons] at hc
    rcases hc with hc | rfl | hc | hc
    · exact Or.inl (hi c hc)
    · right; left; decide
    · exact Or.inl (hf c hc)
    · exact expText_num k c hc
  · rw [hb] at hc
    rcases List.mem_append.mp hc with hc | hc
    · exact Or.inl (natDigits_digit c hc)
    · exact expText_num k c hc

theorem body_head (coef : Nat) (exp : Int) : ∃ c r, Dec.body coef exp = c :: r ∧ DigitC c := by
  rcases dec_body_shape coef exp with ⟨i, f, k, hi, hne, hf, hb, -, -⟩ | ⟨k, hb, -⟩
  · cases i with
    | nil => exact absurd rfl hne
    | cons c i => exact ⟨c, _, hb, hi c (by simp)⟩
  · cases hn : natDigits coef with
    | nil => exact absurd hn (natDigits_ne _)
    | cons c i => exact ⟨c, _, by rw [hb, hn]; rfl, natDigits_digit c (by rw [hn]; simp)⟩

theorem signStr_num (neg : Bool) : ∀ c ∈ signStr neg, NumC c := by
  intro c hc
  cases neg
  · cases hc
  · simp [signStr] at hc; subst hc; right; left; decide

theorem dec_toStr_num (d : Dec) : ∀ c ∈ d.toStr, NumC c := by
  intro c hc
  cases d with
  | fin neg coef exp =>
    rw [dec_toStr_fin] at hc
    rcases List.mem_append.mp hc with hc | hc
    · exact signStr_num neg c hc
    · exact body_num _ _ c hc
  | inf neg =>
    rcases List.mem_append.mp hc with hc | hc
    · exact signStr_num neg c hc
    · right; right
      exact (by decide : ∀ c ∈ py "Infinity", c ∈ ['I', 'n', 'f', 'i', 't', 'y', 'N', 'a', 's']) c hc
  | nan neg sig p =>
    simp only [Dec.toStr] at hc
    rcases List.mem_append.mp hc with hc | hc
    · rcases List.mem_append.mp hc with hc | hc
      · exact signStr_num neg c hc
      · right; right
        cases sig
        · exact (by decide : ∀ c ∈ py "NaN", c ∈ ['I', 'n', 'f', 'i', 't', 'y', 'N', 'a', 's']) c hc
        · exact (by decide : ∀ c ∈ py "sNaN", c ∈ ['I', 'n', 'f', 'i', 't', 'y', 'N', 'a', 's']) c hc
    · split at hc
      · cases hc
      · exact Or.inl (natDigits_digit c hc)

theorem dec_toStr_ne (d : Dec) : d.toStr ≠ [] := by
  cases d with
  | fin neg coef exp =>
    obtain ⟨c, r, h, -⟩ := body_head coef exp
    rw [dec_toStr_fin, h]; simp
  | inf neg => simp [Dec.toStr, lit]
  | nan neg sig p => cases sig <;> simp [Dec.toStr, lit]

/-- Texts without whitespace are their own stripping. -/
theorem strip_noSpace {s : Str} (h : ∀ c ∈ s, isSpace c = false) : strip s = s :=
  strip_trimmed ⟨fun c hc => h c (List.mem_of_mem_head? hc), fun c hc => h c (List.mem_of_getLast? hc)⟩

theorem filter_no_us {s : Str} (h : ∀ c ∈ s, c ≠ '_') : s.filter (· ≠ '_') = s :=
  List.filter_eq_self.mpr fun c hc => by simpa using h c hc

theorem takeSign_sign {neg : Bool} {c : Char} {r : Str} (h1 : c ≠ '-') (h2 : c ≠ '+') :
    takeSign (signStr neg ++ c :: r) = (neg, c :: r) := by
  cases neg
  · simp only [signStr, Bool.false_eq_true, if_false, List.nil_append]
    unfold takeSign
    split
    · next h => exact absurd (List.cons.inj h).1 h1
    · next h => exact absurd (List.cons.inj h).1 h2
    · rfl
  · rfl

theorem eqNoCase_digit {c : Char} {r : Str} {w : Str} (hc : DigitC c) (hw : ∀ d, w.head? = some d → ¬ DigitC d) :
    eqNoCase (c :: r) w = false := by
  unfold eqNoCase
  rw [beq_eq_false_iff_ne]
  intro h
  have hu : isAsciiUpper c = false := by
    obtain ⟨h1, h2⟩ := hc
    simp only [isAsciiUpper, Bool.and_eq_false_iff, decide_eq_false_iff_not]
    omega
  have : w.head? = some c := by rw [← h]; simp [hu]
  exact hw c this hc

theorem dec_parse_toStr (d : Dec) : Dec.parse d.toStr = some d := by
  have hs : strip d.toStr = d.toStr := strip_noSpace fun c hc => (dec_toStr_num d c hc).plain.1
  have hf : d.toStr.filter (· ≠ '_') = d.toStr := filter_no_us fun c hc => (dec_toStr_num d c hc).plain.2.1
  unfold Dec.parse
  simp only [hs, hf]
  cases d with
  | inf neg =>
    cases neg <;> decide
  | nan neg sig p =>
    have hds : ∀ c ∈ (if p = 0 then [] else natDigits p), DigitC c := by
      intro c hc
      split at hc
      · cases hc
      · exact natDigits_digit c hc
    have hv : digitsVal (if p = 0 then [] else natDigits p) = p := by
      split
      · next h => rw [h]; rfl
      · exact digitsVal_natDigits p
    clear hs hf
    simp only [Dec.toStr]
    obtain ⟨ds, hdef⟩ : ∃ ds, ds = if p = 0 then [] else natDigits p := ⟨_, rfl⟩
    simp only [← hdef] at hds hv ⊢
    have ha := all_digit hds
    clear hdef
    subst hv
    cases sig
    · rw [show signStr neg ++ (if false = true then py "sNaN" else py "NaN") ++ ds =
        signStr neg ++ 'N' :: (['a', 'N'] ++ ds) by simp [lit]]
      rw [takeSign_sign (by decide) (by decide)]
      have h1 : eqNoCase ('N' :: (['a', 'N'] ++ ds)) (py "inf") = false := by
        simp [eqNoCase, isAsciiUpper, lit]
      have h2 : eqNoCase ('N' :: (['a', 'N'] ++ ds)) (py "infinity") = false := by
        simp [eqNoCase, isAsciiUpper, lit]
      have h3 : eqNoCase (('N' :: (['a', 'N'] ++ ds)).take 3) (py "nan") = true := by
        simp; decide
      simp only [h1, h2, h3]
      simp [ha]
    · rw [show signStr neg ++ (if true = true then py "sNaN" else py "NaN") ++ ds =
        signStr neg ++ 's' :: (['N', 'a', 'N'] ++ ds) by simp [lit]]
      rw [takeSign_sign (by decide) (by decide)]
      have h1 : eqNoCase ('s' :: (['N', 'a', 'N'] ++ ds)) (py "inf") = false := by
        simp [eqNoCase, isAsciiUpper, lit]
      have h2 : eqNoCase ('s' :: (['N', 'a', 'N'] ++ ds)) (py "infinity") = false := by
        simp [eqNoCase, isAsciiUpper, lit]
      have h3 : eqNoCase (('s' :: (['N', 'a', 'N'] ++ ds)).take 3) (py "nan") = false := by
        simp; decide
      have h4 : eqNoCase (('s' :: (['N', 'a', 'N'] ++ ds)).take 4) (py "snan") = true := by
        simp; decide
      simp only [h1, h2, h3, h4]
      simp [ha]
  | fin neg coef exp =>
    obtain ⟨c, r, hb, hc⟩ := body_head coef exp
    rw [dec_toStr_fin]
    have hts : takeSign (signStr neg ++ Dec.body coef exp) = (neg, Dec.body coef exp) := by
      rw [hb]
      exact takeSign_sign (hc.ne (by unfold DigitC; decide)) (hc.ne (by unfold DigitC; decide))
    simp only [hts]
    have h1 : eqNoCase (Dec.body coef exp) (py "inf") = false := by
      rw [hb]; exact eqNoCase_digit hc (by unfold DigitC; decide)
    have h2 : eqNoCase (Dec.body coef exp) (py "infinity") = false := by
      rw [hb]; exact eqNoCase_digit hc (by unfold DigitC; decide)
    have h3 : eqNoCase ((Dec.body coef exp).take 3) (py "nan") = false := by
      rw [hb]; exact eqNoCase_digit hc (by unfold DigitC; decide)
    have h4 : eqNoCase ((Dec.body coef exp).take 4) (py "snan") = false := by
      rw [hb]; exact eqNoCase_digit hc (by unfold DigitC; decide)
    simp only [h1, h2, h3, h4, Bool.or_self, Bool.false_and, Bool.false_eq_true, if_false]
    rcases dec_body_shape coef exp with ⟨i, f, k, hi, hne, hf, hb', hv, hk⟩ | ⟨k, hb', hk⟩
    · rw [hb', parseNumber_point hi hne hf, hv, hk]
    · rw [hb', parseNumber_int natDigits_digit (natDigits_ne _), digitsVal_natDigits, hk]

theorem underscoresOk_none {s : Str} (h : ∀ c ∈ s, c ≠ '_') (p : Option Char) : underscoresOk p s = true := by
  induction s generalizing p with
  | nil => cases p <;> rfl
  | cons c s ih =>
    have hc : c ≠ '_' := h c (by simp)
    unfold underscoresOk
    split
    · rfl
    · next h => exact absurd (List.cons.inj h).1 hc
    · next h => cases h; exact ih (fun c hc => h c (by simp [hc])) _

theorem intStr_shape (i : Int) : intStr i = signStr (decide (i < 0)) ++ natDigits i.natAbs := by
  unfold intStr signStr
  by_cases h : i < 0 <;> simp [h]

theorem intStr_num (i : Int) : ∀ c ∈ intStr i, NumC c := by
  intro c hc
  rw [intStr_shape] at hc
  rcases List.mem_append.mp hc with hc | hc
  · exact signStr_num _ c hc
  · exact Or.inl (natDigits_digit c hc)

theorem intStr_ne (i : Int) : intStr i ≠ [] := by
  rw [intStr_shape]
  have := natDigits_ne i.natAbs
  simp [this]

theorem parseInt_intStr (i : Int) : parseInt (intStr i) = some i := by
  have hs : strip (intStr i) = intStr i := strip_noSpace fun c hc => (intStr_num i c hc).plain.1
  have hu : ∀ c ∈ intStr i, c ≠ '_' := fun c hc => (intStr_num i c hc).plain.2.1
  have hf : (intStr i).filter (· ≠ '_') = intStr i := filter_no_us hu
  unfold parseInt
  simp only [hs, hf, underscoresOk_none hu]
  have hd : (natDigits i.natAbs).isEmpty = false := by
    cases hn : natDigits i.natAbs with
    | nil => exact absurd hn (natDigits_ne _)
    | cons => rfl
  have hts : takeSign (intStr i) = (decide (i < 0), natDigits i.natAbs) := by
    rw [intStr_shape]
    cases hn : natDigits i.natAbs with
    | nil => exact absurd hn (natDigits_ne _)
    | cons c r =>
      have hc : DigitC c := natDigits_digit c (by rw [hn]; simp)
      exact takeSign_sign (hc.ne (by unfold DigitC; decide)) (hc.ne (by unfold DigitC; decide))
  simp only [hts, hd, all_digit natDigits_digit, digitsVal_natDigits]
  by_cases h : i < 0
  · simp [h]; omega
  · simp [h]; omega

end Ndm
