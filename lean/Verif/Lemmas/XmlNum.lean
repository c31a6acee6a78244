import Verif.SpecXmlDoc
import Verif.Lemmas.Num

/-! # Numbers in XML documents -/

namespace Ndm

/-- The text of a finite decimal in XML, after its sign. -/
def Dec.xmlBody (coef : Nat) (exp : Int) : Str := Dec.xmlStr (.fin false coef exp)

theorem xmlStr_fin (neg : Bool) (coef : Nat) (exp : Int) :
    Dec.xmlStr (.fin neg coef exp) = signStr neg ++ Dec.xmlBody coef exp := by
  unfold Dec.xmlBody Dec.xmlStr
  simp only [signStr, Bool.false_eq_true, if_false, List.nil_append]
  split <;> rfl

theorem xmlBody_shape (coef : Nat) (exp : Int) :
    (∃ i f : Str, (∀ c ∈ i, DigitC c) ∧ i ≠ [] ∧ (∀ c ∈ f, DigitC c) ∧ Dec.xmlBody coef exp = i ++ '.' :: (f ++ expText 0) ∧
      ∀ neg, Dec.plain (.fin neg coef exp) = .fin neg (digitsVal (i ++ f)) (0 - f.length)) ∨
    (∃ i : Str, (∀ c ∈ i, DigitC c) ∧ i ≠ [] ∧ Dec.xmlBody coef exp = i ++ expText 0 ∧
      ∀ neg, Dec.plain (.fin neg coef exp) = .fin neg (digitsVal i) 0) := by
  have e0 : expText 0 = [] := by simp [expText]
  unfold Dec.xmlBody Dec.xmlStr Dec.plain
  simp only [signStr, Bool.false_eq_true, if_false, List.nil_append, e0, List.append_nil]
  have hlen : 0 < (natDigits coef).length := by
    cases h : natDigits coef with
    | nil => exact absurd h (natDigits_ne _)
    | cons => simp
  by_cases hp : exp > 0
  · right
    exact ⟨natDigits (coef * 10 ^ exp.toNat), natDigits_digit, natDigits_ne _, by simp [hp], fun neg => by
      simp [hp, digitsVal_natDigits]⟩
  · simp only [hp, if_false]
    generalize hL : (natDigits coef).length = L at *
    split
    · next h =>
      left
      refine ⟨['0'], zeros (-(exp + (L : Int))).toNat ++ natDigits coef, ?_, by simp, ?_, by simp, fun neg => ?_⟩
      · intro c hc; simp at hc; rw [hc]; exact ⟨by decide, by decide⟩
      · intro c hc
        rcases List.mem_append.mp hc with hc | hc
        · exact zeros_digit _ c hc
        · exact natDigits_digit c hc
      · have := digitsVal_zeros 1 (zeros (-(exp + (L : Int))).toNat ++ natDigits coef)
        rw [show zeros 1 = ['0'] from rfl] at this
        rw [this, digitsVal_zeros, digitsVal_natDigits, List.length_append, hL]
        simp only [zeros, List.length_replicate, Dec.fin.injEq, true_and]
        push_cast; omega
    · next h =>
      split
      · next h2 =>
        right
        refine ⟨natDigits coef, natDigits_digit, natDigits_ne _, rfl, fun neg => ?_⟩
        rw [digitsVal_natDigits]
        simp only [Dec.fin.injEq, true_and]
        omega
      · next h2 =>
        left
        refine ⟨(natDigits coef).take (exp + (L : Int)).toNat, (natDigits coef).drop (exp + (L : Int)).toNat, ?_, ?_, ?_, rfl,
          fun neg => ?_⟩
        · intro c hc; exact natDigits_digit c (List.mem_of_mem_take hc)
        · intro hc
          have := congrArg List.length hc
          rw [List.length_take, hL] at this
          simp at this
          omega
        · intro c hc; exact natDigits_digit c (List.mem_of_mem_drop hc)
        · rw [List.take_append_drop, digitsVal_natDigits, List.length_drop, hL]
          simp only [Dec.fin.injEq, true_and]
          omega

theorem xmlBody_num (coef : Nat) (exp : Int) : ∀ c ∈ Dec.xmlBody coef exp, NumC c := by
  intro c hc
  rcases xmlBody_shape coef exp with ⟨i, f, hi, -, hf, hb, -⟩ | ⟨i, hi, -, hb, -⟩
  · rw [hb] at hc
    simp only [List.mem_append, List.mem_cons] at hc
    rcases hc with hc | rfl | hc | hc
    · exact Or.inl (hi c hc)
    · right; left; decide
    · exact Or.inl (hf c hc)
    · exact expText_num 0 c hc
  · rw [hb] at hc
    rcases List.mem_append.mp hc with hc | hc
    · exact Or.inl (hi c hc)
    · exact expText_num 0 c hc

theorem xmlBody_head (coef : Nat) (exp : Int) : ∃ c r, Dec.xmlBody coef exp = c :: r ∧ DigitC c := by
  rcases xmlBody_shape coef exp with ⟨i, f, hi, hne, -, hb, -⟩ | ⟨i, hi, hne, hb, -⟩ <;>
  · cases i with
    | nil => exact absurd rfl hne
    | cons c i => exact ⟨c, _, hb, hi c (by simp)⟩

/-- Characters of the texts of numbers in XML. -/
theorem xmlStr_num (d : Dec) : ∀ c ∈ d.xmlStr, NumC c ∨ c = 'F' := by
  intro c hc
  cases d with
  | fin neg coef exp =>
    rw [xmlStr_fin] at hc
    rcases List.mem_append.mp hc with hc | hc
    · exact Or.inl (signStr_num neg c hc)
    · exact Or.inl (xmlBody_num _ _ c hc)
  | inf neg =>
    rcases List.mem_append.mp hc with hc | hc
    · exact Or.inl (signStr_num neg c hc)
    · have := (by decide : ∀ c ∈ py "INF", c ∈ ['I', 'n', 'f', 'i', 't', 'y', 'N', 'a', 's'] ∨ c = 'F') c hc
      exact this.imp (fun h => Or.inr (Or.inr h)) id
  | nan neg sig p => exact Or.inl (dec_toStr_num (.nan neg sig p) c hc)

theorem xmlStr_ne (d : Dec) : d.xmlStr ≠ [] := by
  cases d with
  | fin neg coef exp =>
    obtain ⟨c, r, h, -⟩ := xmlBody_head coef exp
    rw [xmlStr_fin, h]; simp
  | inf neg => simp [Dec.xmlStr, lit]
  | nan neg sig p => exact dec_toStr_ne (.nan neg sig p)

/-- Reading a number that was written in XML gives its plain form. -/
theorem parse_xmlStr (d : Dec) : Dec.parse d.xmlStr = some d.plain := by
  cases d with
  | inf neg => cases neg <;> decide
  | nan neg sig p => exact dec_parse_toStr (.nan neg sig p)
  | fin neg coef exp =>
    have hn := xmlStr_num (.fin neg coef exp)
    have hs : strip (Dec.xmlStr (.fin neg coef exp)) = Dec.xmlStr (.fin neg coef exp) := strip_noSpace fun c hc => by
      rcases hn c hc with h | rfl
      · exact h.plain.1
      · decide
    have hf : (Dec.xmlStr (.fin neg coef exp)).filter (· ≠ '_') = Dec.xmlStr (.fin neg coef exp) := filter_no_us fun c hc => by
      rcases hn c hc with h | rfl
      · exact h.plain.2.1
      · decide
    unfold Dec.parse
    simp only [hs, hf]
    obtain ⟨c, r, hb, hc⟩ := xmlBody_head coef exp
    rw [xmlStr_fin]
    have hts : takeSign (signStr neg ++ Dec.xmlBody coef exp) = (neg, Dec.xmlBody coef exp) := by
      rw [hb]
      exact takeSign_sign (hc.ne (by unfold DigitC; decide)) (hc.ne (by unfold DigitC; decide))
    simp only [hts]
    have h1 : eqNoCase (Dec.xmlBody coef exp) (py "inf") = false := by
      rw [hb]; exact eqNoCase_digit hc (by unfold DigitC; decide)
    have h2 : eqNoCase (Dec.xmlBody coef exp) (py "infinity") = false := by
      rw [hb]; exact eqNoCase_digit hc (by unfold DigitC; decide)
    have h3 : eqNoCase ((Dec.xmlBody coef exp).take 3) (py "nan") = false := by
      rw [hb]; exact eqNoCase_digit hc (by unfold DigitC; decide)
    have h4 : eqNoCase ((Dec.xmlBody coef exp).take 4) (py "snan") = false := by
      rw [hb]; exact eqNoCase_digit hc (by unfold DigitC; decide)
    simp only [h1, h2, h3, h4, Bool.or_self, Bool.false_and, Bool.false_eq_true, if_false]
    rcases xmlBody_shape coef exp with ⟨i, f, hi, hne, hf, hb', hv⟩ | ⟨i, hi, hne, hb', hv⟩
    · rw [hb', parseNumber_point hi hne hf, hv]
    · rw [hb', parseNumber_int hi hne, hv]

end Ndm
