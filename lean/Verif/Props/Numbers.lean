import Verif.Lemmas.Num
import Verif.Props.Lines
import Verif.Write

/-! # C10: numbers survive being written and read -/

namespace Ndm

/-- **C10** (decimals).  `Decimal(str(d))` is `d`, with the same sign, digits and exponent, for every decimal
(infinities and NaNs included). -/
theorem C10_decimal (d : Dec) : Dec.parse (pyStr (.dec d)) = some d := dec_parse_toStr d

/-- **C10** (integers). -/
theorem C10_int (i : Int) : parseInt (pyStr (.int i)) = some i := parseInt_intStr i

theorem trimmed_of_num {s : Str} (h : ∀ c ∈ s, NumC c) : Trimmed s :=
  ⟨fun c hc => (h c (List.mem_of_mem_head? hc)).plain.1, fun c hc => (h c (List.mem_of_getLast? hc)).plain.1⟩

/-- **C10** (through the file).  The line written for a decimal, with or without unit, is read as the keyword, a value
text that converts to exactly that decimal, and the unit; likewise for integers. -/
theorem C10_line (key unit : Str) (hk : Keyword (upper key)) (hun : unit ≠ []) (hu : Trimmed unit)
    (hub : '[' ∉ unit ∧ ']' ∉ unit) :
    (∀ d : Dec, ∃ t, convText .dec t = .dec d ∧
      parseLine (fillKvn key (pyStr (.dec d)) none) = some [upper key, t] ∧
      parseLine (fillKvn key (pyStr (.dec d)) (some unit)) = some [upper key, t, unit]) ∧
    (∀ i : Int, ∃ t, convText .int t = .int i ∧
      parseLine (fillKvn key (pyStr (.int i)) none) = some [upper key, t] ∧
      parseLine (fillKvn key (pyStr (.int i)) (some unit)) = some [upper key, t, unit]) := by
  constructor
  · intro d
    have hn : ∀ c ∈ pyStr (.dec d), NumC c := dec_toStr_num d
    have hb : '[' ∉ pyStr (.dec d) := fun hc => (hn _ hc).plain.2.2.1 rfl
    exact ⟨pyStr (.dec d), by simp [convText, C10_decimal],
      C08_value _ _ hk (trimmed_of_num hn) fun h => hb h.1, C08_unit _ _ _ hk (trimmed_of_num hn) hb hun hu hub⟩
  · intro i
    have hn : ∀ c ∈ pyStr (.int i), NumC c := intStr_num i
    have hb : '[' ∉ pyStr (.int i) := fun hc => (hn _ hc).plain.2.2.1 rfl
    exact ⟨pyStr (.int i), by simp [convText, C10_int],
      C08_value _ _ hk (trimmed_of_num hn) fun h => hb h.1, C08_unit _ _ _ hk (trimmed_of_num hn) hb hun hu hub⟩

example : pyStr (.dec (.fin true 12345 (-2))) = py "-123.45" := by decide
example : pyStr (.dec (.fin false 5 (-9))) = py "5E-9" := by decide
example : pyStr (.dec (.fin false 12 7)) = py "1.2E+8" := by decide
example : pyStr (.dec (.fin false 12 (-7))) = py "0.0000012" := by decide
example : ∃ unit, unit ≠ [] ∧ Trimmed unit ∧ '[' ∉ unit ∧ ']' ∉ unit :=
  ⟨py "km", by decide, trimmed_iff_strip.mpr (by decide), by decide, by decide⟩

end Ndm
