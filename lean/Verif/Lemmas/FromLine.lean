import Verif.SpecFrom
import Verif.Lemmas.Lines
import Verif.Props.Lines

/-! The lines of a message are split exactly as `LineItems` says. -/

namespace Ndm

theorem mem_first {d : Char} : ∀ {s : Str}, d ∈ s → ∃ a b, s = a ++ d :: b ∧ d ∉ a
  | [], h => by cases h
  | c :: s, h => by
    by_cases hc : c = d
    · exact ⟨[], s, by rw [hc]; rfl, by simp⟩
    · have : d ∈ s := by
        rcases List.mem_cons.mp h with h | h
        · exact absurd h.symm hc
        · exact h
      obtain ⟨a, b, e, ha⟩ := mem_first this
      refine ⟨c :: a, b, by rw [e]; rfl, ?_⟩
      intro h
      rcases List.mem_cons.mp h with h | h
      · exact hc h.symm
      · exact ha h

theorem getLast?_tail {a b : Str} {c : Char} (hb : b ≠ []) : (a ++ c :: b).getLast? = b.getLast? := by
  rw [List.getLast?_append, List.getLast?_cons]
  cases h : b.getLast? with
  | none => exact absurd (List.getLast?_eq_none_iff.mp h) hb
  | some x => simp

theorem commentText_core {r t : Str} (h : CommentText r t) :
    strip (if startsWith (strip r) (py "=") then strip ((strip r).drop 1) else strip r) = t := by
  cases h with
  | plain hc hh =>
    rw [strip_of_core hc, if_neg, strip_trimmed hc.1]
    intro h
    obtain ⟨x, hx⟩ := startsWith_iff.mp h
    apply hh
    rw [← hx]
    rfl
  | eq hc hu =>
    rename_i t'
    have hp : startsWith ('=' :: t') (py "=") = true := startsWith_iff.mpr ⟨t', rfl⟩
    rw [strip_of_core hc, if_pos hp]
    show strip (strip _) = t
    rw [strip_strip]
    exact strip_of_core hu

theorem commentText_strip (r : Str) :
    CommentText r (strip (if startsWith (strip r) (py "=") then strip ((strip r).drop 1) else strip r)) := by
  by_cases h : startsWith (strip r) (py "=") = true
  · rw [if_pos h, strip_strip]
    obtain ⟨x, hx⟩ := startsWith_iff.mp h
    have e : strip r = '=' :: x := hx.symm
    rw [e]
    exact .eq (e ▸ core_strip r) (core_strip x)
  · rw [if_neg h, strip_strip]
    refine .plain (core_strip r) ?_
    intro hh
    apply h
    rw [startsWith_iff]
    cases hs : strip r with
    | nil => rw [hs] at hh; cases hh
    | cons c s => rw [hs] at hh; cases hh; exact ⟨s, rfl⟩

/-- A trimmed, non-empty line is split into exactly the items it states. -/
theorem parseLine_items {c : Str} (hc : Trimmed c) (hne : c ≠ []) {l : List Str} :
    parseLine c = some l ↔ LineItems c l := by
  have hempty : c.isEmpty = false := by cases c with
    | nil => exact absurd rfl hne
    | cons => rfl
  constructor
  · intro h
    simp only [parseLine, strip_trimmed hc, hempty, Bool.false_eq_true, if_false] at h
    split at h
    · rename_i hs
      obtain ⟨r, hr⟩ := startsWith_iff.mp hs
      cases h
      rw [← hr]
      exact .comment (commentText_strip r)
    · rename_i hs
      have hs' : ¬ (py "COMMENT") <+: c := fun h => hs (startsWith_iff.mpr h)
      by_cases heq : '=' ∈ c
      · obtain ⟨a, b, rfl, ha⟩ := mem_first heq
        rw [splitOnce_append ha] at h
        simp only at h
        have hb : rstrip b = b := by
          cases b with
          | nil => rfl
          | cons x b =>
            refine rstrip_of_last fun d hd => hc.2 d ?_
            rw [getLast?_tail (by simp)]
            exact hd
        rw [hb] at h
        split at h
        · rename_i hend
          split at h
          · rename_i hbr
            cases h
            have hbr : '[' ∈ b := by simpa using hbr
            obtain ⟨b1, u, rfl, hb1⟩ := mem_first hbr
            have ht := takeWhile_not_bracket (r := u) hb1
            rw [ht.1, ht.2]
            have hu : u.getLast? = some ']' := by
              obtain ⟨x, hx⟩ := endsWith_iff.mp hend
              have hl : (b1 ++ '[' :: u).getLast? = some ']' := by
                rw [← hx]; exact List.getLast?_concat
              cases u with
              | nil =>
                exfalso
                rw [show b1 ++ ['['] = b1.concat '[' by simp, List.concat_eq_append, List.getLast?_concat] at hl
                revert hl; decide
              | cons x u => rw [getLast?_tail (by simp)] at hl; exact hl
            refine .united hs' ha hb1 hu (core_strip a) (core_strip b1) ?_
            have : List.filter (fun c => decide (c ≠ '[') && decide (c ≠ ']')) ('[' :: u) =
                u.filter fun c => c ≠ '[' && c ≠ ']' := by simp
            rw [this]
            exact core_strip _
          · rename_i hbr
            cases h
            refine .value hs' ha (core_strip a) (core_strip b) ?_
            rintro ⟨h1, -⟩
            apply hbr
            obtain ⟨-, w, w', -, -, e⟩ := core_strip b
            have : '[' ∈ b := by rw [e]; simp [h1]
            simpa using this
        · rename_i hend
          cases h
          refine .value hs' ha (core_strip a) (core_strip b) ?_
          rintro ⟨-, h2⟩
          apply hend
          have e : strip b = lstrip b := by
            have : strip b = rstrip (lstrip b) := rfl
            rw [this]
            cases hlb : lstrip b with
            | nil => rfl
            | cons x y =>
              refine rstrip_of_last fun d hd => ?_
              obtain ⟨w, hw, hsb, -⟩ := dropWhile_decomp isSpace b
              have hsb : b = w ++ lstrip b := hsb
              apply hc.2 d
              rw [hsb, hlb]
              rw [show a ++ '=' :: (w ++ x :: y) = (a ++ '=' :: w) ++ x :: y by simp, List.getLast?_append, hd]
              rfl
          rw [endsWith_iff]
          obtain ⟨-, w, w', -, -, e2⟩ := core_strip b
          obtain ⟨w0, hw, hsb, -⟩ := dropWhile_decomp isSpace b
          have hsb : b = w0 ++ lstrip b := hsb
          rw [← e] at hsb
          obtain ⟨ini, hini⟩ : ∃ ini, strip b = ini ++ [']'] := by
            obtain ⟨hne, hlast⟩ := List.getLast?_eq_some_iff.mp h2
            exact ⟨_, hlast⟩
          rw [hsb, hini]
          exact ⟨w0 ++ ini, by simp [lit]⟩
      · rw [splitOnce_self heq] at h
        cases h
        have := LineItems.bare hs' heq
        simpa [strip_trimmed hc] using this
  · intro h
    cases h with
    | comment ht =>
      rename_i r t
      have hs : startsWith ((py "COMMENT") ++ r) (py "COMMENT") = true := startsWith_iff.mpr ⟨r, rfl⟩
      simp only [parseLine, strip_trimmed hc, hempty, Bool.false_eq_true, if_false, hs, if_true]
      have := commentText_core ht
      rw [show List.drop 7 ((py "COMMENT") ++ r) = r from rfl]
      simp only [List.map_cons, List.map_nil]
      rw [this]
      rfl
    | bare hs he =>
      have hs' : startsWith c (py "COMMENT") = false := by
        rw [Bool.eq_false_iff]; exact fun h => hs (startsWith_iff.mp h)
      simp only [parseLine, strip_trimmed hc, hempty, Bool.false_eq_true, if_false, hs', splitOnce_self he]
      simp [strip_trimmed hc]
    | value hs ha hk ht hu =>
      rename_i a b k t
      have hs' : startsWith (a ++ '=' :: b) (py "COMMENT") = false := by
        rw [Bool.eq_false_iff]; exact fun h => hs (startsWith_iff.mp h)
      simp only [parseLine, strip_trimmed hc, hempty, Bool.false_eq_true, if_false, hs', splitOnce_append ha]
      have hb : rstrip b = b := by
        cases b with
        | nil => rfl
        | cons x b =>
          refine rstrip_of_last fun d hd => hc.2 d ?_
          rw [getLast?_tail (by simp)]
          exact hd
      rw [hb]
      have hno : ¬ (endsWith b (py "]") = true ∧ b.contains '[' = true) := by
        rintro ⟨h1, h2⟩
        apply hu
        have hbr : '[' ∈ b := by simpa using h2
        obtain ⟨-, w, w', hw, hw', e⟩ := ht
        obtain ⟨x, hx⟩ := endsWith_iff.mp h1
        have hl : b.getLast? = some ']' := by rw [← hx]; exact List.getLast?_concat
        have hw'' : w' = [] := by
          cases hlw : w'.getLast? with
          | none => exact List.getLast?_eq_none_iff.mp hlw
          | some z =>
            rw [e, List.getLast?_append, hlw] at hl
            have hz : z = ']' := by simpa using hl
            have := hw' z (List.mem_of_getLast? hlw)
            rw [hz] at this
            exact absurd this (by decide)
        subst hw''
        rw [List.append_nil] at e
        subst e
        have hm : '[' ∈ t := by
          rcases List.mem_append.mp hbr with h | h
          · exact absurd (hw _ h) (by decide)
          · exact h
        refine ⟨hm, ?_⟩
        rw [List.getLast?_append] at hl
        cases hlt : t.getLast? with
        | none => rw [List.getLast?_eq_none_iff.mp hlt] at hm; cases hm
        | some z => rw [hlt] at hl; simpa using hl
      have hk := strip_of_core hk
      have ht := strip_of_core ht
      split
      · rename_i h1
        split
        · rename_i h2; exact absurd ⟨h1, h2⟩ hno
        · simp [hk, ht]
      · simp [hk, ht]
    | united hs ha hb hu hk ht hv =>
      rename_i a b u k t v
      have hs' : startsWith (a ++ '=' :: (b ++ '[' :: u)) (py "COMMENT") = false := by
        rw [Bool.eq_false_iff]; exact fun h => hs (startsWith_iff.mp h)
      simp only [parseLine, strip_trimmed hc, hempty, Bool.false_eq_true, if_false, hs', splitOnce_append ha]
      have hune : u ≠ [] := by rintro rfl; cases hu
      have hbr : rstrip (b ++ '[' :: u) = b ++ '[' :: u := by
        refine rstrip_of_last fun d hd => hc.2 d ?_
        rw [getLast?_tail (by simp)]
        exact hd
      rw [hbr]
      have hend : endsWith (b ++ '[' :: u) (py "]") = true := by
        rw [endsWith_iff]
        obtain ⟨ini, hini⟩ : ∃ ini, u = ini ++ [']'] := by
          obtain ⟨_, hlast⟩ := List.getLast?_eq_some_iff.mp hu
          exact ⟨_, hlast⟩
        exact ⟨b ++ '[' :: ini, by rw [hini]; simp [lit]⟩
      have hcon : (b ++ '[' :: u).contains '[' = true := by simp
      rw [if_pos hend, if_pos hcon]
      have htw := takeWhile_not_bracket (r := u) hb
      rw [htw.1, htw.2]
      have : List.filter (fun c => decide (c ≠ '[') && decide (c ≠ ']')) ('[' :: u) =
          u.filter fun c => c ≠ '[' && c ≠ ']' := by simp
      rw [this]
      simp only [List.map_cons, List.map_nil, strip_of_core hk, strip_of_core ht, strip_of_core hv]

theorem sigLines_cores {ls cs : List Str} (h : SigLines ls cs) : ∀ c ∈ cs, Trimmed c ∧ c ≠ [] := by
  induction h with
  | nil => intro c hc; cases hc
  | blank _ _ ih => exact ih
  | line hcore hne _ ih =>
    intro x hx
    rcases List.mem_cons.mp hx with rfl | hx
    · exact ⟨hcore.1, hne⟩
    · exact ih x hx

theorem lineItems_filterMap : ∀ {cs : List Str} {L : List Line}, (∀ c ∈ cs, Trimmed c ∧ c ≠ []) →
    List.Forall₂ LineItems cs L → cs.filterMap parseLine = L
  | _, _, _, .nil => rfl
  | c :: cs, l :: L, hc, .cons h hs => by
    have h1 := (parseLine_items (hc c List.mem_cons_self).1 (hc c List.mem_cons_self).2).mpr h
    rw [List.filterMap_cons, h1]
    simp only
    rw [lineItems_filterMap (fun x hx => hc x (List.mem_cons_of_mem _ hx)) hs]

theorem lineItems_exists : ∀ {cs : List Str}, (∀ c ∈ cs, Trimmed c ∧ c ≠ []) →
    ∃ L, List.Forall₂ LineItems cs L
  | [], _ => ⟨[], .nil⟩
  | c :: cs, hc => by
    obtain ⟨L, hL⟩ := lineItems_exists (fun x hx => hc x (List.mem_cons_of_mem _ hx))
    have h0 := hc c List.mem_cons_self
    have : ∃ l, parseLine c = some l := by
      have hempty : c.isEmpty = false := by cases c with
        | nil => exact absurd rfl h0.2
        | cons => rfl
      simp only [parseLine, strip_trimmed h0.1, hempty, Bool.false_eq_true, if_false]
      split <;> exact ⟨_, rfl⟩
    obtain ⟨l, hl⟩ := this
    exact ⟨l :: L, .cons ((parseLine_items h0.1 h0.2).mp hl) hL⟩

end Ndm
