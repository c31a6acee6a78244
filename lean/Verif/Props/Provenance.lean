import Verif.Lemmas.FromLine
import Verif.Lemmas.FromRoot
import Verif.Props.History
import Verif.Samples

/-! # The reader invents nothing (C37)

The specification (`LineItems`, `Stated`, `From`) is in `Verif/SpecFrom.lean`. -/

namespace Ndm

/-- **C37.** Let `cs` be the non-blank lines of a text, trimmed, and `L` the items each of them states.  Whatever
instance reads the text: everything in the object that is returned was stated by one of these lines, under the keyword
of the field that holds it.  (Words of a line count as stated in ephemerides and tracking data only, `Stated`.) -/
theorem C37_provenance (s : KvnSelf) (src : Str) (ls cs : List Str) (L : List (List Str)) (v : Val)
    (ht : TextLines src ls) (hs : SigLines ls cs) (hL : List.Forall₂ LineItems cs L)
    (h : (s.fromString src).1 = .ok v) : ∃ M vs, v = .obj M vs ∧ From M L false v := by
  rw [kvn_history_independent] at h
  have := kvnFromString_from h
  rwa [splitChar_textLines ht, filterMap_sigLines hs, lineItems_filterMap (sigLines_cores hs) hL] at this

/-- Every text has such lines, and every line such items. -/
theorem C37_lines (src : Str) : ∃ ls cs L, TextLines src ls ∧ SigLines ls cs ∧ List.Forall₂ LineItems cs L := by
  have ht := textLines_exists src
  obtain ⟨cs, hs⟩ := sigLines_exists (splitChar '\n' src)
  obtain ⟨L, hL⟩ := lineItems_exists (sigLines_cores hs)
  exact ⟨_, cs, L, ht, hs, hL⟩

/-- The items stated by a line are unique. -/
theorem C37_items_unique (c : Str) (hc : Trimmed c) (hne : c ≠ []) (l l' : List Str) (h : LineItems c l)
    (h' : LineItems c l') : l = l' := by
  have := ((parseLine_items hc hne).mpr h).symm.trans ((parseLine_items hc hne).mpr h')
  exact Option.some.inj this

/-! ## Examples -/

-- messages that are read successfully
example : (kvnFromString opmText).toOption.isSome = true := by decide +kernel
example : (kvnFromString (oemText (py ""))).toOption.isSome = true := by decide +kernel
example : (kvnFromString (aemText (py "FIRST"))).toOption.isSome = true := by decide +kernel
example : (kvnFromString apmText).toOption.isSome = true := by decide +kernel

-- the items of a line
example : LineItems (py "A = 1 [km]") [py "A", py "1", py "km"] :=
  (parseLine_items (trimmed_iff_strip.mpr (by decide)) (by decide)).mp (by decide)
example : LineItems (py "COMMENT = hello") [py "COMMENT", py "hello"] :=
  (parseLine_items (trimmed_iff_strip.mpr (by decide)) (by decide)).mp (by decide)

-- words of a line count as stated in an ephemeris, not in a parameter message
example : Stated .Oem [[py "2000-01-01 5"]] (py "X") (py "5") [] := .word (by decide) (by decide) List.mem_cons_self (by decide)
example (t : Str) (A : List (Str × Str)) : ¬ Stated .Opm [[py "2000-01-01 5"]] (py "X") t A := by
  intro h
  generalize hk : py "X" = k at h
  cases h with
  | line hl => cases List.mem_singleton.mp hl
  | user hl => exact absurd hk (by decide)
  | word hM _ _ _ => exact absurd hM (by decide)
  | time hM _ _ => cases hM
  | observed hM _ _ => cases hM

-- an object that holds something the lines do not state
theorem header_creation {f : Field} (hf : f ∈ Cls.NdmHeader.fields) (hn : f.name = py "creation_date") :
    f.xmlName = py "CREATION_DATE" ∧ f.kind = .elem := by
  have : ∀ f ∈ Cls.NdmHeader.fields, f.name = py "creation_date" → f.xmlName = py "CREATION_DATE" ∧ f.kind = .elem := by
    decide
  exact this f hf hn

theorem readAs_false {t : FTy} {s x : Str} (h : ReadAs false t s (.str x)) : x = s := by
  cases h
  rfl

example (M : Cls) : ¬ From M [[py "CREATION_DATE", py "2000"], [py "ORIGINATOR", py "1999"]] false
    (.obj .NdmHeader [(py "creation_date", .str (py "1999"))]) := by
  intro h
  cases h with
  | block _ hf =>
    generalize hvs : [(py "creation_date", Val.str (py "1999"))] = vs at hf
    cases hf with
    | nil => cases hvs
    | cons hmem hv hr =>
      obtain ⟨h1, h2⟩ := List.cons.inj hvs
      obtain ⟨hn, rfl⟩ := Prod.mk.inj h1
      obtain ⟨hx, hk⟩ := header_creation hmem hn.symm
      cases hv with
      | one hi =>
        cases hi with
        | text _ hst hrd =>
          have := readAs_false hrd
          subst this
          rw [hx] at hst
          generalize hkk : py "CREATION_DATE" = k at hst
          cases hst with
          | line hl =>
            subst hkk
            simp only [List.mem_cons, List.cons.injEq, List.not_mem_nil, or_false] at hl
            rcases hl with ⟨-, h, -⟩ | ⟨h, -⟩
            · exact absurd h (by decide)
            · exact absurd h (by decide)
          | user _ => exact absurd hkk (by decide)
          | word _ hc _ _ => subst hkk; exact absurd hc (by decide)
          | time _ _ _ => exact absurd hkk (by decide)
          | observed _ hl hw =>
            subst hkk
            simp only [List.mem_cons, List.cons.injEq, List.not_mem_nil, or_false] at hl
            rcases hl with ⟨-, rfl, -⟩ | ⟨h, -⟩
            · rw [show words (py "2000") = [py "2000"] by decide] at hw
              cases hw
            · exact absurd h (by decide)
  | rotation _ hst hsf =>
    generalize hvs : [(py "creation_date", Val.str (py "1999"))] = vs at hsf
    have key : ∀ f ∈ Cls.NdmHeader.fields, f.kind = .elem := by decide
    cases hsf with
    | nil => cases hvs
    | none => cases hvs
    | empty => cases hvs
    | text hm hkd => rw [key _ hm] at hkd; cases hkd
    | attr hm hkd => rw [key _ hm] at hkd; cases hkd

end Ndm
