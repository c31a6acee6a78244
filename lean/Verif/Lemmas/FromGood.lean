import Verif.Lemmas.XmlTexts
import Verif.SpecFrom
import Verif.Lemmas.EphOem

/-! # Objects made from lines XML can hold hold texts XML can hold -/

namespace Ndm

/-- A character that may occur in a text XML can hold. -/
def goodChar (c : Char) : Bool := xmlChar c && c != '\r'

theorem goodText_iff {s : Str} : goodText s = true ↔ ∀ c ∈ s, goodChar c = true := by
  unfold goodText xmlText goodChar
  simp only [Bool.and_eq_true, List.all_eq_true, List.contains_eq_mem, Bool.not_eq_true', decide_eq_false_iff_not, bne_iff_ne]
  constructor
  · rintro ⟨h1, h2⟩ c hc
    exact ⟨h1 c hc, fun e => h2 (e ▸ hc)⟩
  · intro h
    exact ⟨fun c hc => (h c hc).1, fun hc => (h _ hc).2 rfl⟩

theorem goodText_sub {s t : Str} (h : goodText s = true) (ht : ∀ c ∈ t, c ∈ s) : goodText t = true :=
  goodText_iff.mpr fun c hc => goodText_iff.mp h c (ht c hc)

theorem core_sub {s t : Str} (h : Core s t) : ∀ c ∈ t, c ∈ s := by
  obtain ⟨-, w, w', -, -, rfl⟩ := h
  intro c hc
  simp [hc]

theorem removeGo_sub {p : Str} : ∀ {s : Str} {n : Nat}, ∀ c ∈ removeGo p n s, c ∈ s
  | [], n, c, h => by cases n <;> simp [removeGo] at h
  | a :: s, n, c, h => by
    cases n with
    | zero =>
      rw [removeGo] at h
      split at h
      · exact List.mem_cons_of_mem _ (removeGo_sub c h)
      · rcases List.mem_cons.mp h with rfl | h
        · exact List.mem_cons_self
        · exact List.mem_cons_of_mem _ (removeGo_sub c h)
    | succ n =>
      rw [removeGo] at h
      exact List.mem_cons_of_mem _ (removeGo_sub c h)

theorem words_good {s w : Str} (hs : goodText s = true) (hw : w ∈ words s) : goodText w = true :=
  goodText_sub hs fun c hc => by simpa using wordsGo_chars hw c hc

/-- Every item is a text XML can hold. -/
def AllGood (L : List (List Str)) : Prop := ∀ l ∈ L, ∀ s ∈ l, goodText s = true

theorem lineItems_good {c : Str} {l : List Str} (h : LineItems c l) (hc : goodText c = true) : ∀ s ∈ l, goodText s = true := by
  cases h with
  | comment ht =>
    intro s hs
    simp only [List.mem_cons, List.not_mem_nil, or_false] at hs
    rcases hs with rfl | rfl
    · decide
    · refine goodText_sub hc fun c hc => List.mem_append_right _ ?_
      cases ht with
      | plain h _ => exact core_sub h c hc
      | eq h1 h2 => exact core_sub h1 c (List.mem_cons_of_mem _ (core_sub h2 c hc))
  | bare => simpa using hc
  | value _ _ ha hb _ =>
    intro s hs
    simp only [List.mem_cons, List.not_mem_nil, or_false] at hs
    rcases hs with rfl | rfl
    · exact goodText_sub hc fun c hc => List.mem_append_left _ (core_sub ha c hc)
    · exact goodText_sub hc fun c hc => List.mem_append_right _ (List.mem_cons_of_mem _ (core_sub hb c hc))
  | united _ _ _ _ ha hb hu =>
    intro s hs
    simp only [List.mem_cons, List.not_mem_nil, or_false] at hs
    rcases hs with rfl | rfl | rfl
    · exact goodText_sub hc fun c hc => List.mem_append_left _ (core_sub ha c hc)
    · exact goodText_sub hc fun c hc => by
        have := core_sub hb c hc
        simp [this]
    · exact goodText_sub hc fun c hc => by
        have := (List.mem_filter.mp (core_sub hu c hc)).1
        simp [this]

theorem items_allGood {cs : List Str} {L : List (List Str)} (hcs : ∀ c ∈ cs, goodText c = true) (hL : List.Forall₂ LineItems cs L) :
    AllGood L := by
  intro l hl
  obtain ⟨c, hc, hi⟩ := forall₂_left hL.flip hl
  exact lineItems_good hi (hcs c hc)

theorem readAs_good {att : Bool} {ty : FTy} {s : Str} {v : Val} (h : ReadAs att ty s v) (hs : goodText s = true) : v.goodTexts = true := by
  induction h with
  | text => exact hs
  | int => rfl
  | dec => rfl
  | enum => rfl
  | plain => rfl
  | untyped _ _ ih1 ih2 => exact ih2 (goodText_sub (ih1 hs) fun c hc => removeGo_sub c hc)

theorem stated_good {M : Cls} {L : List (List Str)} (hL : AllGood L) {k t : Str} {A : List (Str × Str)} (h : Stated M L k t A) :
    goodText t = true ∧ ∀ a ∈ A, goodText a.2 = true := by
  have unit : ∀ {k t : Str} {r : List Str}, (k :: t :: r) ∈ L → ∀ a ∈ unitOf r, goodText a.2 = true := by
    intro k t r hm a ha
    cases r with
    | nil => cases ha
    | cons u r =>
      have : a = (py "units", u) := by simpa [unitOf] using ha
      subst this
      exact hL _ hm u (by simp)
  cases h with
  | line hm => exact ⟨hL _ hm _ (by simp), unit hm⟩
  | user hm =>
    refine ⟨hL _ hm _ (by simp), fun a ha => ?_⟩
    have : a = _ := List.mem_singleton.mp ha
    subst this
    exact goodText_sub (hL _ hm _ (by simp)) fun c hc => removeGo_sub c hc
  | word _ _ hm hw => exact ⟨words_good (hL _ hm _ (by simp)) hw, fun a ha => nomatch ha⟩
  | time _ hm hw => exact ⟨words_good (hL _ hm _ (List.mem_cons_of_mem _ List.mem_cons_self)) (by rw [hw]; simp), fun a ha => nomatch ha⟩
  | observed _ hm hw => exact ⟨words_good (hL _ hm _ (List.mem_cons_of_mem _ List.mem_cons_self)) (by rw [hw]; simp), fun a ha => nomatch ha⟩

theorem statedRotation_good {M : Cls} {L : List (List Str)} (hL : AllGood L) {k t : Str} {A : List (Str × Str)} (h : StatedRotation M L k t A) :
    goodText k = true ∧ goodText t = true ∧ ∀ a ∈ A, goodText a.2 = true := by
  cases h with
  | line hm => exact ⟨hL _ hm _ (by simp), stated_good (M := M) hL (.line hm)⟩
  | word _ hm hw _ _ ha =>
    refine ⟨?_, words_good (hL _ hm _ (by simp)) hw, fun a ha => nomatch ha⟩
    cases ha <;> decide

theorem simple_good {att : Bool} {c : Cls} {t : Str} {A : List (Str × Str)} {vs : List (Str × Val)} (h : SimpleFrom att c t A vs)
    (ht : goodText t = true) (hA : ∀ a ∈ A, goodText a.2 = true) : goodVars vs = true := by
  induction h with
  | nil => rfl
  | none _ ih => simpa [goodVars, Val.goodTexts] using ih
  | empty _ ih => simpa [goodVars, Val.goodTexts, goodList] using ih
  | text _ _ hv _ ih => simp [goodVars, readAs_good hv ht, ih]
  | attr _ _ hm hv _ ih => simp [goodVars, readAs_good hv (hA _ hm), ih]

mutual
theorem from_good {M : Cls} {L : List (List Str)} (hL : AllGood L) : ∀ {att : Bool} {v : Val}, From M L att v → v.goodTexts = true
  | _, _, .block _ h => by rw [Val.goodTexts]; exact fieldsFrom_good hL h
  | _, _, .rotation _ hs h => by
    obtain ⟨h1, h2, h3⟩ := statedRotation_good hL hs
    rw [Val.goodTexts]
    refine simple_good h h2 fun a ha => ?_
    rcases List.mem_cons.mp ha with rfl | ha
    · exact h1
    · exact h3 a ha
  | _, _, .attitude h => from_good hL h

theorem fieldsFrom_good {M : Cls} {L : List (List Str)} (hL : AllGood L) : ∀ {att : Bool} {c : Cls} {vs : List (Str × Val)},
    FieldsFrom M L att c vs → goodVars vs = true
  | _, _, _, .nil => rfl
  | _, _, _, .cons _ hv hr => by rw [goodVars, fieldFrom_good hL hv, fieldsFrom_good hL hr]; rfl

theorem fieldFrom_good {M : Cls} {L : List (List Str)} (hL : AllGood L) : ∀ {att : Bool} {f : Field} {v : Val},
    FieldFrom M L att f v → v.goodTexts = true
  | _, _, _, .none => rfl
  | _, _, _, .list h => by rw [Val.goodTexts]; exact itemsFrom_good hL h
  | _, _, _, .one h => itemFrom_good hL h

theorem itemsFrom_good {M : Cls} {L : List (List Str)} (hL : AllGood L) : ∀ {att : Bool} {f : Field} {vs : List Val},
    ItemsFrom M L att f vs → goodList vs = true
  | _, _, _, .nil => rfl
  | _, _, _, .cons hv hr => by rw [goodList, itemFrom_good hL hv, itemsFrom_good hL hr]; rfl

theorem itemFrom_good {M : Cls} {L : List (List Str)} (hL : AllGood L) : ∀ {att : Bool} {f : Field} {v : Val},
    ItemFrom M L att f v → v.goodTexts = true
  | _, _, _, .text _ hs hv => readAs_good hv (stated_good hL hs).1
  | _, _, _, .simple _ _ hs h => by
    rw [Val.goodTexts]
    exact simple_good h (stated_good hL hs).1 (stated_good hL hs).2
  | _, _, _, .block _ _ h => from_good hL h
end

end Ndm
