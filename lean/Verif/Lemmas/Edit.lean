import Verif.SpecEdit
import Verif.Write
import Verif.Lemmas.Exc
import Verif.Lemmas.Num
import Verif.Lemmas.Lines

/-! What the writer does with an edited object. -/

namespace Ndm

variable {k : Str}

/-- The lines without those of `k` that are one line. -/
def keptLines (k : Str) (ls : List Str) : List Str := ls.filter fun l => !((lineStart k).isPrefixOf l && decide ('\n' ∉ l))

theorem keptLines_append (a b : List Str) : keptLines k (a ++ b) = keptLines k a ++ keptLines k b := List.filter_append ..

theorem otherLines_append (a b : List Str) : otherLines k (a ++ b) = otherLines k a ++ otherLines k b := List.filter_append ..

theorem otherLines_kept (ls : List Str) : otherLines k (keptLines k ls) = otherLines k ls := by
  unfold otherLines keptLines
  rw [List.filter_filter]
  refine List.filter_congr fun l _ => ?_
  cases (lineStart k).isPrefixOf l <;> simp

theorem otherLines_split (ls : List Str) :
    otherLines k (ls.flatMap (splitChar '\n')) = otherLines k ((keptLines k ls).flatMap (splitChar '\n')) := by
  induction ls with
  | nil => rfl
  | cons l ls ih =>
    rw [List.flatMap_cons, otherLines_append, ih]
    by_cases hp : (lineStart k).isPrefixOf l = true
    · by_cases hn : '\n' ∉ l
      · have : keptLines k (l :: ls) = keptLines k ls := by simp [keptLines, hp, hn]
        rw [this, splitChar_self hn]
        simp [otherLines, hp]
      · have : keptLines k (l :: ls) = l :: keptLines k ls := by
          have hn : '\n' ∈ l := by simpa using hn
          simp [keptLines, hn]
        rw [this, List.flatMap_cons, otherLines_append]
    · have : keptLines k (l :: ls) = l :: keptLines k ls := by simp [keptLines, hp]
      rw [this, List.flatMap_cons, otherLines_append]

theorem splitChar_append_split (d : Char) (a s : Str) : splitChar d (a ++ d :: s) = splitChar d a ++ splitChar d s := by
  induction a with
  | nil => simp [splitChar]
  | cons c a ih =>
    by_cases hc : c = d
    · subst hc
      simp [splitChar, ih]
    · obtain ⟨l, ls, h1, h2⟩ := splitChar_cons_ne hc a
      obtain ⟨l', ls', h1', h2'⟩ := splitChar_cons_ne hc (a ++ d :: s)
      rw [List.cons_append, h2', h2]
      rw [ih, h1] at h1'
      simp only [List.cons_append, List.cons.injEq] at h1'
      rw [← h1'.1, ← h1'.2]
      rfl

theorem splitChar_join (d : Char) : ∀ {ls : List Str}, ls ≠ [] → splitChar d (joinWith [d] ls) = ls.flatMap (splitChar d)
  | [], h => absurd rfl h
  | [l], _ => by simp [joinWith]
  | l :: m :: ls, _ => by
    rw [List.flatMap_cons, ← splitChar_join d (ls := m :: ls) (by simp)]
    rw [← splitChar_append_split]
    simp [joinWith]

theorem fillKvn_start (s : Str) (u : Option Str) : (lineStart k).isPrefixOf (fillKvn k s u) = true := by
  rw [List.isPrefixOf_iff_prefix]
  unfold lineStart fillKvn
  cases u with
  | none => exact List.prefix_append _ _
  | some u =>
    dsimp only
    split
    · exact List.prefix_append _ _
    · exact ⟨ljust 18 s ++ py "[" ++ u ++ py "]", by simp only [List.append_assoc]⟩

theorem ljust_line {n : Nat} {s : Str} (h : '\n' ∉ s) : '\n' ∉ ljust n s := by
  simp [ljust, h]

theorem fillKvn_line (hk : '\n' ∉ upper k) {s : Str} {u : Option Str} (hs : '\n' ∉ s) (hu : ∀ x, u = some x → '\n' ∉ x) :
    '\n' ∉ fillKvn k s u := by
  have h1 := ljust_line (n := 20) hk
  have h2 := ljust_line (n := 18) hs
  have h3 : '\n' ∉ py " = " := by decide
  have h4 : '\n' ∉ py "[" := by decide
  have h5 : '\n' ∉ py "]" := by decide
  unfold fillKvn
  cases u with
  | none => simp only [List.mem_append, not_or]; exact ⟨⟨h1, h3⟩, hs⟩
  | some u =>
    dsimp only
    split
    · simp only [List.mem_append, not_or]; exact ⟨⟨h1, h3⟩, hs⟩
    · simp only [List.mem_append, not_or]; exact ⟨⟨⟨⟨⟨h1, h3⟩, h2⟩, h4⟩, hu u rfl⟩, h5⟩

/-- A line of `k`. -/
def KeyLine (k l : Str) : Prop := (lineStart k).isPrefixOf l = true ∧ '\n' ∉ l

theorem keptLines_all {ls : List Str} (h : ∀ l ∈ ls, KeyLine k l) : keptLines k ls = [] := by
  unfold keptLines
  rw [List.filter_eq_nil_iff]
  intro l hl
  simp [(h l hl).1, (h l hl).2]

/-- The type of the quaternions is found in lines that are not edited. -/
theorem quatLast_other (hk : ¬ py "QUATERNION_TYPE" <+: upper k) {out out' : List Str} (h : keptLines k out = keptLines k out') :
    quatLast out = quatLast out' := by
  have key : ∀ out, (out.reverse.find? fun x => startsWith x (py "QUATERNION_TYPE")) =
      ((keptLines k out).reverse.find? fun x => startsWith x (py "QUATERNION_TYPE")) := by
    intro out
    unfold keptLines
    rw [← List.filter_reverse, List.find?_filter]
    congr 1
    funext x
    by_cases hx : startsWith x (py "QUATERNION_TYPE") = true
    · rw [hx]
      suffices (lineStart k).isPrefixOf x = false by simp [this]
      by_contra hp
      have hp : lineStart k <+: x := List.isPrefixOf_iff_prefix.mp (by simpa using hp)
      have hq : py "QUATERNION_TYPE" <+: x := List.isPrefixOf_iff_prefix.mp hx
      have h15 : (py "QUATERNION_TYPE").length = 15 := by decide
      by_cases hl : 15 ≤ (upper k).length
      · refine hk (List.prefix_of_prefix_length_le hq (((List.prefix_append _ _).trans (List.prefix_append _ _)).trans hp) (by rw [h15]; exact hl))
      · have hl : (upper k).length < 15 := by omega
        have hlen : 15 ≤ (lineStart k).length := by simp [lineStart, ljust]; omega
        have hqp : py "QUATERNION_TYPE" <+: lineStart k := List.prefix_of_prefix_length_le hq hp (by rw [h15]; exact hlen)
        have hc : ∀ (i : Nat) (hi : i < (py "QUATERNION_TYPE").length), (py "QUATERNION_TYPE")[i] ≠ ' ' := by
          intro i hi hc
          exact absurd (hc ▸ List.getElem_mem hi) (by decide)
        have hi : (upper k).length < (py "QUATERNION_TYPE").length := by rw [h15]; exact hl
        refine hc _ hi ?_
        rw [hqp.getElem hi]
        have : 0 < 20 - (upper k).length := by omega
        simp [lineStart, ljust, List.getElem_append, this]
    · simp [hx]
  unfold quatLast
  rw [key out, key out', h]

theorem editedVars_refl : ∀ vs : List (Str × Val), EditedVars k vs vs
  | [] => .nil
  | p :: vs => .same (editedVars_refl vs)

theorem editedAll_refl : ∀ xs : List Val, EditedAll k xs xs
  | [] => .nil
  | x :: xs => .cons (.same x) (editedAll_refl xs)

theorem editedVars_names {vs ws : List (Str × Val)} (h : EditedVars k vs ws) : vs.map (·.1) = ws.map (·.1) := by
  induction vs generalizing ws with
  | nil => cases h; rfl
  | cons p vs ih =>
    cases h with
    | same h => simp [ih h]
    | inside _ _ _ h => simp [ih h]
    | field _ _ h => simp [ih h]

theorem any_names {vs ws : List (Str × Val)} (h : vs.map (·.1) = ws.map (·.1)) (p : Str → Bool) :
    vs.any (fun q => p q.1) = ws.any (fun q => p q.1) := by
  have := congrArg (fun l => l.any p) h
  simpa [List.any_map, Function.comp_def] using this

theorem mark_none {c : Cls} (h : c ∉ markedClasses) : headerName c = none := by
  unfold headerName
  split <;> first | rfl | exact absurd (by decide) h

theorem numC_line {s : Str} (h : ∀ c ∈ s, NumC c) : '\n' ∉ s := by
  intro hc
  exact (h _ hc).plain.2.2.2.2.2.1 rfl

/-- The lines of a value of the edited attribute. -/
theorem field_lines (hn : '\n' ∉ upper k) {x : Val} (h : FieldValue k x) (out : List Str) :
    ∃ ls, collateSub k out x = .ok (out ++ ls) ∧ ∀ l ∈ ls, KeyLine k l := by
  have one : ∀ (s : Str) (u : Option Str), '\n' ∉ s → (∀ x, u = some x → '\n' ∉ x) → ∀ l ∈ [fillKvn k s u], KeyLine k l := by
    intro s u hs hu l hl
    cases List.mem_singleton.mp hl
    exact ⟨fillKvn_start s u, fillKvn_line hn hs hu⟩
  cases h with
  | none h1 h2 => exact ⟨[], by simp only [collateSub, h1, h2, or_self, if_false, List.append_nil], by simp⟩
  | @str _ s h => exact ⟨[fillKvn k s none], by simp only [collateSub], one _ _ h (by simp)⟩
  | @int _ i => exact ⟨[fillKvn k (intStr i) none], by simp only [collateSub], one _ _ (numC_line (intStr_num _)) (by simp)⟩
  | @dec _ d h1 =>
    exact ⟨[fillKvn k d.toStr none], by simp only [collateSub, h1, if_false], one _ _ (numC_line (dec_toStr_num _)) (by simp)⟩
  | @enum _ s c h1 h => exact ⟨[fillKvn k s none], by simp only [collateSub, h1, if_false]; rfl, one _ _ h (by simp)⟩
  | @bare _ c x h1 h2 h3 =>
    have hv : writeValueObj k [(py "value", x), (py "units", .none)] = .ok (fillKvn k (pyStr x) none) := rfl
    have hu : List.any [(py "value", x), (py "units", Val.none)] (·.1 == py "units") = true := rfl
    refine ⟨[fillKvn k (pyStr x) none], ?_, one _ none h3 (by simp)⟩
    simp only [collateSub, mark_none h2, withHeader, h1, if_false, hu, if_true, hv]
    rfl
  | @quantity _ u c d x h1 h2 h3 h4 =>
    have hv : writeValueObj k [(py "value", x), (py "units", .enum d u)] =
      .ok (fillKvn k (pyStr x) (if Val.truthy (.str u) then some u else none)) := rfl
    have hu : List.any [(py "value", x), (py "units", Val.enum d u)] (·.1 == py "units") = true := rfl
    refine ⟨[fillKvn k (pyStr x) (if Val.truthy (.str u) then some u else none)], ?_, one _ _ h3 ?_⟩
    · simp only [collateSub, mark_none h2, withHeader, h1, if_false, hu, if_true, hv]
      rfl
    · intro x hx
      split at hx
      · cases hx; exact h4
      · cases hx
  | @comments xs h =>
    refine ⟨xs.map fun x => fillKvn (py "comment") (pyStr x) none, by simp only [collateSub, if_true], ?_⟩
    intro l hl
    obtain ⟨x, hx, rfl⟩ := List.mem_map.mp hl
    exact ⟨fillKvn_start _ _, fillKvn_line hn (h x hx) (by simp)⟩

/-- The two lists of lines grow alike. -/
def Grow (k : Str) (r : Except PyErr (List Str)) (r' : Except PyErr (List Str)) : Prop :=
  ∀ o, r = .ok o → ∃ o', r' = .ok o' ∧ keptLines k o = keptLines k o'

theorem withHeader_edit {h : Option Str} {bf af : Str → List Str} {out out' : List Str} {body body' : List Str → Except PyErr (List Str)}
    (ho : keptLines k out = keptLines k out')
    (hb : ∀ o o', keptLines k o = keptLines k o' → Grow k (body o) (body' o')) :
    Grow k (withHeader h bf af out body) (withHeader h bf af out' body') := by
  intro o hw
  unfold withHeader at hw ⊢
  cases h with
  | none => exact hb _ _ ho o hw
  | some h =>
    obtain ⟨o2, h2, rfl⟩ := map_ok_iff.mp hw
    obtain ⟨o3, h3, h4⟩ := hb (out ++ bf h) (out' ++ bf h) (by rw [keptLines_append, keptLines_append, ho]) o2 h2
    exact ⟨o3 ++ af h, by dsimp only; rw [h3]; rfl, by rw [keptLines_append, keptLines_append, h4]⟩

theorem append_edit {out out' ls : List Str} (ho : keptLines k out = keptLines k out') :
    keptLines k (out ++ ls) = keptLines k (out' ++ ls) := by rw [keptLines_append, keptLines_append, ho]

theorem writeSpecial_out (hk : ¬ py "QUATERNION_TYPE" <+: upper k) (key : Str) (c : Cls) (vs : List (Str × Val)) {out out' : List Str}
    (ho : keptLines k out = keptLines k out') : writeSpecial key c vs out = writeSpecial key c vs out' := by
  have h := quatLast_other hk ho
  unfold writeSpecial writeAttitude attLine quaternionLine
  rw [h]

theorem field_edit (hn : '\n' ∉ upper k) {x y : Val} (hx : FieldValue k x) (hy : FieldValue k y) {out out' : List Str}
    (ho : keptLines k out = keptLines k out') : Grow k (collateSub k out x) (collateSub k out' y) := by
  intro o h
  obtain ⟨ls, h1, h2⟩ := field_lines hn hx out
  obtain ⟨ls', h1', h2'⟩ := field_lines hn hy out'
  rw [h1] at h
  cases h
  exact ⟨_, h1', by rw [keptLines_append, keptLines_append, keptLines_all h2, keptLines_all h2', ho]⟩

/-- How an attribute may have been edited. -/
def Slot (k n : Str) (x y : Val) : Prop :=
  x = y ∨ (n ≠ py "comment" ∧ n ≠ py "user_defined" ∧ Edited k x y) ∨ (n = k ∧ FieldValue k x ∧ FieldValue k y)

theorem edited_obj {c : Cls} {vs : List (Str × Val)} {y : Val} (h : Edited k (.obj c vs) y) :
    ∃ ws, y = .obj c ws ∧ EditedVars k vs ws ∧ (vs = ws ∨ c ∉ dataLineClasses ∧ ∀ p ∈ vs, p.1 ≠ py "units") := by
  cases h with
  | same => exact ⟨vs, rfl, editedVars_refl vs, .inl rfl⟩
  | obj h1 h2 h3 => exact ⟨_, rfl, h3, .inr ⟨h1, h2⟩⟩

theorem not_special {c : Cls} (h : c ∉ dataLineClasses) : isSpecialOut c = false := by
  simp only [dataLineClasses, List.mem_cons, List.not_mem_nil, or_false, not_or] at h
  simp [isSpecialOut, h]

theorem unitless_any {vs : List (Str × Val)} (h : ∀ p ∈ vs, p.1 ≠ py "units") : vs.any (·.1 == py "units") = false := by
  simp only [List.any_eq_false, beq_iff_eq]
  exact h

theorem vars_nil {vs ws : List (Str × Val)} (h : vs.map (·.1) = ws.map (·.1)) : vs = [] ↔ ws = [] := by
  cases vs <;> cases ws <;> simp at h ⊢

theorem blank_edit {vs ws : List (Str × Val)} (h : vs.map (·.1) = ws.map (·.1)) (key : Str) {o o' : List Str}
    (ho : keptLines k o = keptLines k o') :
    keptLines k (if key ≠ [] ∧ vs ≠ [] ∧ ¬ vs.any (·.1 == py "value") then o ++ [[]] else o) =
      keptLines k (if key ≠ [] ∧ ws ≠ [] ∧ ¬ ws.any (·.1 == py "value") then o' ++ [[]] else o') := by
  have h1 := any_names h (· == py "value")
  have h2 := vars_nil h
  by_cases hc : key ≠ [] ∧ vs ≠ [] ∧ ¬ vs.any (·.1 == py "value")
  · rw [if_pos hc, if_pos ⟨hc.1, fun h => hc.2.1 (h2.mpr h), by rw [← h1]; exact hc.2.2⟩, append_edit ho]
  · rw [if_neg hc, if_neg fun hc' => hc ⟨hc'.1, fun h => hc'.2.1 (h2.mp h), by rw [h1]; exact hc'.2.2⟩, ho]

section
variable (hk : ¬ py "QUATERNION_TYPE" <+: upper k) (hn : '\n' ∉ upper k)
include hk hn

mutual
theorem collateObj_edit (key : Str) : ∀ (v w : Val) (out out' : List Str), Edited k v w → keptLines k out = keptLines k out' →
    Grow k (collateObj key out v) (collateObj key out' w)
  | .obj c vs, w, out, out', he, ho => by
    intro o h
    obtain ⟨ws, rfl, hv, hcase⟩ := edited_obj he
    simp only [collateObj] at h ⊢
    by_cases hs : isSpecialOut c = true
    · have : vs = ws := hcase.resolve_right fun h => by rw [not_special h.1] at hs; cases hs
      subst this
      rw [if_pos hs] at h ⊢
      rw [← writeSpecial_out hk key c vs ho]
      obtain ⟨ls, hls, h⟩ := bind_ok_iff.mp h
      cases h
      exact ⟨out' ++ ls, by rw [hls]; rfl, append_edit ho⟩
    · rw [if_neg hs] at h ⊢
      obtain ⟨o1, h1, h⟩ := bind_ok_iff.mp h
      obtain ⟨o2, h2, h3⟩ := collateVars_edit vs ws out out' hv ho o1 h1
      cases h
      exact ⟨_, by rw [h2]; rfl, blank_edit (editedVars_names hv) key h3⟩
  | .none, w, out, out', _, _ => by intro o h; simp [collateObj] at h
  | .str _, w, out, out', _, _ => by intro o h; simp [collateObj] at h
  | .int _, w, out, out', _, _ => by intro o h; simp [collateObj] at h
  | .dec _, w, out, out', _, _ => by intro o h; simp [collateObj] at h
  | .enum _ _, w, out, out', _, _ => by intro o h; simp [collateObj] at h
  | .list _, w, out, out', _, _ => by intro o h; simp [collateObj] at h
termination_by structural v => v

theorem collateVars_edit : ∀ (vs ws : List (Str × Val)) (out out' : List Str), EditedVars k vs ws → keptLines k out = keptLines k out' →
    Grow k (collateVars out vs) (collateVars out' ws)
  | [], ws, out, out', he, ho => by
    intro o h
    cases he
    simp only [collateVars] at h ⊢
    cases h
    exact ⟨out', rfl, ho⟩
  | (n, x) :: vs, ws, out, out', he, ho => by
    intro o h
    obtain ⟨y, ws', rfl, hs, hv⟩ : ∃ y ws', ws = (n, y) :: ws' ∧ Slot k n x y ∧ EditedVars k vs ws' := by
      cases he with
      | same h => exact ⟨x, _, rfl, .inl rfl, h⟩
      | inside h1 h2 h3 h => exact ⟨_, _, rfl, .inr (.inl ⟨h1, h2, h3⟩), h⟩
      | field h1 h2 h => exact ⟨_, _, rfl, .inr (.inr ⟨rfl, h1, h2⟩), h⟩
    simp only [collateVars] at h ⊢
    obtain ⟨o1, h1, h⟩ := bind_ok_iff.mp h
    obtain ⟨o2, h2, h3⟩ := collateSub_edit n x y out out' hs ho o1 h1
    obtain ⟨o4, h4, h5⟩ := collateVars_edit vs ws' o1 o2 hv h3 o h
    exact ⟨o4, by rw [h2]; exact h4, h5⟩
termination_by structural v => v

theorem collateSub_edit (n : Str) : ∀ (x y : Val) (out out' : List Str), Slot k n x y → keptLines k out = keptLines k out' →
    Grow k (collateSub n out x) (collateSub n out' y)
  | .str s, y, out, out', hs, ho => by
    rcases hs with rfl | ⟨h1, h2, h3⟩ | ⟨rfl, h1, h2⟩
    · simp only [collateSub]; intro o h; cases h; exact ⟨_, rfl, append_edit ho⟩
    · cases h3; simp only [collateSub]; intro o h; cases h; exact ⟨_, rfl, append_edit ho⟩
    · exact field_edit hn h1 h2 ho
  | .int s, y, out, out', hs, ho => by
    rcases hs with rfl | ⟨h1, h2, h3⟩ | ⟨rfl, h1, h2⟩
    · simp only [collateSub]; intro o h; cases h; exact ⟨_, rfl, append_edit ho⟩
    · cases h3; simp only [collateSub]; intro o h; cases h; exact ⟨_, rfl, append_edit ho⟩
    · exact field_edit hn h1 h2 ho
  | .dec s, y, out, out', hs, ho => by
    have same : Grow k (collateSub n out (.dec s)) (collateSub n out' (.dec s)) := by
      simp only [collateSub]
      intro o h
      split at h
      · cases h
      · rename_i hc
        cases h
        exact ⟨_, by rw [if_neg hc], append_edit ho⟩
    rcases hs with rfl | ⟨h1, h2, h3⟩ | ⟨rfl, h1, h2⟩
    · exact same
    · cases h3; exact same
    · exact field_edit hn h1 h2 ho
  | .enum c s, y, out, out', hs, ho => by
    have same : Grow k (collateSub n out (.enum c s)) (collateSub n out' (.enum c s)) := by
      simp only [collateSub]
      intro o h
      split at h
      · cases h
      · rename_i hc
        cases h
        exact ⟨_, by rw [if_neg hc], append_edit ho⟩
    rcases hs with rfl | ⟨h1, h2, h3⟩ | ⟨rfl, h1, h2⟩
    · exact same
    · cases h3; exact same
    · exact field_edit hn h1 h2 ho
  | .none, y, out, out', hs, ho => by
    have same : Grow k (collateSub n out .none) (collateSub n out' .none) := by
      simp only [collateSub]
      intro o h
      split at h
      · cases h
      · rename_i hc
        cases h
        exact ⟨_, by rw [if_neg hc], ho⟩
    rcases hs with rfl | ⟨h1, h2, h3⟩ | ⟨rfl, h1, h2⟩
    · exact same
    · cases h3; exact same
    · exact field_edit hn h1 h2 ho
  | .obj c vs, y, out, out', hs, ho => by
    have key : ∀ y, Edited k (.obj c vs) y → Grow k (collateSub n out (.obj c vs)) (collateSub n out' y) := by
      intro y he
      obtain ⟨ws, rfl, hv, hcase⟩ := edited_obj he
      simp only [collateSub]
      refine withHeader_edit ho fun o o' ho r h => ?_
      split at h
      · cases h
      · rename_i hc
        rw [if_neg hc]
        have hu := any_names (editedVars_names hv) (· == py "units")
        by_cases hun : vs.any (·.1 == py "units") = true
        · have : vs = ws := hcase.resolve_right fun h => by rw [unitless_any h.2] at hun; cases hun
          subst this
          rw [if_pos hun] at h ⊢
          obtain ⟨l, hl, h⟩ := bind_ok_iff.mp h
          cases h
          exact ⟨_, by rw [hl]; rfl, append_edit ho⟩
        · rw [if_neg hun] at h
          rw [if_neg (by rw [← hu]; exact hun)]
          split at h
          · cases h
          · rename_i hud
            rw [if_neg hud]
            by_cases hsp : isSpecialOut c = true
            · have : vs = ws := hcase.resolve_right fun h => by rw [not_special h.1] at hsp; cases hsp
              subst this
              rw [if_pos hsp] at h ⊢
              rw [← writeSpecial_out hk n c vs ho]
              obtain ⟨ls, hls, h⟩ := bind_ok_iff.mp h
              cases h
              exact ⟨o' ++ ls, by rw [hls]; rfl, append_edit ho⟩
            · rw [if_neg hsp] at h ⊢
              obtain ⟨o1, h1, h⟩ := bind_ok_iff.mp h
              obtain ⟨o2, h2, h3⟩ := collateVars_edit vs ws o o' hv ho o1 h1
              cases h
              exact ⟨_, by rw [h2]; rfl, blank_edit (editedVars_names hv) n h3⟩
    rcases hs with rfl | ⟨h1, h2, h3⟩ | ⟨rfl, h1, h2⟩
    · exact key _ (.same _)
    · exact key _ h3
    · exact field_edit hn h1 h2 ho
  | .list [], y, out, out', hs, ho => by
    have same : Grow k (collateSub n out (.list [])) (collateSub n out' (.list [])) := by
      simp only [collateSub]
      intro o h
      split at h
      · rename_i hc
        cases h
        exact ⟨_, by rw [if_pos hc], append_edit ho⟩
      · rename_i hc
        rw [if_neg hc]
        split at h
        · rename_i hc
          rw [if_pos hc]
          obtain ⟨ls, hls, h⟩ := bind_ok_iff.mp h
          cases h
          exact ⟨_, by rw [hls]; rfl, append_edit ho⟩
        · rename_i hc
          cases h
          exact ⟨_, by rw [if_neg hc], ho⟩
    rcases hs with rfl | ⟨h1, h2, h3⟩ | ⟨rfl, h1, h2⟩
    · exact same
    · cases h3 with
      | same => exact same
      | list h => cases h; exact same
    · exact field_edit hn h1 h2 ho
  | .list (x :: xs), y, out, out', hs, ho => by
    have items : ∀ x' xs', Edited k x x' → EditedAll k xs xs' → ∀ o o', keptLines k o = keptLines k o' → Grow k
        (withHeader (headerOf x) (fun h => [[], beginLine h, []]) (fun h => [[], endLine h, []]) o fun out => do
          let out ← collateObj n out x
          collateItems n out xs)
        (withHeader (headerOf x') (fun h => [[], beginLine h, []]) (fun h => [[], endLine h, []]) o' fun out => do
          let out ← collateObj n out x'
          collateItems n out xs') := by
      intro x' xs' hx hxs o o' ho
      have hh : headerOf x = headerOf x' := by cases hx <;> rfl
      rw [hh]
      refine withHeader_edit ho fun o o' ho r h => ?_
      obtain ⟨o1, h1, h⟩ := bind_ok_iff.mp h
      obtain ⟨o2, h2, h3⟩ := collateObj_edit n x x' o o' hx ho o1 h1
      obtain ⟨o4, h4, h5⟩ := collateItems_edit n xs xs' o1 o2 hxs h3 r h
      exact ⟨o4, by rw [h2]; exact h4, h5⟩
    have same : Grow k (collateSub n out (.list (x :: xs))) (collateSub n out' (.list (x :: xs))) := by
      simp only [collateSub]
      intro o h
      split at h
      · rename_i hc
        cases h
        exact ⟨_, by rw [if_pos hc], append_edit ho⟩
      · rename_i hc
        rw [if_neg hc]
        split at h
        · rename_i hc
          rw [if_pos hc]
          obtain ⟨ls, hls, h⟩ := bind_ok_iff.mp h
          cases h
          exact ⟨_, by rw [hls]; rfl, append_edit ho⟩
        · rename_i hc
          rw [if_neg hc]
          exact items x xs (.same x) (editedAll_refl xs) _ _ ho o h
    rcases hs with rfl | ⟨h1, h2, h3⟩ | ⟨rfl, h1, h2⟩
    · exact same
    · cases h3 with
      | same => exact same
      | list h =>
        cases h with
        | cons hx hxs =>
          simp only [collateSub, h1, h2, if_false]
          exact items _ _ hx hxs _ _ ho
    · exact field_edit hn h1 h2 ho
termination_by structural v => v

theorem collateItems_edit (key : Str) : ∀ (xs ys : List Val) (out out' : List Str), EditedAll k xs ys →
    keptLines k out = keptLines k out' → Grow k (collateItems key out xs) (collateItems key out' ys)
  | [], ys, out, out', he, ho => by
    intro o h
    cases he
    simp only [collateItems] at h ⊢
    cases h
    exact ⟨out', rfl, ho⟩
  | x :: xs, ys, out, out', he, ho => by
    intro o h
    cases he with
    | @cons _ y _ ys hx hxs =>
      simp only [collateItems] at h ⊢
      obtain ⟨o1, h1, h⟩ := bind_ok_iff.mp h
      obtain ⟨o2, h2, h3⟩ := collateObj_edit key x y out out' hx ho o1 h1
      obtain ⟨o4, h4, h5⟩ := collateItems_edit key xs ys o1 o2 hxs h3 o h
      exact ⟨o4, by rw [h2]; exact h4, h5⟩
termination_by structural v => v
end
end

theorem editedVars_set {n : Str} {x y : Val} (hf : ∀ vs, EditedVars k ((n, x) :: vs) ((n, y) :: vs)) :
    ∀ {vs : List (Str × Val)}, Val.lookupVar n vs = some x → EditedVars k vs (Val.setVar n y vs)
  | [], h => by simp [Val.lookupVar] at h
  | (m, z) :: vs, h => by
    simp only [Val.setVar]
    by_cases hm : m = n
    · subst hm
      simp [Val.lookupVar] at h
      subst h
      rw [if_pos rfl]
      exact hf vs
    · rw [if_neg hm]
      have : (m == n) = false := by simpa using hm
      simp only [Val.lookupVar, List.find?_cons, this] at h
      exact .same (editedVars_set hf h)

theorem editedAll_set {x y : Val} (he : Edited k x y) : ∀ {xs : List Val} {n : Nat}, xs[n]? = some x → EditedAll k xs (xs.set n y)
  | [], n, h => by simp at h
  | z :: xs, 0, h => by
    simp at h
    subst h
    exact .cons he (editedAll_refl xs)
  | z :: xs, n + 1, h => by
    simp at h
    exact .cons (.same z) (editedAll_set he h)

theorem edited_assign {k : Str} {x y : Val} (hx : FieldValue k x) (hy : FieldValue k y) :
    ∀ {path : List Step} {o o' : Val}, ByAttributes path o → o.at (path ++ [.f k]) = some x → assign k y path o = some o' →
      Edited k o o'
  | [], o, o', hp, ha, hs => by
    cases o with
    | obj c vs =>
      obtain ⟨h1, h2⟩ := hp
      simp only [List.nil_append, Val.at] at ha
      simp only [assign, Option.some.injEq] at hs
      subst hs
      split at ha
      · rename_i w hw
        cases ha
        exact .obj h1 h2 (editedVars_set (fun vs => .field hx hy (editedVars_refl vs)) hw)
      · cases ha
    | _ => exact absurd hp (by simp [ByAttributes])
  | .f n :: path, o, o', hp, ha, hs => by
    cases o with
    | obj c vs =>
      obtain ⟨h1, h2, h3, h4, w, hw, hp⟩ := hp
      simp only [List.cons_append, Val.at, hw] at ha
      simp only [assign, hw, Option.map_eq_some_iff] at hs
      obtain ⟨w', hs, rfl⟩ := hs
      have he := edited_assign hx hy hp ha hs
      exact .obj h1 h2 (editedVars_set (fun vs => .inside h3 h4 he (editedVars_refl vs)) hw)
    | _ => exact absurd hp (by simp [ByAttributes])
  | .i n :: path, o, o', hp, ha, hs => by
    cases o with
    | list xs =>
      obtain ⟨w, hw, hp⟩ := hp
      simp only [List.cons_append, Val.at, hw] at ha
      simp only [assign, hw, Option.map_eq_some_iff] at hs
      obtain ⟨w', hs, rfl⟩ := hs
      exact .list (editedAll_set (edited_assign hx hy hp ha hs) hw)
    | _ => exact absurd hp (by simp [ByAttributes])

end Ndm
