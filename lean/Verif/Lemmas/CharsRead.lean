import Verif.SpecChars
import Verif.Lemmas.FromRoot

/-! The characters of the texts in an object that was read. -/

namespace Ndm

section
variable {P : Char → Prop}

theorem lstrip_sub {s : Str} {c : Char} (h : c ∈ lstrip s) : c ∈ s := by
  unfold lstrip at h
  exact (List.dropWhile_sublist _).subset h

theorem strip_sub {s : Str} {c : Char} (h : c ∈ strip s) : c ∈ s := by
  unfold strip rstrip at h
  have h := List.mem_reverse.mp h
  have h := (List.dropWhile_sublist _).subset h
  exact lstrip_sub (List.mem_reverse.mp h)

theorem removeGo_chars {p : Str} {c : Char} : ∀ {n : Nat} {s : Str}, c ∈ removeGo p n s → c ∈ s
  | n, [], h => by cases n <;> simp [removeGo] at h
  | n + 1, d :: s, h => by
    simp only [removeGo] at h
    exact List.mem_cons_of_mem _ (removeGo_chars h)
  | 0, d :: s, h => by
    simp only [removeGo] at h
    split at h
    · exact List.mem_cons_of_mem _ (removeGo_chars h)
    · rcases List.mem_cons.mp h with rfl | h
      · simp
      · exact List.mem_cons_of_mem _ (removeGo_chars h)

theorem wordsGo_sub {w : Str} {c : Char} (hc : c ∈ w) : ∀ {s cur : Str}, w ∈ wordsGo cur s → c ∈ cur ∨ c ∈ s
  | [], cur, h => by
    simp only [wordsGo] at h
    split at h
    · cases h
    · rw [List.mem_singleton.mp h] at hc
      exact .inl (List.mem_reverse.mp hc)
  | d :: s, cur, h => by
    simp only [wordsGo] at h
    split at h
    · split at h
      · rcases wordsGo_sub hc h with h | h
        · cases h
        · exact .inr (List.mem_cons_of_mem _ h)
      · rcases List.mem_cons.mp h with rfl | h
        · exact .inl (List.mem_reverse.mp hc)
        · rcases wordsGo_sub hc h with h | h
          · cases h
          · exact .inr (List.mem_cons_of_mem _ h)
    · rcases wordsGo_sub hc h with h | h
      · rcases List.mem_cons.mp h with rfl | h
        · exact .inr (by simp)
        · exact .inl h
      · exact .inr (List.mem_cons_of_mem _ h)

theorem words_sub {s w : Str} {c : Char} (hw : w ∈ words s) (hc : c ∈ w) : c ∈ s := by
  rcases wordsGo_sub hc hw with h | h
  · cases h
  · exact h

theorem splitChar_sub {d : Char} {l : Str} {c : Char} (hc : c ∈ l) : ∀ {s : Str}, l ∈ splitChar d s → c ∈ s
  | [], h => by
    simp only [splitChar, List.mem_singleton] at h
    subst h
    cases hc
  | e :: s, h => by
    simp only [splitChar] at h
    split at h
    · rcases List.mem_cons.mp h with rfl | h
      · cases hc
      · exact List.mem_cons_of_mem _ (splitChar_sub hc h)
    · split at h
      · rw [List.mem_singleton.mp h] at hc
        rw [List.mem_singleton.mp hc]
        simp
      · next l' ls he =>
        rcases List.mem_cons.mp h with rfl | h
        · rcases List.mem_cons.mp hc with rfl | hc
          · simp
          · exact List.mem_cons_of_mem _ (splitChar_sub hc (l := l') (by rw [he]; simp))
        · exact List.mem_cons_of_mem _ (splitChar_sub hc (by rw [he]; simp [h]))

theorem splitOnce_sub {d : Char} {t : Str} {c : Char} : ∀ {s : Str}, t ∈ splitOnce d s → c ∈ t → c ∈ s
  | [], h, hc => by
    simp only [splitOnce, List.mem_singleton] at h
    subst h
    cases hc
  | e :: s, h, hc => by
    simp only [splitOnce] at h
    split at h
    · simp only [List.mem_cons, List.not_mem_nil, or_false] at h
      rcases h with rfl | rfl
      · cases hc
      · exact List.mem_cons_of_mem _ hc
    · split at h
      · rw [List.mem_singleton.mp h] at hc
        rw [List.mem_singleton.mp hc]
        simp
      · next l' ls he =>
        rcases List.mem_cons.mp h with rfl | h
        · rcases List.mem_cons.mp hc with rfl | hc
          · simp
          · exact List.mem_cons_of_mem _ (splitOnce_sub (t := l') (by rw [he]; simp) hc)
        · exact List.mem_cons_of_mem _ (splitOnce_sub (by rw [he]; simp [h]) hc)

/-- The items of the lines consist of characters of the class. -/
def ItemsIn (P : Char → Prop) (L : List (List Str)) : Prop := ∀ l ∈ L, ∀ s ∈ l, ∀ c ∈ s, P c

theorem readAs_in {att : Bool} {t : FTy} {s : Str} {v : Val} (h : ReadAs att t s v) (hs : ∀ c ∈ s, P c) : TextsIn P v := by
  induction h with
  | text s => intro x hx; cases hx; exact hs
  | int _ => intro x hx; cases hx
  | dec _ => intro x hx; cases hx
  | enum _ => intro x hx; cases hx
  | plain _ _ => intro x hx; cases hx
  | untyped _ _ ih1 ih2 => exact ih2 fun c hc => ih1 hs _ .self c (removeGo_chars hc)

theorem simpleFrom_in {att : Bool} {d : Cls} {t : Str} {A : List (Str × Str)} (ht : ∀ c ∈ t, P c) (hA : ∀ n s, (n, s) ∈ A → ∀ c ∈ s, P c) :
    ∀ {vs : List (Str × Val)}, SimpleFrom att d t A vs → ∀ n x, (n, x) ∈ vs → TextsIn P x := by
  intro vs h
  induction h with
  | nil => intro n x hx; cases hx
  | none _ ih =>
    intro n x hx
    rcases List.mem_cons.mp hx with e | hx
    · cases e
      intro s hs
      cases hs
    · exact ih n x hx
  | empty _ ih =>
    intro n x hx
    rcases List.mem_cons.mp hx with e | hx
    · cases e
      intro s hs
      cases hs with
      | item h _ => cases h
    · exact ih n x hx
  | text _ _ hr _ ih =>
    intro n x hx
    rcases List.mem_cons.mp hx with e | hx
    · cases e
      exact readAs_in hr ht
    · exact ih n x hx
  | attr _ _ ha hr _ ih =>
    intro n x hx
    rcases List.mem_cons.mp hx with e | hx
    · cases e
      exact readAs_in hr (hA _ _ ha)
    · exact ih n x hx

theorem textsIn_obj {c : Cls} {vs : List (Str × Val)} (h : ∀ n x, (n, x) ∈ vs → TextsIn P x) : TextsIn P (.obj c vs) := by
  intro s hs
  cases hs with
  | field hm hw => exact h _ _ hm s hw

variable {M : Cls} {L : List (List Str)} (hL : ItemsIn P L)
include hL

theorem unitOf_in {k t : Str} {r : List Str} (h : (k :: t :: r) ∈ L) : ∀ n s, (n, s) ∈ unitOf r → ∀ c ∈ s, P c := by
  intro n s hs
  cases r with
  | nil => cases hs
  | cons u r =>
    rw [unitOf, List.mem_singleton] at hs
    cases hs
    exact hL _ h _ (by simp)

theorem stated_in {k t : Str} {A : List (Str × Str)} (h : Stated M L k t A) : (∀ c ∈ t, P c) ∧ ∀ n s, (n, s) ∈ A → ∀ c ∈ s, P c := by
  cases h with
  | line h => exact ⟨hL _ h _ (by simp), unitOf_in hL h⟩
  | user h =>
    refine ⟨hL _ h _ (by simp), fun n s hs => ?_⟩
    rw [List.mem_singleton] at hs
    cases hs
    exact fun c hc => hL _ h _ (by simp) c (removeGo_chars hc)
  | word _ _ h hw => exact ⟨fun c hc => hL _ h _ (by simp) c (words_sub hw hc), fun _ _ h => nomatch h⟩
  | @time k' t' w _ _ _ h hw =>
    have hm : t ∈ words t' := by rw [hw]; simp
    exact ⟨fun c hc => hL _ h t' (by simp) c (words_sub hm hc), fun _ _ h => nomatch h⟩
  | @observed k' t' w x _ _ _ h hw =>
    have hm : t ∈ words t' := by rw [hw]; simp
    exact ⟨fun c hc => hL _ h t' (by simp) c (words_sub hm hc), fun _ _ h => nomatch h⟩

variable (hP : CharClass P)
include hP

theorem rotation_in {k t : Str} {A : List (Str × Str)} (h : StatedRotation M L k t A) :
    (∀ c ∈ t, P c) ∧ (∀ c ∈ k, P c) ∧ ∀ n s, (n, s) ∈ A → ∀ c ∈ s, P c := by
  cases h with
  | line h => exact ⟨hL _ h _ (by simp), hL _ h _ (by simp), unitOf_in hL h⟩
  | word _ h hw _ _ ha =>
    refine ⟨fun c hc => hL _ h _ (by simp) c (words_sub hw hc), ?_, fun _ _ h => nomatch h⟩
    have : ∀ k ∈ rotationNames, ∀ c ∈ k, 32 ≤ c.toNat ∧ c.toNat ≤ 126 := by decide
    intro c hc
    exact hP.printable c (this k (by cases ha <;> decide) c hc)

mutual
theorem from_in : ∀ {att : Bool} {v : Val}, From M L att v → TextsIn P v
  | _, _, .block _ h => textsIn_obj (fieldsFrom_in h)
  | _, _, .rotation _ hs h => by
    obtain ⟨h1, h2, h3⟩ := rotation_in hL hP hs
    refine textsIn_obj (simpleFrom_in h1 (fun n s hm => ?_) h)
    rcases List.mem_cons.mp hm with e | hm
    · cases e
      exact h2
    · exact h3 n s hm
  | _, _, .attitude h => from_in h

theorem fieldsFrom_in : ∀ {att : Bool} {c : Cls} {vs : List (Str × Val)}, FieldsFrom M L att c vs → ∀ n x, (n, x) ∈ vs → TextsIn P x
  | _, _, _, .nil, _, _, hx => by cases hx
  | _, _, _, .cons _ hv hr, n, x, hx => by
    rcases List.mem_cons.mp hx with e | hx
    · cases e
      exact fieldFrom_in hv
    · exact fieldsFrom_in hr n x hx

theorem fieldFrom_in : ∀ {att : Bool} {f : Field} {v : Val}, FieldFrom M L att f v → TextsIn P v
  | _, _, _, .none => fun s hs => by cases hs
  | _, _, _, .list h => fun s hs => by
    cases hs with
    | item hm hw => exact itemsFrom_in h _ hm s hw
  | _, _, _, .one h => itemFrom_in h

theorem itemsFrom_in : ∀ {att : Bool} {f : Field} {vs : List Val}, ItemsFrom M L att f vs → ∀ x ∈ vs, TextsIn P x
  | _, _, _, .nil, _, hx => by cases hx
  | _, _, _, .cons hv hr, x, hx => by
    rcases List.mem_cons.mp hx with e | hx
    · rw [e]
      exact itemFrom_in hv
    · exact itemsFrom_in hr x hx

theorem itemFrom_in : ∀ {att : Bool} {f : Field} {v : Val}, ItemFrom M L att f v → TextsIn P v
  | _, _, _, .text _ hs hr => readAs_in hr (stated_in hL hs).1
  | _, _, _, .simple _ _ hs h => textsIn_obj (simpleFrom_in (stated_in hL hs).1 (stated_in hL hs).2 h)
  | _, _, _, .block _ _ h => from_in h
end

end

theorem parseLine_in {P : Char → Prop} (hP : CharClass P) {raw : Str} {l : Line} (hr : ∀ c ∈ raw, P c) (h : parseLine raw = some l) :
    ∀ s ∈ l, ∀ c ∈ s, P c := by
  have hline : ∀ c ∈ strip raw, P c := fun c hc => hr c (strip_sub hc)
  unfold parseLine at h
  dsimp only at h
  split at h
  · cases h
  split at h
  · cases h
    intro s hs c hc
    simp only [List.map_cons, List.map_nil, List.mem_cons, List.not_mem_nil, or_false] at hs
    rcases hs with rfl | rfl
    · have := strip_sub hc
      have hp : ∀ c ∈ py "COMMENT", 32 ≤ c.toNat ∧ c.toNat ≤ 126 := by decide
      exact hP.printable c (hp c this)
    · have hc := strip_sub hc
      refine hline c ?_
      split at hc
      · exact List.mem_of_mem_drop (strip_sub (List.mem_of_mem_drop (strip_sub hc)))
      · exact List.mem_of_mem_drop (strip_sub hc)
  · cases h
    intro s hs c hc
    obtain ⟨u, hu, rfl⟩ := List.mem_map.mp hs
    have hc := strip_sub hc
    refine hline c ?_
    split at hu
    · next key text he =>
      have hk : ∀ x ∈ key, x ∈ strip raw := fun x hx => splitOnce_sub (by rw [he]; simp) hx
      have ht : ∀ x ∈ text, x ∈ strip raw := fun x hx => splitOnce_sub (by rw [he]; simp) hx
      split at hu
      · split at hu
        · simp only [List.mem_cons, List.not_mem_nil, or_false] at hu
          rcases hu with rfl | rfl | rfl
          · exact hk c hc
          · exact ht c ((List.takeWhile_sublist _).subset hc)
          · exact ht c ((List.dropWhile_sublist _).subset (List.mem_filter.mp hc).1)
        · exact splitOnce_sub hu hc
      · exact splitOnce_sub hu hc
    · exact splitOnce_sub hu hc

theorem kvnFromString_in {P : Char → Prop} (hP : CharClass P) {src : Str} {v : Val} (hs : ∀ c ∈ src, P c) (h : kvnFromString src = .ok v) :
    TextsIn P v := by
  obtain ⟨M, vs, -, hf⟩ := kvnFromString_from h
  refine from_in ?_ hP hf
  intro l hl
  obtain ⟨raw, hraw, hp⟩ := List.mem_filterMap.mp hl
  exact parseLine_in hP (fun c hc => hs c (splitChar_sub hc hraw)) hp

end Ndm
