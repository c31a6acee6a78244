import Verif.SpecText
import Verif.Lemmas.BindRt

/-! A message stated by any text without comments is well-formed: it can be written again. -/

namespace Ndm

/-- What is known of a line `k = s` of a text. -/
def LineFacts (l : Line) : Prop :=
  l.key ≠ py "COMMENT" ∧ ∀ k s, l = [k, s] → Trimmed s ∧ '\n' ∉ s ∧ ¬ UnitLike s

theorem keyText_val {f : Field} {v : Val} {l : Line} (h : KeyText f v l) (hl : LineFacts l) :
    ∃ l', KeyVal f v l' ∧ l'.key = l.key := by
  cases h with
  | str h1 h2 h3 =>
    obtain ⟨ht, hn, hu⟩ := hl.2 _ _ rfl
    exact ⟨_, .str h1 h2 ⟨ht, hn, h3, hu⟩, rfl⟩
  | int h1 h2 h3 => exact ⟨_, .int h1, rfl⟩
  | dec h1 h2 h3 => exact ⟨_, .dec h1, rfl⟩
  | enum h1 h2 h3 => exact ⟨_, .enum h1 h2 h3, rfl⟩
  | number h1 h2 h3 h4 => exact ⟨_, .number h1 h2, rfl⟩
  | quantity h1 h2 h3 h4 h5 h6 => exact ⟨_, .quantity h1 h2 h5 h6, rfl⟩

theorem keysText_val {fs : List Field} {vs : List (Str × Val)} {ls : List Line} (h : KeysOf KeyText fs vs ls)
    (hl : ∀ l ∈ ls, LineFacts l) : ∃ ls', KeysOf KeyVal fs vs ls' ∧ ls'.map Line.key = ls.map Line.key := by
  induction h with
  | nil => exact ⟨[], .nil, rfl⟩
  | absent h1 _ ih =>
    obtain ⟨ls', h', e⟩ := ih hl
    exact ⟨ls', .absent h1 h', e⟩
  | value h1 hr _ ih =>
    obtain ⟨ls', h', e⟩ := ih fun l h => hl l (List.mem_cons_of_mem _ h)
    obtain ⟨l', hv, ek⟩ := keyText_val hr (hl _ List.mem_cons_self)
    exact ⟨l' :: ls', .value h1 hv h', by rw [List.map_cons, List.map_cons, e, ek]⟩
  | @comments f fs texts vs ls h1 h2 h3 _ ih =>
    obtain ⟨ls', h', e⟩ := ih fun l h => hl l (List.mem_append_right _ h)
    exact ⟨_, .comments h1 h2 h3 h', by rw [List.map_append, List.map_append, e]⟩

theorem spelled_written {c : Cls} {vs : List (Str × Val)} {ls : List Line} (h : Spelled c vs ls)
    (hl : ∀ l ∈ ls, LineFacts l) : ∃ ls', Written c vs ls' ∧ (ls'.map Line.key).Perm (ls.map Line.key) := by
  obtain ⟨own, hk, hr⟩ := h
  obtain ⟨ls', h', e⟩ := keysText_val hk fun l h => hl l (hr.mem.mp h)
  exact ⟨ls', h', e ▸ hr.perm.map _⟩

theorem rotationText_val {c axes units : Cls} {attr : Str} {v : Val} {l : Line} (h : RotationText c axes units attr v l) :
    ∃ l', Rotation c axes units attr v l' ∧ l'.key = l.key := by
  cases h with
  | number h1 h2 => exact ⟨_, .number h1 h2, rfl⟩
  | quantity h1 h2 _ _ h3 h4 => exact ⟨_, .quantity h1 h2 h3 h4, rfl⟩

theorem rotationsText_val {c d axes units : Cls} {attr : Str} {v : Val} {ls : List Line}
    (h : RotationsOf c (RotationText d axes units attr) v ls) :
    ∃ ls', Rotations c d axes units attr v ls' ∧ ls'.map Line.key = ls.map Line.key := by
  cases h with
  | none => exact ⟨_, .none, rfl⟩
  | mk h1 h2 h3 =>
    obtain ⟨l1, h1, e1⟩ := rotationText_val h1
    obtain ⟨l2, h2, e2⟩ := rotationText_val h2
    obtain ⟨l3, h3, e3⟩ := rotationText_val h3
    exact ⟨_, .mk h1 h2 h3, by simp [e1, e2, e3]⟩

theorem ne_nil_of_keys {a b : List Line} (h : a.map Line.key = b.map Line.key) (hb : b ≠ []) : a ≠ [] := by
  rintro rfl
  rw [List.map_nil] at h
  exact hb (List.map_eq_nil_iff.mp h.symm)

theorem ownText_own {c : Cls} {v : Val} {ls : List Line} (h : OwnText c v ls) (hl : ∀ l ∈ ls, LineFacts l) :
    ∃ ls', OwnNotation c v ls' ∧ ls'.map Line.key = ls.map Line.key := by
  cases h with
  | user h => exact ⟨_, .user h, rfl⟩
  | relative h =>
    cases h with
    | @mk before after rsv l₁ lᵣ l₂ hb hr ha h1 h2 =>
      obtain ⟨l₁', hb', e₁⟩ := keysText_val hb fun l h => hl l (by simp [h])
      obtain ⟨l₂', ha', e₂⟩ := keysText_val ha fun l h => hl l (by simp [h])
      have hr' : ∃ lᵣ', (rsv = .none ∧ lᵣ' = [] ∨ ∃ vs, rsv = .obj .RelativeStateVectorType vs ∧
          KeysOf KeyVal (Cls.keyAttrs .RelativeStateVectorType) vs lᵣ' ∧ lᵣ' ≠ []) ∧ lᵣ'.map Line.key = lᵣ.map Line.key := by
        rcases hr with ⟨rfl, rfl⟩ | ⟨vs, rfl, hk, hne⟩
        · exact ⟨[], .inl ⟨rfl, rfl⟩, rfl⟩
        · obtain ⟨l', hk', e⟩ := keysText_val hk fun l h => hl l (by simp [h])
          exact ⟨l', .inr ⟨vs, rfl, hk', ne_nil_of_keys e hne⟩, e⟩
      obtain ⟨lᵣ', hr', eᵣ⟩ := hr'
      refine ⟨_, .relative (.mk hb' hr' ha' (ne_nil_of_keys e₁ h1) ?_), by simp [e₁, e₂, eᵣ]⟩
      rw [← List.getLast?_map, e₁, List.getLast?_map]
      exact h2
  | angles h =>
    obtain ⟨l', h', e⟩ := rotationsText_val h
    exact ⟨l', .angles h', e⟩
  | rates h =>
    obtain ⟨l', h', e⟩ := rotationsText_val h
    exact ⟨l', .rates h', e⟩

theorem laid_again {c : Cls} {own own' ls ls' : List Line} (h : Laid c own ls) (ho : (own'.map Line.key).Perm (own.map Line.key))
    (hls : (ls'.map Line.key).Perm (ls.map Line.key)) (hn : ∀ l ∈ own ++ ls, l.key ≠ py "COMMENT") : Laid c own' ls' := by
  have hlen : own'.length = own.length := by simpa using ho.length_eq
  have hk : ∀ {a b : List Line}, (a.map Line.key).Perm (b.map Line.key) → ∀ l ∈ a, ∃ m ∈ b, m.key = l.key := by
    intro a b hp l hl
    have := hp.mem_iff.mp (List.mem_map_of_mem (f := Line.key) hl)
    obtain ⟨m, hm, e⟩ := List.mem_map.mp this
    exact ⟨m, hm, e⟩
  unfold Laid at h ⊢
  split at h
  · rename_i hc
    rw [if_pos hc]
    refine ⟨by omega, fun he => ?_⟩
    subst he
    have : own = [] := List.length_eq_zero_iff.mp (by simpa using hlen.symm)
    obtain ⟨l, hl, -⟩ := h.2 this
    cases ls' with
    | nil =>
      have := hls.length_eq
      simp only [List.length_map, List.length_nil] at this
      rw [List.length_eq_zero_iff.mp this.symm] at hl
      cases hl
    | cons a ls' =>
      refine ⟨a, rfl, ?_⟩
      obtain ⟨m, hm, e⟩ := hk hls a List.mem_cons_self
      rw [← e]
      exact hn m (List.mem_append_right _ hm)
  · rename_i hc
    rw [if_neg hc]
    refine ⟨?_, fun hb he => h.2 hb ?_⟩
    · intro hl
      cases hg : own'.getLast? with
      | none => rw [hg] at hl; cases hl
      | some l =>
        rw [hg] at hl
        obtain ⟨m, hm, e⟩ := hk ho l (List.mem_of_getLast? hg)
        refine hn m (List.mem_append_left _ hm) ?_
        rw [e]
        simpa using hl
    · subst he
      exact List.length_eq_zero_iff.mp (by simpa using hlen.symm)

mutual
theorem good_again {c : Cls} {v : Val} {ls : List Line} : GoodOf Spelled OwnText c v ls → (∀ l ∈ ls, LineFacts l) →
    ∃ ls', Good OwnNotation c v ls' ∧ (ls'.map Line.key).Perm (ls.map Line.key)
  | .special h, hl => by
    obtain ⟨ls', h', e⟩ := ownText_own h hl
    exact ⟨ls', .special h', e ▸ .refl _⟩
  | .obj ho hk hb hla, hl => by
    obtain ⟨own', hk', e⟩ := spelled_written hk fun l h => hl l (List.mem_append_left _ h)
    obtain ⟨ls', hb', e'⟩ := blocks_again hb fun l h => hl l (List.mem_append_right _ h)
    refine ⟨own' ++ ls', .obj ho hk' hb' (laid_again hla e e' fun l h => (hl l h).1), ?_⟩
    rw [List.map_append, List.map_append]
    exact e.append e'

theorem blocks_again {fs : List Field} {vs : List (Str × Val)} {ls : List Line} : GoodBlocksOf Spelled OwnText fs vs ls →
    (∀ l ∈ ls, LineFacts l) → ∃ ls', GoodBlocks OwnNotation fs vs ls' ∧ (ls'.map Line.key).Perm (ls.map Line.key)
  | .nil, _ => ⟨[], .nil, .refl _⟩
  | .absent h1 h2 h3 h, hl => by
    obtain ⟨ls', h', e⟩ := blocks_again h hl
    exact ⟨ls', .absent h1 h2 h3 h', e⟩
  | .one h1 h2 hg h, hl => by
    obtain ⟨l', hg', e⟩ := good_again hg fun l h => hl l (List.mem_append_left _ h)
    obtain ⟨ls', h', e'⟩ := blocks_again h fun l h => hl l (List.mem_append_right _ h)
    refine ⟨l' ++ ls', .one h1 h2 hg' h', ?_⟩
    rw [List.map_append, List.map_append]
    exact e.append e'
  | .many h1 h2 h3 hi h, hl => by
    obtain ⟨l', hi', e⟩ := items_again hi fun l h => hl l (List.mem_append_left _ h)
    obtain ⟨ls', h', e'⟩ := blocks_again h fun l h => hl l (List.mem_append_right _ h)
    refine ⟨l' ++ ls', .many h1 h2 h3 hi' h', ?_⟩
    rw [List.map_append, List.map_append]
    exact e.append e'

theorem items_again {d : Cls} {xs : List Val} {ls : List Line} : GoodItemsOf Spelled OwnText d xs ls →
    (∀ l ∈ ls, LineFacts l) → ∃ ls', GoodItems OwnNotation d xs ls' ∧ (ls'.map Line.key).Perm (ls.map Line.key)
  | .nil, _ => ⟨[], .nil, .refl _⟩
  | .cons hg hne hk h, hl => by
    obtain ⟨l', hg', e⟩ := good_again hg fun l h => hl l (List.mem_append_left _ h)
    obtain ⟨ls', h', e'⟩ := items_again h fun l h => hl l (List.mem_append_right _ h)
    refine ⟨l' ++ ls', .cons hg' ?_ ?_ h', ?_⟩
    · rintro rfl
      exact hne (List.length_eq_zero_iff.mp (by simpa using e.length_eq.symm))
    · intro m hm hc
      obtain ⟨m₁, hm₁, e₁⟩ := List.mem_map.mp (e'.mem_iff.mp (List.mem_map_of_mem (f := Line.key) hm))
      obtain ⟨m₂, hm₂, e₂⟩ := hk m₁ hm₁ (by rw [e₁]; exact hc)
      obtain ⟨m₃, hm₃, e₃⟩ := List.mem_map.mp (e.mem_iff.mpr (List.mem_map_of_mem (f := Line.key) hm₂))
      exact ⟨m₃, hm₃, by rw [e₃, e₂, e₁]⟩
    · rw [List.map_append, List.map_append]
      exact e.append e'
end

end Ndm
