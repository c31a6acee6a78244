import Verif.SpecText
import Verif.Lemmas.FromLine
import Verif.Lemmas.Lines

/-! Texts that are cut short. -/

namespace Ndm

/-- A text can be cut after any of its lines. -/
theorem text_cut {t : Str} {L L' : List Line} (h : (splitChar '\n' t).filterMap parseLine = L ++ L') (hL : L ≠ []) (hL' : L' ≠ []) :
    ∃ p s, t = p ++ s ∧ s ≠ [] ∧ (splitChar '\n' p).filterMap parseLine = L := by
  obtain ⟨r1, r2, hr, h1, h2⟩ := List.filterMap_eq_append_iff.mp h
  have n1 : r1 ≠ [] := by rintro rfl; exact hL h1.symm
  have n2 : r2 ≠ [] := by rintro rfl; exact hL' h2.symm
  have ht := joinWith_splitChar '\n' t
  have key : ∀ {a b : List Str}, a ≠ [] → b ≠ [] → joinWith ['\n'] (a ++ b) = joinWith ['\n'] a ++ '\n' :: joinWith ['\n'] b := by
    intro a
    induction a with
    | nil => intro b h; exact absurd rfl h
    | cons x a ih =>
      intro b _ hb
      cases a with
      | nil =>
        cases b with
        | nil => exact absurd rfl hb
        | cons y b => simp [joinWith]
      | cons y a =>
        have := ih (b := b) (by simp) hb
        simp only [List.cons_append, joinWith] at this ⊢
        rw [this]
        simp
  rw [hr, key n1 n2] at ht
  refine ⟨joinWith ['\n'] r1, '\n' :: joinWith ['\n'] r2, ht.symm, by simp, ?_⟩
  rw [splitChar_joinWith n1, h1]
  intro l hl
  exact splitChar_noNewline _ t l (by rw [hr]; exact List.mem_append_left _ hl)

/-- Cutting the lines of a message that remain when the marker lines are deleted. -/
theorem marked_cut {t : Str} {c : Cls} {v : Line} {raw ls ls' : List Line} (h : (splitChar '\n' t).filterMap parseLine = v :: raw)
    (hd : deleteMarkers c raw = ls ++ ls') (hne : ls' ≠ []) :
    ∃ p s raw', t = p ++ s ∧ s ≠ [] ∧ (splitChar '\n' p).filterMap parseLine = v :: raw' ∧ deleteMarkers c raw' = ls := by
  unfold deleteMarkers at hd
  obtain ⟨r1, r2, rfl, h1, h2⟩ := List.filter_eq_append_iff.mp hd
  obtain ⟨p, s, rfl, hs, hp⟩ := text_cut (L := v :: r1) (L' := r2) (by rw [h]; rfl) (by simp) (by rintro rfl; exact hne h2.symm)
  exact ⟨p, s, r1, rfl, hs, hp, h1⟩

theorem each_split {P : Val → List Line → Prop} : ∀ {xs ys : List Val} {ls : List Line}, Each P (xs ++ ys) ls →
    ∃ l l', ls = l ++ l' ∧ Each P xs l ∧ Each P ys l'
  | [], _, ls, h => ⟨[], ls, rfl, .nil, h⟩
  | _ :: xs, _, _, h => by
    cases h with
    | cons hx h =>
      obtain ⟨l, l', rfl, h1, h2⟩ := each_split h
      exact ⟨_, l', (List.append_assoc ..).symm, .cons hx h1, h2⟩

theorem each_ne {P : Val → List Line → Prop} (hP : ∀ x l, P x l → l ≠ []) {xs : List Val} {ls : List Line} (h : Each P xs ls)
    (hne : xs ≠ []) : ls ≠ [] := by
  cases h with
  | nil => exact absurd rfl hne
  | cons hx _ => simp [hP _ _ hx]

section
variable {K : Cls → List (Str × Val) → List Line → Prop}

theorem keyBlock_ne {c : Cls} {v : Val} {ls : List Line} (h : KeyBlockOf K c v ls) : ls ≠ [] := by
  cases h with
  | mk _ h _ => exact h

theorem head_prefix {l l' : List Line} (h : l ≠ []) : (l ++ l').head? = l.head? := by
  cases l with
  | nil => exact absurd rfl h
  | cons a l => rfl

theorem oem_cut {S C : Val → List Line → Prop} (hS : ∀ x l, S x l → l ≠ []) {m co : Val} {kept rest cms : List Val} (hk : kept ≠ [])
    (hr : rest ≠ []) : ∀ {A B : List Val} {ls : List Line},
    OemSegmentsOf K S C (A ++ oemSegment m co (kept ++ rest) cms :: B) ls →
    ∃ l l', ls = l ++ l' ∧ l ≠ [] ∧ l' ≠ [] ∧ OemSegmentsOf K S C (A ++ [oemSegment m co kept []]) l
  | [], B, _, h => by
    cases h with
    | @cons _ lm _ ld _ ls hm hd hs h1 h2 =>
      cases hd with
      | @mk texts _ lsv _ lcm ht hl hne hsv hcm =>
        obtain ⟨l1, l2, rfl, e1, e2⟩ := each_split hsv
        refine ⟨lm ++ (texts.map (fun t => [py "COMMENT", t]) ++ (l1 ++ [])) ++ [], l2 ++ lcm ++ ls, by simp, by simp [keyBlock_ne hm],
          by simp [each_ne hS e2 hr], ?_⟩
        exact .cons hm (.mk ht hl hk e1 .nil) .nil (by simp) (by simp)
  | _ :: A, B, _, h => by
    cases h with
    | @cons _ lm _ ld _ ls hm hd hs h1 h2 =>
      obtain ⟨l, l', rfl, hn, hn', h⟩ := oem_cut hS hk hr (A := A) hs
      refine ⟨lm ++ ld ++ l, l', by simp, by simp [hn], hn', ?_⟩
      exact .cons hm hd h (fun he x hx => h1 he x (List.mem_append_left _ hx)) (by
        rw [head_prefix hn] at h2
        exact fun he x hx => h2 he x (List.mem_append_left _ hx))

theorem tdm_cut {P : Val → List Line → Prop} (hP : ∀ x l, P x l → l ≠ []) {m co : Val} {kept rest : List Val} (hk : kept ≠ [])
    (hr : rest ≠ []) : ∀ {A B : List Val} {ls : List Line},
    TdmSegmentsOf K P (A ++ tdmSegment m (.obj .TdmData [(py "comment", co), (py "observation", .list (kept ++ rest))]) :: B) ls →
    ∃ l l', ls = l ++ l' ∧ l ≠ [] ∧ l' ≠ [] ∧
      TdmSegmentsOf K P (A ++ [tdmSegment m (.obj .TdmData [(py "comment", co), (py "observation", .list kept)])]) l
  | [], B, _, h => by
    cases h with
    | @cons _ lm _ ld _ ls hm hd hs h1 h2 =>
      cases hd with
      | @mk texts _ lo ht hl hne ho =>
        obtain ⟨l1, l2, rfl, e1, e2⟩ := each_split ho
        refine ⟨lm ++ (texts.map (fun t => [py "COMMENT", t]) ++ l1) ++ [], l2 ++ ls, by simp, by simp [keyBlock_ne hm],
          by simp [each_ne hP e2 hr], ?_⟩
        exact .cons hm (.mk ht hl hk e1) .nil (by simp) (by simp)
  | _ :: A, B, _, h => by
    cases h with
    | @cons _ lm _ ld _ ls hm hd hs h1 h2 =>
      obtain ⟨l, l', rfl, hn, hn', h⟩ := tdm_cut hP hk hr (A := A) hs
      refine ⟨lm ++ ld ++ l, l', by simp, by simp [hn], hn', ?_⟩
      exact .cons hm hd h (h1.imp (fun h x hx => h x (List.mem_append_left _ hx)) id) (by
        rw [head_prefix hn] at h2
        exact h2)

theorem aem_cut {P : AttitudeDecl → Val → List Line → Prop} (hP : ∀ D x l, P D x l → l ≠ []) {m co : Val} {kept rest : List Val}
    (hk : kept ≠ []) (hr : rest ≠ []) : ∀ {A B : List Val} {ls : List Line},
    AemSegmentsOf K P (A ++ aemSegment m (.obj .AemData [(py "comment", co), (py "attitude_state", .list (kept ++ rest))]) :: B) ls →
    ∃ l l', ls = l ++ l' ∧ l ≠ [] ∧ l' ≠ [] ∧
      AemSegmentsOf K P (A ++ [aemSegment m (.obj .AemData [(py "comment", co), (py "attitude_state", .list kept)])]) l
  | [], B, _, h => by
    cases h with
    | @cons _ _ lm _ ld _ ls hm hD hd hs h1 =>
      cases hd with
      | @mk texts _ lo ht hl hne ho =>
        obtain ⟨l1, l2, rfl, e1, e2⟩ := each_split ho
        refine ⟨lm ++ (texts.map (fun t => [py "COMMENT", t]) ++ l1) ++ [], l2 ++ ls, by simp, by simp [keyBlock_ne hm],
          by simp [each_ne (hP _) e2 hr], ?_⟩
        exact .cons hm hD (.mk ht hl hk e1) .nil (by simp)
  | _ :: A, B, _, h => by
    cases h with
    | @cons _ _ lm _ ld _ ls hm hD hd hs h1 =>
      obtain ⟨l, l', rfl, hn, hn', h⟩ := aem_cut hP hk hr (A := A) hs
      refine ⟨lm ++ ld ++ l, l', by simp, by simp [hn], hn', ?_⟩
      exact .cons hm hD hd h (fun he x hx => h1 he x (List.mem_append_left _ hx))

end

end Ndm
