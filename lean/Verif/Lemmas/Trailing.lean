import Verif.SpecUnknown
import Verif.Lemmas.Erase
import Verif.Props.Total
import Verif.Lemmas.ChangeRead

/-! Lines at the end of the file that no section takes. -/

namespace Ndm

theorem findFrom_append {key : Str} {keys K : List Str} (h : key ∉ K) (start : Nat) :
    findFrom key (keys ++ K) start = findFrom key keys start := by
  unfold findFrom
  rw [List.drop_append, List.findIdx?_append]
  have : (K.drop (start - keys.length)).findIdx? (· == key) = none := by
    rw [List.findIdx?_eq_none_iff]
    intro x hx
    have := List.mem_of_mem_drop hx
    simp only [beq_eq_false_iff_ne, ne_eq]
    rintro rfl
    exact h this
  rw [this]
  simp

theorem pyGet_append {α : Type} {l : List α} {i : Nat} {x : α} (h : pyGet l i = .ok x) (l' : List α) : pyGet (l ++ l') i = .ok x := by
  have hi := pyGet_lt h
  rw [pyGet_ok_iff] at h ⊢
  rw [List.getElem?_append_left hi, h]

section
variable {keys K : List Str}

theorem withPrefix_append {tags : List Str} {start : Nat} {pref : Option Str} (hp : ∀ p, pref = some p → ∀ k ∈ K, startsWith k p = false) :
    withPrefix tags start (keys ++ K) pref = withPrefix tags start keys pref := by
  cases pref with
  | none => rfl
  | some p =>
    have : (K.drop (start - keys.length)).filter (fun k => startsWith k p) = [] := by
      rw [List.filter_eq_nil_iff]
      intro k hk
      simp [hp p rfl k (List.mem_of_mem_drop hk)]
    simp only [withPrefix, List.drop_append, List.filter_append, this, List.append_nil]

theorem withPrefix_avoid {tags : List Str} {start : Nat} {pref : Option Str} (hp : ∀ p, pref = some p → ∀ k ∈ K, startsWith k p = false)
    (ht : ∀ t ∈ tags, t ∉ K) : ∀ t ∈ withPrefix tags start keys pref, t ∉ K := by
  cases pref with
  | none => exact ht
  | some p =>
    intro t h hK
    simp only [withPrefix, List.mem_append, List.mem_filter] at h
    rcases h with h | ⟨-, h⟩
    · exact ht t h hK
    · rw [hp p rfl t hK] at h
      cases h

theorem max_lt {start n hi : Nat} {idx : List Nat} (h : IdxOk start n idx) (hm : idx.max? = some hi) : hi < n :=
  (h hi (List.max?_mem hm)).2

theorem processComments_append {tags : List Str} {start : Nat} {idx r : List Nat} (hi : IdxOk start keys.length idx)
    (h : processComments tags start keys idx = .ok r) : processComments tags start (keys ++ K) idx = .ok r := by
  unfold processComments at h ⊢
  split at h
  · rename_i hc
    rw [if_pos hc]
    split at h
    · rename_i h1
      rw [if_pos h1]
      obtain ⟨k, hk, h⟩ := bind_ok_iff.mp h
      exact bind_ok_iff.mpr ⟨k, pyGet_append hk K, h⟩
    · rename_i h1
      rw [if_neg h1]
      split at h
      · exact h
      · rename_i hi' hm
        have := max_lt hi hm
        rw [← h]
        congr 2
        refine List.filter_congr fun i hmem => ?_
        rw [List.mem_range'] at hmem
        obtain ⟨j, hj, rfl⟩ := hmem
        rw [List.getElem?_append_left (by omega)]
  · rename_i hc
    rw [if_neg hc]
    exact h

theorem chopAll_append {start : Nat} {idx : List Nat} (hi : IdxOk start keys.length idx) :
    chopAll (keys ++ K) idx = chopAll keys idx := by
  unfold chopAll
  split
  · rename_i lo hi' hlo hm
    have := max_lt hi hm
    unfold chop
    have : ((List.range' lo (hi' + 1 - lo)).filter fun n => !(idx.insertionSort (· ≤ ·)).contains n).map (fun n => ((keys ++ K)[n]?).getD []) =
        ((List.range' lo (hi' + 1 - lo)).filter fun n => !(idx.insertionSort (· ≤ ·)).contains n).map (fun n => (keys[n]?).getD []) := by
      refine List.map_congr_left fun i hmem => ?_
      have hmem := List.mem_of_mem_filter hmem
      rw [List.mem_range'] at hmem
      obtain ⟨j, hj, rfl⟩ := hmem
      rw [List.getElem?_append_left (by omega)]
    simp only [this]
  · rfl

theorem getMinMax_append {tags : List Str} {start : Nat} {pref : Option Str} {single : Bool} {r : (Nat × Nat) × List Str}
    (hp : ∀ p, pref = some p → ∀ k ∈ K, startsWith k p = false) (ht : ∀ t ∈ tags, t ∉ K)
    (h : getMinMax tags start keys pref single = .ok r) : getMinMax tags start (keys ++ K) pref single = .ok r ∧ ∀ t ∈ r.2, t ∉ K := by
  unfold getMinMax at h ⊢
  have hw := withPrefix_avoid (keys := keys) (start := start) hp ht
  rw [withPrefix_append hp]
  have hf : ((withPrefix tags start keys pref).filter (· != py "COMMENT")).filterMap (findFrom · (keys ++ K) start) =
      ((withPrefix tags start keys pref).filter (· != py "COMMENT")).filterMap (findFrom · keys start) := by
    refine List.filterMap_congr fun t hm => ?_
    exact findFrom_append (hw t (List.mem_of_mem_filter hm)) start
  obtain ⟨i1, h1, h⟩ := bind_ok_iff.mp h
  obtain ⟨i2, h2, h⟩ := bind_ok_iff.mp h
  cases h
  have k1 := idxOk_find ((withPrefix tags start keys pref).filter (· != py "COMMENT")) keys start
  have k2 := idxOk_comments k1 h1
  refine ⟨?_, hw⟩
  simp only [hf]
  refine bind_ok_iff.mpr ⟨i1, processComments_append k1 h1, bind_ok_iff.mpr ⟨i2, ?_, rfl⟩⟩
  rw [chopAll_append k2]
  exact h2

theorem getMinMax_end {tags : List Str} {pref : Option Str} {single : Bool} (hK : K ≠ []) (hc : py "COMMENT" ∉ K)
    (hp : ∀ p, pref = some p → ∀ k ∈ K, startsWith k p = false) (ht : ∀ t ∈ tags, t ∉ K) :
    getMinMax tags keys.length (keys ++ K) pref single = .ok ((keys.length, keys.length), tags) := by
  have hw : withPrefix tags keys.length (keys ++ K) pref = tags := by
    rw [withPrefix_append hp]
    cases pref with
    | none => rfl
    | some p => simp [withPrefix]
  unfold getMinMax
  simp only [hw]
  have hf : (tags.filter (· != py "COMMENT")).filterMap (findFrom · (keys ++ K) keys.length) = [] := by
    rw [List.filterMap_eq_nil_iff]
    intro t hm
    rw [findFrom_append (ht t (List.mem_of_mem_filter hm))]
    simp [findFrom]
  rw [hf]
  have hpc : processComments tags keys.length (keys ++ K) [] = .ok [] := by
    unfold processComments
    split
    · split
      · cases K with
        | nil => exact absurd rfl hK
        | cons k K =>
          have : pyGet (keys ++ k :: K) keys.length = .ok k := by
            rw [pyGet_ok_iff]
            simp
          rw [this]
          have : k ≠ py "COMMENT" := by
            rintro rfl
            exact hc List.mem_cons_self
          simp only [bind, Except.bind, this, if_false, pure, Except.pure]
      · rfl
    · rfl
  rw [hpc]
  rfl
end

theorem countFloatLines_append {a : List Line} {L : List Line} (h : countFloatLines L = 0) :
    countFloatLines (a ++ L) = countFloatLines a := by
  induction a with
  | nil => exact h
  | cons l a ih =>
    rw [List.cons_append]
    unfold countFloatLines
    rw [ih]

/-- What is assumed of the lines at the end: a first line, no marker of dates, and keywords that nothing looks for. -/
structure Ignored (L : List Line) : Prop where
  ne : L ≠ []
  comment : py "COMMENT" ∉ keysOf L
  user : ∀ k ∈ keysOf L, startsWith k (py "USER_DEFINED") = false
  float : countFloatLines L = 0
  first : ∃ k v r L', L = (k :: v :: r) :: L' ∧ Dateless k ∧ Dateless v

section
variable {lines L : List Line} (hL : Ignored L)

include hL

theorem ignored_prefix (c : Cls) : ∀ p, prefixOf c = some p → ∀ k ∈ keysOf L, startsWith k p = false := by
  intro p hp k hk
  unfold prefixOf at hp
  split at hp
  · cases hp; exact hL.user k hk
  · cases hp

theorem rootRange_append {e : Elem} {init : Nat} {r : (Nat × Nat) × List Str} (hi : init ≤ lines.length) (ht : ∀ t ∈ e.kw, t ∉ keysOf L)
    (h : rootRange e (keysOf lines) lines init = .ok r) :
    rootRange e (keysOf (lines ++ L)) (lines ++ L) init = .ok r ∧ ∀ t ∈ r.2, t ∉ keysOf L := by
  have hkeys : keysOf (lines ++ L) = keysOf lines ++ keysOf L := by simp [keysOf]
  unfold rootRange at h ⊢
  rw [hkeys]
  split at h
  · rename_i hs
    rw [if_pos hs]
    unfold identifySpecial at h ⊢
    split at h
    · rename_i h1
      rw [if_pos h1]
      obtain ⟨l, hl, h⟩ := bind_ok_iff.mp h
      refine ⟨bind_ok_iff.mpr ⟨l, pyGet_append hl L, h⟩, ?_⟩
      obtain ⟨s, -, h⟩ := bind_ok_iff.mp h
      obtain ⟨d, -, h⟩ := bind_ok_iff.mp h
      obtain ⟨b, -, h⟩ := bind_ok_iff.mp h
      cases h
      exact ht
    · rename_i h1
      rw [if_neg h1]
      split at h
      · rename_i h2
        rw [if_pos h2]
        obtain ⟨l, hl, h⟩ := bind_ok_iff.mp h
        refine ⟨bind_ok_iff.mpr ⟨l, pyGet_append hl L, h⟩, ?_⟩
        obtain ⟨s, -, h⟩ := bind_ok_iff.mp h
        obtain ⟨d, -, h⟩ := bind_ok_iff.mp h
        obtain ⟨b, -, h⟩ := bind_ok_iff.mp h
        cases h
        exact ht
      · rename_i h2
        rw [if_neg h2]
        split at h
        · rename_i h3
          rw [if_pos h3]
          obtain ⟨⟨⟨lo, hi'⟩, kw⟩, hg, h⟩ := bind_ok_iff.mp h
          have hr := getMinMax_range hg
          have hle : hi' ≤ lines.length := by
            have := hr.2.2
            simp only [keysOf, List.length_map] at this
            omega
          obtain ⟨hg', hkw⟩ := getMinMax_append (ignored_prefix hL e.cls) ht hg
          have hcount : countFloatLines ((lines ++ L).drop hi') = countFloatLines (lines.drop hi') := by
            rw [List.drop_append_of_le_length hle, countFloatLines_append hL.float]
          refine ⟨bind_ok_iff.mpr ⟨_, hg', ?_⟩, ?_⟩
          · rw [← h]
            dsimp only
            rw [hcount]
          · dsimp only at h
            split at h <;> (cases h; exact hkw)
        · cases h
  · rename_i hs
    rw [if_neg hs]
    exact getMinMax_append (ignored_prefix hL e.cls) ht h

theorem isDateStr_no {w : Str} (h : isNumeric (w.take 4) = false) : isDateStr w = .ok false := by
  unfold isDateStr
  rw [h]
  rfl

theorem rootRange_end {e : Elem} (ht : ∀ t ∈ e.kw, t ∉ keysOf L) :
    rootRange e (keysOf (lines ++ L)) (lines ++ L) lines.length = .ok ((lines.length, lines.length), e.kw) := by
  have hkeys : keysOf (lines ++ L) = keysOf lines ++ keysOf L := by simp [keysOf]
  have hlen : (keysOf lines).length = lines.length := by simp [keysOf]
  have hne : keysOf L ≠ [] := by
    have := hL.ne
    simpa [keysOf] using this
  have hg := fun s => getMinMax_end (keys := keysOf lines) (single := s) hne hL.comment (ignored_prefix hL e.cls) ht
  rw [hlen] at hg
  obtain ⟨k, v, r, L', hfirst, ⟨w, ws, hw, hwn⟩, ⟨x, xs, hx, hxn⟩⟩ := hL.first
  have hget : pyGet (lines ++ L) lines.length = .ok (k :: v :: r) := by
    rw [pyGet_ok_iff, hfirst]
    simp
  unfold rootRange
  rw [hkeys]
  split
  · unfold identifySpecial
    split
    · rw [hget]
      simp only [bind, Except.bind, pyGet, List.getElem?_cons_zero, hw, isDateStr_no hL hwn]
      rfl
    · split
      · rw [hget]
        simp only [bind, Except.bind, pyGet, List.getElem?_cons_zero, List.getElem?_cons_succ, hx, isDateStr_no hL hxn]
        rfl
      · split
        · rw [hg]
          simp only [bind, Except.bind, if_true]
          rfl
        · rename_i h0 h1 h2 h3
          simp only [isSpecialIdent, Bool.or_eq_true, decide_eq_true_eq] at h0 h1 h2 h3
          tauto
  · exact hg _

theorem listLoop_append {ident ident' : Nat → Except PyErr (Nat × (Nat × Nat) × Elem)}
    (hid : ∀ i r, i ≤ lines.length → ident i = .ok r → ident' i = .ok r ∧ r.1 ≤ lines.length)
    (hend : ∃ e, ident' lines.length = .ok (lines.length, (lines.length, lines.length), e)) :
    ∀ (fuel fuel' init : Nat) (acc : List Elem) (r : Nat × List Elem), fuel < fuel' → init ≤ lines.length →
      listLoop ident lines.length fuel init acc = .ok r →
      listLoop ident' (lines ++ L).length fuel' init acc = .ok r ∧ r.1 ≤ lines.length
  | 0, _, _, _, _, _, _, h => by cases h
  | fuel + 1, 0, _, _, _, hf, _, _ => by omega
  | fuel + 1, fuel' + 1, init, acc, r, hf, hi, h => by
    unfold listLoop at h ⊢
    obtain ⟨⟨mx, mm, e⟩, h1, h⟩ := bind_ok_iff.mp h
    obtain ⟨h1', hmx⟩ := hid init _ hi h1
    rw [h1']
    simp only at h hmx
    simp only [bind, Except.bind]
    split at h
    · rename_i hc
      cases h
      rw [if_pos hc]
      exact ⟨rfl, hmx⟩
    · rename_i hc
      rw [if_neg hc]
      split at h
      · rename_i hc
        cases h
        rw [if_pos hc]
        exact ⟨rfl, hi⟩
      · rename_i hc
        rw [if_neg hc]
        split at h
        · rename_i hge
          cases h
          have hmx : mx = lines.length := by omega
          subst hmx
          have hpos : 0 < L.length := List.length_pos_of_ne_nil hL.ne
          rw [if_neg (by rw [List.length_append]; omega)]
          refine ⟨?_, Nat.le_refl _⟩
          obtain ⟨e', he'⟩ := hend
          cases fuel' with
          | zero => omega
          | succ fuel' =>
            unfold listLoop
            rw [he']
            simp only [bind, Except.bind, and_self, if_true]
            rfl
        · rename_i hge
          rw [if_neg (by rw [List.length_append]; omega)]
          exact listLoop_append hid hend fuel fuel' mx _ r (by omega) hmx h

mutual
theorem identElem_end : ∀ (e : Elem), (∀ t ∈ e.allKw, t ∉ keysOf L) →
    ∃ e', identElem (keysOf (lines ++ L)) (lines ++ L) e lines.length = .ok (lines.length, (lines.length, lines.length), e') ∧
      e'.kw = e.kw
  | ⟨name, cls, subs, kw, isList, single, minMax, template⟩, ht => by
    simp only [Elem.allKw, List.mem_append] at ht
    have h1 := rootRange_end hL (lines := lines) (e := ⟨name, cls, subs, kw, isList, single, minMax, template⟩) fun t h => ht t (.inl h)
    obtain ⟨es, h2⟩ := identSubs_end subs fun t h => ht t (.inr h)
    refine ⟨⟨name, cls, es, kw, isList, single, minMax, template⟩, ?_, rfl⟩
    simp only [identElem, h1, h2, bind, Except.bind]
    rfl

theorem identSubs_end : ∀ (ss : List Elem), (∀ t ∈ Elem.allKws ss, t ∉ keysOf L) →
    ∃ es, identSubs (keysOf (lines ++ L)) (lines ++ L) lines.length ss lines.length = .ok (lines.length, es)
  | [], _ => ⟨[], by simp only [identSubs]⟩
  | s :: ss, ht => by
    simp only [Elem.allKws, List.mem_append] at ht
    obtain ⟨e', h1, hkw⟩ := identElem_end s fun t h => ht t (.inl h)
    obtain ⟨es, h2⟩ := identSubs_end ss fun t h => ht t (.inr h)
    simp only [identSubs]
    split
    · refine ⟨es, ?_⟩
      have : listLoop (fun i => identElem (keysOf (lines ++ L)) (lines ++ L) s i) (lines ++ L).length ((lines ++ L).length + 1) lines.length [] =
          .ok (lines.length, []) := by
        unfold listLoop
        rw [h1]
        simp only [bind, Except.bind, and_self, if_true]
        rfl
      rw [this]
      simp only [bind, Except.bind, h2]
      rfl
    · have hr : ∃ mm kw, researchRange (keysOf (lines ++ L)) (lines ++ L) lines.length (lines.length, lines.length) e' = .ok (mm, kw) := by
        unfold researchRange
        split
        · have : ∀ t ∈ e'.kw, t ∉ keysOf L := by
            rw [hkw]
            intro t h
            refine ht t (.inl ?_)
            cases s
            simp only [Elem.allKw, List.mem_append]
            exact .inl h
          exact ⟨_, _, rootRange_end hL this⟩
        · exact ⟨_, _, rfl⟩
      obtain ⟨mm, kw, hr⟩ := hr
      refine ⟨{ e' with minMax := some mm, kw } :: es, ?_⟩
      rw [h1]
      simp only [bind, Except.bind, hr, h2]
      rfl
end

mutual
theorem identElem_append : ∀ (e : Elem) (init : Nat) (r : Nat × (Nat × Nat) × Elem), (∀ t ∈ e.allKw, t ∉ keysOf L) → init ≤ lines.length →
    identElem (keysOf lines) lines e init = .ok r →
    identElem (keysOf (lines ++ L)) (lines ++ L) e init = .ok r ∧ ∀ t ∈ r.2.2.kw, t ∉ keysOf L
  | ⟨name, cls, subs, kw, isList, single, minMax, template⟩, init, r, ht, hi, h => by
    simp only [Elem.allKw, List.mem_append] at ht
    simp only [identElem] at h ⊢
    obtain ⟨⟨mm, kw'⟩, hr, h⟩ := bind_ok_iff.mp h
    obtain ⟨⟨mx, subs'⟩, hs, h⟩ := bind_ok_iff.mp h
    cases h
    have h1 := rootRange_range (n := lines.length) (by simp [keysOf]) (Nat.le_refl _) hi hr
    obtain ⟨hr', hkw⟩ := rootRange_append hL hi (fun t h => ht t (.inl h)) hr
    have hs' := identSubs_append subs mm.1 mm.2 _ (fun t h => ht t (.inr h)) (by omega) (by omega) hs
    refine ⟨?_, hkw⟩
    rw [hr']
    simp only [bind, Except.bind, hs']
    rfl

theorem identSubs_append : ∀ (ss : List Elem) (rootMin init : Nat) (r : Nat × List Elem), (∀ t ∈ Elem.allKws ss, t ∉ keysOf L) →
    rootMin ≤ lines.length → init ≤ lines.length → identSubs (keysOf lines) lines rootMin ss init = .ok r →
    identSubs (keysOf (lines ++ L)) (lines ++ L) rootMin ss init = .ok r
  | [], rootMin, init, r, _, _, _, h => by
    simp only [identSubs] at h ⊢
    exact h
  | s :: ss, rootMin, init, r, ht, hm, hi, h => by
    simp only [Elem.allKws, List.mem_append] at ht
    have hts : ∀ t ∈ s.allKw, t ∉ keysOf L := fun t h => ht t (.inl h)
    simp only [identSubs] at h ⊢
    split at h
    · rename_i hl
      rw [if_pos hl]
      obtain ⟨⟨m1, es1⟩, h1, h⟩ := bind_ok_iff.mp h
      obtain ⟨⟨m2, es2⟩, h2, h⟩ := bind_ok_iff.mp h
      cases h
      have hid : ∀ i r, i ≤ lines.length → identElem (keysOf lines) lines s i = .ok r →
          identElem (keysOf (lines ++ L)) (lines ++ L) s i = .ok r ∧ r.1 ≤ lines.length := by
        intro i r hi h
        exact ⟨(identElem_append s i r hts hi h).1,
          (identElem_range (n := lines.length) (by simp [keysOf]) (Nat.le_refl _) s i r.1 r.2.1 r.2.2 hi h).1.2.2.2⟩
      obtain ⟨e', he', -⟩ := identElem_end hL (lines := lines) s hts
      obtain ⟨k1, k2⟩ := listLoop_append hL hid ⟨e', he'⟩ _ ((lines ++ L).length + 1) init [] _ (by
        have : 0 < L.length := List.length_pos_of_ne_nil hL.ne
        rw [List.length_append]; omega) hi h1
      have k3 := identSubs_append ss rootMin m1 _ (fun t h => ht t (.inr h)) hm k2 h2
      rw [k1]
      simp only [bind, Except.bind, k3]
      rfl
    · rename_i hl
      rw [if_neg hl]
      obtain ⟨⟨m1, mm1, s1⟩, h1, h⟩ := bind_ok_iff.mp h
      obtain ⟨⟨mm2, kw2⟩, h2, h⟩ := bind_ok_iff.mp h
      obtain ⟨⟨m3, es3⟩, h3, h⟩ := bind_ok_iff.mp h
      cases h
      obtain ⟨k1, hkw⟩ := identElem_append s init _ hts hi h1
      have r1 := identElem_range (n := lines.length) (by simp [keysOf]) (Nat.le_refl _) s init m1 mm1 s1 hi h1
      have k2 : researchRange (keysOf (lines ++ L)) (lines ++ L) rootMin mm1 s1 = .ok (mm2, kw2) := by
        unfold researchRange at h2 ⊢
        split at h2
        · rename_i hc
          rw [if_pos hc]
          exact (rootRange_append hL hm hkw h2).1
        · rename_i hc
          rw [if_neg hc]
          exact h2
      have k3 := identSubs_append ss rootMin m1 _ (fun t h => ht t (.inr h)) hm (by omega) h3
      rw [k1]
      simp only [bind, Except.bind, k2, k3]
      rfl
end
end

/-! ## Building -/

section
variable {lines L : List Line} (hq : py "QUATERNION_TYPE" ∉ keysOf L) (he : py "EULER_ROT_SEQ" ∉ keysOf L)
  (ha : py "ATTITUDE_TYPE" ∉ keysOf L)

theorem metaValue_append {key : Str} (h : key ∉ keysOf L) (start : Nat) :
    metaValue key (keysOf (lines ++ L)) (lines ++ L) start = metaValue key (keysOf lines) lines start := by
  have hkeys : keysOf (lines ++ L) = keysOf lines ++ keysOf L := by simp [keysOf]
  unfold metaValue
  rw [hkeys, findFrom_append h]
  split
  · rfl
  · rename_i i hi
    have : i < lines.length := by
      have := (findFrom_some hi).2.1
      simpa [keysOf] using this
    have : pyGet (lines ++ L) i = pyGet lines i := by
      unfold pyGet
      rw [List.getElem?_append_left this]
    rw [this]

include hq he ha

theorem sectionDoc_env (e : Elem) (loc : List Line) (hi : Nat) :
    sectionDoc (keysOf (lines ++ L)) (lines ++ L) e loc hi = sectionDoc (keysOf lines) lines e loc hi := by
  have h1 := fun start => metaValue_append (lines := lines) ha start
  have h2 := fun start => metaValue_append (lines := lines) hq start
  have h3 := fun start => metaValue_append (lines := lines) he start
  simp only [sectionDoc, prepareAemSegment, attTemplate, quaternionPart, eulerPart, h1, h2, h3]

theorem build_env : ∀ (fuel : Nat) (e : Elem) (full : List Line),
    build (keysOf (lines ++ L)) (lines ++ L) fuel e full = build (keysOf lines) lines fuel e full
  | 0, _, _ => rfl
  | fuel + 1, e, full => by
    unfold build
    have ih : ∀ e full, build (keysOf (lines ++ L)) (lines ++ L) fuel e full = build (keysOf lines) lines fuel e full := build_env fuel
    simp only [sectionDoc_env hq he ha, ih]

omit hq he ha in
theorem build_full (keys : List Str) : ∀ (fuel : Nat) (e : Elem) (start : Nat), Ranged lines.length start e →
    ∀ {keys : List Str} {ls : List Line}, build keys ls fuel e (lines ++ L) = build keys ls fuel e lines
  | 0, _, _, _, _, _ => rfl
  | fuel + 1, e, start, hr, keys, ls => by
    cases hr with
    | mk a b hmm h1 h2 h3 hs =>
      have hd : ((lines ++ L).drop a).take (b - a) = (lines.drop a).take (b - a) := by
        rw [List.drop_append_of_le_length (by omega), List.take_append_of_le_length (by rw [List.length_drop]; omega)]
      unfold build
      rw [hmm]
      simp only
      rw [hd]
      split
      · rfl
      · split
        · rfl
        · cases hsd : sectionDoc keys ls e ((lines.drop a).take (b - a)) b with
          | error err => rfl
          | ok doc? =>
            cases doc? with
            | none => rfl
            | some p =>
              obtain ⟨doc, subs⟩ := p
              have hsubs : ∀ s ∈ subs, Ranged lines.length a s := by
                rcases sectionDoc_subs hsd with rfl | ⟨-, hp⟩
                · exact hs
                · exact prepare_ranged hs hp
              show (bindDoc e.cls doc >>= _) = (bindDoc e.cls doc >>= _)
              congr 1
              funext obj
              exact foldlM_congr fun s hsm o => by
                rw [build_full keys fuel s a (hsubs s hsm)]
end

/-! ## Unknown keywords -/

theorem ccsdsKwList_known {c : Cls} {k : Str} (h : k ∈ ccsdsKwList c) : Known k := by
  unfold ccsdsKwList at h
  split at h
  · rename_i ms hm
    exact .inr (.inl ⟨c, ms, hm, h⟩)
  · obtain ⟨f, hf, hk⟩ := List.mem_filterMap.mp h
    exact .inl ⟨c, f, hf, hk⟩

theorem mem_allKws {k : Str} : ∀ {ss : List Elem}, k ∈ Elem.allKws ss → ∃ s ∈ ss, k ∈ s.allKw
  | [], h => by cases h
  | s :: ss, h => by
    simp only [Elem.allKws, List.mem_append] at h
    rcases h with h | h
    · exact ⟨s, List.mem_cons_self, h⟩
    · obtain ⟨x, hx, h⟩ := mem_allKws h
      exact ⟨x, List.mem_cons_of_mem _ hx, h⟩

theorem extract_known : ∀ (fuel : Nat) (name : Str) (c : Cls) (isList : Bool), ∀ k ∈ (extract fuel name c isList).allKw, Known k
  | 0, _, _, _, k, h => by
    simp only [extract, Elem.allKw, Elem.allKws, List.append_nil, List.not_mem_nil] at h
  | fuel + 1, name, c, isList, k, h => by
    simp only [extract] at h
    split at h
    · simp only [Elem.allKw, Elem.allKws, List.append_nil, List.mem_append] at h
      rcases h with h | h
      · exact ccsdsKwList_known (List.mem_of_mem_filter h)
      · obtain ⟨f, -, h⟩ := List.mem_flatMap.mp h
        cases ht : f.ty.cls? with
        | none => simp [ht] at h
        | some d =>
          simp only [ht, Option.map_some, Option.getD_some] at h
          exact ccsdsKwList_known h
    · simp only [Elem.allKw, List.mem_append] at h
      rcases h with h | h
      · exact ccsdsKwList_known (List.mem_of_mem_filter h)
      · obtain ⟨s, hs, h⟩ := mem_allKws h
        obtain ⟨f, -, hf⟩ := List.mem_filterMap.mp hs
        cases ht : f.ty.cls? with
        | none => simp [ht] at hf
        | some d =>
          simp only [ht, Option.map_some, Option.some.injEq] at hf
          subst hf
          exact extract_known fuel _ d _ k h

theorem objectMap_known (c : Cls) : ∀ k ∈ (objectMap c).allKw, Known k := by
  intro k h
  unfold objectMap at h
  have hk := extract_known treeDepth ((c.idVersion.map (·.1)).getD []) c false k
  generalize extract treeDepth ((c.idVersion.map (·.1)).getD []) c false = e at h hk
  cases e
  simp only [Elem.allKw, List.mem_append] at h hk
  rcases h with (h | h) | h
  · exact hk (.inl h)
  · refine .inr (.inr (.inr (.inl ?_)))
    simp only [List.mem_cons, List.not_mem_nil, or_false] at h ⊢
    tauto
  · exact hk (.inr h)

theorem deleted_known (c : Cls) : ∀ k ∈ deletedKeywords c, Known k := by
  intro k h
  refine .inr (.inr (.inr (.inr ?_)))
  revert k
  unfold deletedKeywords
  split <;> decide +kernel

theorem foreign_keys {L : List Line} (h : ∀ l ∈ L, Foreign l) : ∀ k ∈ keysOf L, ¬ Known k := by
  intro k hk
  obtain ⟨l, hl, rfl⟩ := List.mem_map.mp hk
  obtain ⟨k, v, r, rfl, hn, -⟩ := h l hl
  exact hn

theorem foreign_ignored {L : List Line} (hne : L ≠ []) (h : ∀ l ∈ L, Foreign l) : Ignored L := by
  have hk := foreign_keys h
  refine ⟨hne, fun hc => hk _ hc (.inr (.inr (.inr (.inl (by simp))))), ?_, ?_, ?_⟩
  · intro k hm
    cases hs : startsWith k (py "USER_DEFINED") with
    | false => rfl
    | true =>
      refine absurd (.inr (.inr (.inl ?_))) (hk k hm)
      simpa [startsWith] using hs
  · cases L with
    | nil => rfl
    | cons l L =>
      obtain ⟨k, v, r, rfl, -, ⟨w, ws, hw, -⟩, -, hf⟩ := h l List.mem_cons_self
      simp [countFloatLines, hw, hf w ws hw]
  · cases L with
    | nil => exact absurd rfl hne
    | cons l L =>
      obtain ⟨k, v, r, rfl, -, h1, h2, -⟩ := h l List.mem_cons_self
      exact ⟨k, v, r, L, rfl, h1, h2⟩

theorem sigLines_append {ls ls' cs cs' : List Str} (h : SigLines ls cs) (h' : SigLines ls' cs') : SigLines (ls ++ ls') (cs ++ cs') := by
  induction h with
  | nil => exact h'
  | blank hb _ ih => exact .blank hb ih
  | line hc hn _ ih => exact .line hc hn ih

/-- Reading with lines of unknown keywords at the end. -/
theorem kvnFromString_trailing {src src' : Str} {ls more cs : List Str} {L : List Line} (h1 : TextLines src ls)
    (h2 : TextLines src' (ls ++ more)) (hs : SigLines more cs) (hi : List.Forall₂ LineItems cs L) (hf : ∀ l ∈ L, Foreign l) {v : Val}
    (hv : kvnFromString src = .ok v) : kvnFromString src' = .ok v := by
  have hpre : (splitChar '\n' src').filterMap parseLine = (splitChar '\n' src).filterMap parseLine ++ L := by
    rw [splitChar_textLines h1, splitChar_textLines h2, List.filterMap_append, filterMap_sigLines hs,
      lineItems_filterMap (sigLines_cores hs) hi]
  unfold kvnFromString at hv ⊢
  obtain ⟨lines, hl, hv⟩ := bind_ok_iff.mp hv
  obtain ⟨c, hc, hv⟩ := bind_ok_iff.mp hv
  obtain ⟨⟨mx, mm, tree⟩, hid, hv⟩ := bind_ok_iff.mp hv
  have hl' : preprocess src' = .ok (lines ++ L) := by
    unfold preprocess at hl ⊢
    rw [hpre]
    cases hp : (splitChar '\n' src).filterMap parseLine with
    | nil => rw [hp] at hl; cases hl
    | cons l0 rest =>
      rw [hp] at hl
      simp only [List.cons_append]
      obtain ⟨k, hk, hl⟩ := bind_ok_iff.mp hl
      cases hl
      exact bind_ok_iff.mpr ⟨k, hk, rfl⟩
  have hc' : identifyDataType (lines ++ L) = .ok c := by
    unfold identifyDataType at hc ⊢
    obtain ⟨l, hl, hc⟩ := bind_ok_iff.mp hc
    exact bind_ok_iff.mpr ⟨l, pyGet_append hl L, hc⟩
  have hkeys := foreign_keys hf
  have hd : deleteMarkers c (lines ++ L) = deleteMarkers c lines ++ L := by
    unfold deleteMarkers
    rw [List.filter_append]
    congr 1
    rw [List.filter_eq_self]
    intro l hl
    simp only [Bool.not_eq_true', List.contains_eq_mem, decide_eq_false_iff_not]
    exact fun hm => hkeys _ (List.mem_map.mpr ⟨l, hl, rfl⟩) (deleted_known c _ hm)
  refine bind_ok_iff.mpr ⟨_, hl', bind_ok_iff.mpr ⟨c, hc', ?_⟩⟩
  dsimp only
  rw [hd]
  generalize deleteMarkers c lines = ms at hid hv
  dsimp only at hid hv
  by_cases hne : L = []
  · subst hne
    rw [List.append_nil]
    exact bind_ok_iff.mpr ⟨_, hid, hv⟩
  have hig := foreign_ignored hne hf
  have hkw : ∀ t ∈ (objectMap c).allKw, t ∉ keysOf L := fun t ht hm => hkeys t hm (objectMap_known c t ht)
  refine bind_ok_iff.mpr ⟨_, (identElem_append hig (objectMap c) 0 _ hkw (Nat.zero_le _) hid).1, ?_⟩
  have hr := C39_ranges ms _ _ _ _ _ (Nat.zero_le _) hid
  have hR : Ranged ms.length 0 { tree with minMax := some mm } := .mk mm.1 mm.2 rfl (by omega) (by omega) (by omega) hr.2.2.2.2
  dsimp only
  have meta_known : ∀ k ∈ [py "QUATERNION_TYPE", py "EULER_ROT_SEQ", py "ATTITUDE_TYPE"], k ∉ keysOf L := by
    intro k hk hm
    have : ∀ k ∈ [py "QUATERNION_TYPE", py "EULER_ROT_SEQ", py "ATTITUDE_TYPE"], ∃ f ∈ Cls.AemMetadata.fields, f.ccsds = some k := by
      decide +kernel
    exact hkeys k hm (.inl ⟨.AemMetadata, this k hk⟩)
  rw [build_env (meta_known _ (by simp)) (meta_known _ (by simp)) (meta_known _ (by simp)),
    build_full [] buildFuel _ 0 hR]
  exact hv

end Ndm
