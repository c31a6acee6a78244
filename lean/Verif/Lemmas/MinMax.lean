import Verif.Lemmas.Range

/-! What `getMinMax` finds when a block of lines starts exactly at the search index. -/

namespace Ndm

/-- `findFrom` finds an element that occurs at or after the start. -/
theorem findFrom_of_mem {key : Str} {keys : List Str} {start : Nat} (h : key ∈ keys.drop start) :
    ∃ i, findFrom key keys start = some i := by
  cases hf : findFrom key keys start with
  | some i => exact ⟨i, rfl⟩
  | none => exact absurd h (findFrom_none hf)

theorem min?_of_interval {l : List Nat} {a b : Nat} (h : ∀ i, i ∈ l → a ≤ i ∧ i < b) (ha : a ∈ l) :
    l.min? = some a := by
  rw [List.min?_eq_some_iff]
  exact ⟨ha, fun i hi => (h i hi).1⟩

theorem max?_of_interval {l : List Nat} {a b : Nat} (h : ∀ i, i ∈ l → a ≤ i ∧ i < b + 1) (hb : b ∈ l) :
    l.max? = some b := by
  rw [List.max?_eq_some_iff]
  exact ⟨hb, fun i hi => by have := (h i hi).2; omega⟩

/-- The hypotheses under which a block of keys `blk`, found between `pre` and `post`, is recognised as the section
with the keywords `tags`. -/
structure BlockAt (tags blk post : List Str) : Prop where
  /-- a keyword occurs only once in the block -/
  nodup : (blk.filter fun k => tags.contains k && k != py "COMMENT").Nodup
  /-- keywords absent from the block are absent from the rest of the file -/
  later : ∀ t ∈ tags, t ≠ py "COMMENT" → t ∈ post → t ∈ blk
  /-- a comment in the block belongs to the section -/
  comment : py "COMMENT" ∈ blk → py "COMMENT" ∈ tags
  notAlone : tags ≠ [py "COMMENT"]
  /-- the block starts and ends with keys of the section -/
  first : ∀ k, blk.head? = some k → k ∈ tags
  last : ∀ k, blk.getLast? = some k → k ∈ tags ∧ k ≠ py "COMMENT"
  /-- foreign keys inside the block are distinct and have no blanks -/
  foreign : (blk.filter fun k => !tags.contains k).Nodup
  foreignBlank : ∀ k ∈ blk, k ∉ tags → ' ' ∉ k

theorem length_one_iff {tags : List Str} (h : py "COMMENT" ∈ tags) (hn : tags ≠ [py "COMMENT"]) : tags.length ≠ 1 := by
  intro h1
  obtain ⟨t, rfl⟩ := List.length_eq_one_iff.mp h1
  simp at h
  exact hn (by rw [h])

/-- Positions in the block of the middle list. -/
theorem getElem?_mid {α : Type} {pre blk post : List α} {i : Nat} (h1 : pre.length ≤ i) (h2 : i < pre.length + blk.length) :
    (pre ++ blk ++ post)[i]? = blk[i - pre.length]? := by
  rw [List.append_assoc, List.getElem?_append_right h1, List.getElem?_append_left (by omega)]

theorem drop_pre {α : Type} (pre rest : List α) : (pre ++ rest).drop pre.length = rest := by simp

/-- The first occurrence at or after the block's start. -/
theorem findFrom_mid {pre blk post : List Str} {t : Str} (ht : t ∈ blk) :
    ∃ i, findFrom t (pre ++ blk ++ post) pre.length = some i ∧ pre.length ≤ i ∧ i < pre.length + blk.length ∧
      blk[i - pre.length]? = some t := by
  obtain ⟨i, hi⟩ := findFrom_of_mem (key := t) (keys := pre ++ blk ++ post) (start := pre.length)
    (by rw [List.append_assoc, drop_pre]; simp [ht])
  obtain ⟨h1, h2, h3, h4⟩ := findFrom_some hi
  obtain ⟨j, hj, hjt⟩ := List.getElem_of_mem ht
  have hlt : i < pre.length + blk.length := by
    apply Classical.byContradiction
    intro hc
    apply h4 (pre.length + j) (by omega) (by omega)
    rw [getElem?_mid (by omega) (by omega)]
    simp [hj, hjt]
  refine ⟨i, hi, h1, hlt, ?_⟩
  rw [getElem?_mid h1 hlt] at h3
  exact h3

theorem findFrom_absent {pre rest : List Str} {t : Str} (ht : t ∉ rest) :
    findFrom t (pre ++ rest) pre.length = none := by
  cases hf : findFrom t (pre ++ rest) pre.length with
  | none => rfl
  | some i =>
    obtain ⟨h1, h2, h3, -⟩ := findFrom_some hf
    rw [List.getElem?_append_right h1] at h3
    exact absurd (List.mem_of_getElem? h3) ht

/-- A key of the block that satisfies `p` has the position of its first occurrence if such keys are distinct. -/
theorem index_unique {blk : List Str} {p : Str → Bool} (hn : (blk.filter p).Nodup) {i j : Nat} {t : Str}
    (hp : p t = true) (hi : blk[i]? = some t) (hj : blk[j]? = some t) : i = j := by
  induction blk generalizing i j with
  | nil => simp at hi
  | cons b bs ih =>
    cases hpb : p b with
    | true =>
      rw [List.filter_cons_of_pos (by simpa using hpb), List.nodup_cons] at hn
      cases i with
      | zero =>
        cases j with
        | zero => rfl
        | succ j =>
          simp only [List.getElem?_cons_zero, Option.some.injEq, List.getElem?_cons_succ] at hi hj
          subst hi
          exact absurd (List.mem_filter.mpr ⟨List.mem_of_getElem? hj, hp⟩) hn.1
      | succ i =>
        cases j with
        | zero =>
          simp only [List.getElem?_cons_zero, Option.some.injEq, List.getElem?_cons_succ] at hi hj
          subst hj
          exact absurd (List.mem_filter.mpr ⟨List.mem_of_getElem? hi, hp⟩) hn.1
        | succ j =>
          simp only [List.getElem?_cons_succ] at hi hj
          rw [ih hn.2 hi hj]
    | false =>
      rw [List.filter_cons_of_neg (by simp [hpb])] at hn
      cases i with
      | zero => simp at hi; subst hi; rw [hp] at hpb; cases hpb
      | succ i =>
        cases j with
        | zero => simp at hj; subst hj; rw [hp] at hpb; cases hpb
        | succ j =>
          simp only [List.getElem?_cons_succ] at hi hj
          rw [ih hn hi hj]

/-- Membership in the final index list: the positions of the block's keys that belong to the section. -/
theorem mem_idx {tags pre blk post : List Str} (h : BlockAt tags blk post) (hne : blk ≠ []) :
    ∃ idx, processComments tags pre.length (pre ++ blk ++ post)
        ((tags.filter (· != py "COMMENT")).filterMap (findFrom · (pre ++ blk ++ post) pre.length)) = .ok idx ∧
      ∀ i, i ∈ idx ↔ pre.length ≤ i ∧ i < pre.length + blk.length ∧ ∃ t ∈ tags, blk[i - pre.length]? = some t := by
  set keys := pre ++ blk ++ post with hkeys
  set idx0 := (tags.filter (· != py "COMMENT")).filterMap (findFrom · keys pre.length) with hidx0
  have m0 : ∀ i, i ∈ idx0 ↔ pre.length ≤ i ∧ i < pre.length + blk.length ∧
      ∃ t ∈ tags, t ≠ py "COMMENT" ∧ blk[i - pre.length]? = some t := by
    intro i
    rw [hidx0, List.mem_filterMap]
    constructor
    · rintro ⟨t, ht, hf⟩
      simp only [List.mem_filter, bne_iff_ne, ne_eq] at ht
      have hmem : t ∈ blk := by
        obtain ⟨h1, h2, h3, -⟩ := findFrom_some hf
        have : t ∈ blk ++ post := by
          rw [hkeys, List.append_assoc, List.getElem?_append_right h1] at h3
          exact List.mem_of_getElem? h3
        rcases List.mem_append.mp this with h | h'
        · exact h
        · exact h.later t ht.1 ht.2 h'
      obtain ⟨i', hf', h1, h2, h3⟩ := findFrom_mid (pre := pre) (post := post) hmem
      rw [← hkeys, hf] at hf'
      cases hf'
      exact ⟨h1, h2, t, ht.1, ht.2, h3⟩
    · rintro ⟨h1, h2, t, ht, htc, h3⟩
      refine ⟨t, by simp [ht, htc], ?_⟩
      obtain ⟨i', hf', h1', h2', h3'⟩ := findFrom_mid (pre := pre) (post := post) (List.mem_of_getElem? h3)
      rw [← hkeys] at hf'
      have := index_unique h.nodup (t := t) (by simp [ht, htc]) h3 h3'
      rw [hf']
      congr 1
      omega
  have hlast : (pre.length + blk.length - 1) ∈ idx0 := by
    rw [m0]
    have hl : blk.getLast? = some (blk.getLast hne) := List.getLast?_eq_getLast_of_ne_nil hne
    obtain ⟨k1, k2⟩ := h.last _ hl
    have hpos : 0 < blk.length := List.length_pos_of_ne_nil hne
    refine ⟨by omega, by omega, _, k1, k2, ?_⟩
    rw [← hl, List.getLast?_eq_getElem?]
    congr 1
    omega
  have hmax : idx0.max? = some (pre.length + blk.length - 1) := by
    have hpos : 0 < blk.length := List.length_pos_of_ne_nil hne
    exact max?_of_interval (a := pre.length) (fun i hi => by have := (m0 i).mp hi; omega) hlast
  unfold processComments
  split
  · rename_i hc
    rw [if_neg (length_one_iff (by simpa using hc) h.notAlone), hmax]
    refine ⟨_, rfl, ?_⟩
    intro i
    have hpos : 0 < blk.length := List.length_pos_of_ne_nil hne
    simp only [List.mem_append, m0, List.mem_filter, List.mem_range', beq_iff_eq]
    constructor
    · rintro (⟨h1, h2, t, ht, -, h3⟩ | ⟨⟨j, hj, rfl⟩, hk⟩)
      · exact ⟨h1, h2, t, ht, h3⟩
      · have hb : pre.length + 1 * j < pre.length + blk.length := by omega
        refine ⟨by omega, hb, py "COMMENT", by simpa using hc, ?_⟩
        rw [← getElem?_mid (post := post) (by omega) hb]
        exact hk
    · rintro ⟨h1, h2, t, ht, h3⟩
      by_cases htc : t = py "COMMENT"
      · right
        refine ⟨⟨i - pre.length, by omega, by omega⟩, ?_⟩
        rw [hkeys, getElem?_mid h1 h2, h3, htc]
      · exact Or.inl ⟨h1, h2, t, ht, htc, h3⟩
  · rename_i hc
    refine ⟨_, rfl, ?_⟩
    intro i
    rw [m0]
    constructor
    · rintro ⟨h1, h2, t, ht, -, h3⟩; exact ⟨h1, h2, t, ht, h3⟩
    · rintro ⟨h1, h2, t, ht, h3⟩
      refine ⟨h1, h2, t, ht, ?_, h3⟩
      rintro rfl
      exact hc (by simpa using ht)

theorem nodup_map_positions {blk : List Str} {p : Str → Bool} (hn : (blk.filter p).Nodup) {l : List Nat} {a : Nat}
    (hl : l.Nodup) (h : ∀ i ∈ l, a ≤ i ∧ ∃ t, blk[i - a]? = some t ∧ p t = true) :
    (l.map fun i => (blk[i - a]?).getD []).Nodup := by
  rw [List.nodup_map_iff_inj_on hl]
  intro i hi j hj hij
  obtain ⟨h1, t, ht, hpt⟩ := h i hi
  obtain ⟨h2, u, hu, hpu⟩ := h j hj
  rw [ht, hu] at hij
  simp at hij
  subst hij
  have := index_unique hn hpt ht hu
  omega

/-- A block of keys is found with exactly its range. -/
theorem getMinMax_block {tags pre blk post : List Str} {pref : Option Str}
    (h : BlockAt (withPrefix tags pre.length (pre ++ blk ++ post) pref) blk post) (hne : blk ≠ []) :
    getMinMax tags pre.length (pre ++ blk ++ post) pref false =
      .ok ((pre.length, pre.length + blk.length), withPrefix tags pre.length (pre ++ blk ++ post) pref) := by
  unfold getMinMax
  simp only
  set tags' := withPrefix tags pre.length (pre ++ blk ++ post) pref with htags
  obtain ⟨idx, hpc, hmem⟩ := mem_idx (pre := pre) h hne
  rw [hpc]
  simp only [bind, Except.bind]
  have hpos : 0 < blk.length := List.length_pos_of_ne_nil hne
  have hfirst : pre.length ∈ idx := by
    rw [hmem]
    refine ⟨Nat.le_refl _, by omega, ?_⟩
    obtain ⟨k, r, rfl⟩ : ∃ k r, blk = k :: r := by
      cases blk with
      | nil => exact absurd rfl hne
      | cons k r => exact ⟨k, r, rfl⟩
    exact ⟨k, h.first k rfl, by simp⟩
  have hlast : pre.length + blk.length - 1 ∈ idx := by
    rw [hmem]
    have hl : blk.getLast? = some (blk.getLast hne) := List.getLast?_eq_getLast_of_ne_nil hne
    refine ⟨by omega, by omega, _, (h.last _ hl).1, ?_⟩
    rw [← hl, List.getLast?_eq_getElem?]
    congr 1
    omega
  have hmin : idx.min? = some pre.length :=
    min?_of_interval (b := pre.length + blk.length) (fun i hi => by have := (hmem i).mp hi; omega) hfirst
  have hmax : idx.max? = some (pre.length + blk.length - 1) :=
    max?_of_interval (a := pre.length) (fun i hi => by have := (hmem i).mp hi; omega) hlast
  have hchop : chopAll (pre ++ blk ++ post) idx = .ok (idx.insertionSort (· ≤ ·)) := by
    unfold chopAll
    rw [hmin, hmax]
    simp only
    unfold chop
    simp only
    rw [if_neg]
    intro hcon
    rw [Bool.and_eq_true] at hcon
    have hdiff : ∀ n ∈ (List.range' pre.length (pre.length + blk.length - 1 + 1 - pre.length)).filter
        (fun n => !(idx.insertionSort (· ≤ ·)).contains n), pre.length ≤ n ∧ n < pre.length + blk.length ∧
          ∃ t, blk[n - pre.length]? = some t ∧ t ∉ tags' := by
      intro n hn
      simp only [List.mem_filter, List.mem_range', Bool.not_eq_true', List.contains_eq_mem, decide_eq_false_iff_not,
        List.mem_insertionSort] at hn
      obtain ⟨⟨j, hj, rfl⟩, hni⟩ := hn
      have hlt : pre.length + 1 * j < pre.length + blk.length := by omega
      have hjl : pre.length + 1 * j - pre.length < blk.length := by omega
      refine ⟨by omega, hlt, blk[pre.length + 1 * j - pre.length], by simp, ?_⟩
      intro hin
      apply hni
      rw [hmem]
      exact ⟨by omega, hlt, _, hin, by simp⟩
    have hkeysEq : ((List.range' pre.length (pre.length + blk.length - 1 + 1 - pre.length)).filter
        (fun n => !(idx.insertionSort (· ≤ ·)).contains n)).map (fun n => ((pre ++ blk ++ post)[n]?).getD []) =
        ((List.range' pre.length (pre.length + blk.length - 1 + 1 - pre.length)).filter
        (fun n => !(idx.insertionSort (· ≤ ·)).contains n)).map (fun n => (blk[n - pre.length]?).getD []) := by
      apply List.map_congr_left
      intro n hn
      obtain ⟨h1, h2, -⟩ := hdiff n hn
      rw [getElem?_mid h1 h2]
    rw [hkeysEq] at hcon
    rcases Bool.or_eq_true _ _ ▸ hcon.2 with hsp | hdup
    · rw [List.any_eq_true] at hsp
      obtain ⟨k, hk, hsp⟩ := hsp
      obtain ⟨n, hn, rfl⟩ := List.mem_map.mp hk
      obtain ⟨h1, h2, t, ht, htt⟩ := hdiff n hn
      rw [ht] at hsp
      exact h.foreignBlank t (List.mem_of_getElem? ht) htt (by simpa using hsp)
    · have := nodup_map_positions (p := fun k => !tags'.contains k) h.foreign (a := pre.length)
        (l := (List.range' pre.length (pre.length + blk.length - 1 + 1 - pre.length)).filter
        (fun n => !(idx.insertionSort (· ≤ ·)).contains n)) (List.Nodup.filter _ List.nodup_range')
        (fun n hn => by
          obtain ⟨h1, h2, t, ht, htt⟩ := hdiff n hn
          exact ⟨h1, t, ht, by simpa using htt⟩)
      rw [Bool.not_eq_true', decide_eq_false_iff_not] at hdup
      exact hdup this
  rw [hchop]
  simp only [pure, Except.pure, Except.ok.injEq, Prod.mk.injEq, and_true]
  unfold limits
  have hmin' : (idx.insertionSort (· ≤ ·)).min? = some pre.length :=
    min?_of_interval (b := pre.length + blk.length)
      (fun i hi => by have := (hmem i).mp ((List.mem_insertionSort _).mp hi); omega) ((List.mem_insertionSort _).mpr hfirst)
  have hmax' : (idx.insertionSort (· ≤ ·)).max? = some (pre.length + blk.length - 1) :=
    max?_of_interval (a := pre.length)
      (fun i hi => by have := (hmem i).mp ((List.mem_insertionSort _).mp hi); omega) ((List.mem_insertionSort _).mpr hlast)
  rw [hmin', hmax']
  simp
  omega

/-- A section none of whose keywords occurs after the search index is empty there. -/
theorem getMinMax_absent {tags pre rest : List Str} {pref : Option Str} {single : Bool}
    (h : ∀ t ∈ tags, t ≠ py "COMMENT" → t ∉ rest) (hp : ∀ p, pref = some p → ∀ k ∈ rest, startsWith k p = false)
    (hn : tags ≠ [py "COMMENT"]) :
    getMinMax tags pre.length (pre ++ rest) pref single = .ok ((pre.length, pre.length), tags) := by
  have hw : withPrefix tags pre.length (pre ++ rest) pref = tags := by
    unfold withPrefix
    cases pref with
    | none => rfl
    | some p =>
      simp only [drop_pre]
      rw [List.filter_eq_nil_iff.mpr (fun k hk => by simp [hp p rfl k hk]), List.append_nil]
  unfold getMinMax
  simp only [hw]
  have hidx : (tags.filter (· != py "COMMENT")).filterMap (findFrom · (pre ++ rest) pre.length) = [] := by
    rw [List.filterMap_eq_nil_iff]
    intro t ht
    simp only [List.mem_filter, bne_iff_ne, ne_eq] at ht
    exact findFrom_absent (h t ht.1 ht.2)
  rw [hidx]
  have hpc : processComments tags pre.length (pre ++ rest) [] = .ok [] := by
    unfold processComments
    split
    · rename_i hc
      rw [if_neg (length_one_iff (by simpa using hc) hn)]
      rfl
    · rfl
  rw [hpc]
  rfl

/-- The range of a section whose only keyword is `COMMENT`: one comment line at most. -/
theorem getMinMax_comment {pre rest : List Str} {k : Str} (hk : rest.head? = some k) :
    getMinMax [py "COMMENT"] pre.length (pre ++ rest) none false =
      .ok ((pre.length, if k = py "COMMENT" then pre.length + 1 else pre.length), [py "COMMENT"]) := by
  obtain ⟨r, rfl⟩ : ∃ r, rest = k :: r := by
    cases rest with
    | nil => cases hk
    | cons a r => simp at hk; subst hk; exact ⟨r, rfl⟩
  unfold getMinMax
  simp only [withPrefix]
  have h0 : ([py "COMMENT"].filter (· != py "COMMENT")).filterMap (findFrom · (pre ++ k :: r) pre.length) = [] := by
    have : [py "COMMENT"].filter (· != py "COMMENT") = [] := by decide
    rw [this]; rfl
  rw [h0]
  unfold processComments
  rw [if_pos (by decide), if_pos (by rfl)]
  have hg : pyGet (pre ++ k :: r) pre.length = .ok k := by
    rw [pyGet_ok_iff]; simp
  rw [hg]
  by_cases hkc : k = py "COMMENT"
  · subst hkc
    simp [bind, Except.bind, pure, Except.pure, chopAll, chop, limits]
  · simp [bind, Except.bind, pure, Except.pure, chopAll, limits, hkc]

/-- A container without keywords of its own is empty wherever it is looked for. -/
theorem getMinMax_nil (start : Nat) (keys : List Str) :
    getMinMax [] start keys none false = .ok ((start, start), []) := rfl

end Ndm
