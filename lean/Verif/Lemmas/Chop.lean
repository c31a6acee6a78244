import Verif.Lemmas.MinMax
import Mathlib.Data.List.Perm.Subperm

/-! What `getMinMax` finds when a block is followed by a data line and the section's keywords may occur again later. -/

namespace Ndm

/-- A strictly increasing list that contains `lo, …, lo+n-1`, nothing smaller and not `lo+n`. -/
theorem sorted_split {s : List Nat} {lo n : Nat} (hs : s.Pairwise (· < ·)) (hlo : ∀ i ∈ s, lo ≤ i)
    (hin : ∀ i, lo ≤ i → i < lo + n → i ∈ s) (hout : lo + n ∉ s) :
    s = List.range' lo n ++ s.filter (fun i => decide (lo + n < i)) := by
  have hf : (s.filter (fun i => decide (lo + n < i))).Pairwise (· < ·) := hs.filter _
  have hr : (List.range' lo n ++ s.filter (fun i => decide (lo + n < i))).Pairwise (· < ·) := by
    rw [List.pairwise_append]
    refine ⟨List.pairwise_lt_range', hf, ?_⟩
    intro a ha b hb
    simp only [List.mem_range'_1] at ha
    simp only [List.mem_filter, decide_eq_true_eq] at hb
    omega
  have hmem : ∀ i, i ∈ s ↔ i ∈ List.range' lo n ++ s.filter (fun i => decide (lo + n < i)) := by
    intro i
    simp only [List.mem_append, List.mem_range'_1, List.mem_filter, decide_eq_true_eq]
    constructor
    · intro hi
      have h1 := hlo i hi
      have h2 : i ≠ lo + n := fun h => hout (h ▸ hi)
      by_cases h3 : i < lo + n
      · exact .inl ⟨h1, h3⟩
      · exact .inr ⟨hi, by omega⟩
    · rintro (⟨h1, h2⟩ | ⟨h, -⟩)
      · exact hin i h1 h2
      · exact h
  have hperm : s.Perm (List.range' lo n ++ s.filter (fun i => decide (lo + n < i))) :=
    (List.perm_ext_iff_of_nodup (hs.imp Nat.ne_of_lt) (hr.imp Nat.ne_of_lt)).mpr hmem
  exact hperm.eq_of_pairwise (fun a b _ _ h1 h2 => absurd h1 (by omega)) hs hr

theorem zip_later {lo : Nat} : ∀ (s : List Nat) (m : Nat), s.Pairwise (· < ·) → (∀ i ∈ s, lo < i) →
    ((s.zip (List.range' lo m)).filter (fun p => decide (p.1 = p.2))) = []
  | [], _, _, _ => by simp
  | _ :: _, 0, _, _ => by simp
  | a :: s, m + 1, hs, h => by
    rw [List.range'_succ, List.zip_cons_cons, List.filter_cons_of_neg]
    · rw [List.pairwise_cons] at hs
      refine zip_later s m hs.2 ?_
      intro i hi
      have h1 := h a (by simp)
      have h2 := hs.1 i hi
      omega
    · have := h a (by simp)
      simp only [decide_eq_true_eq]
      omega

theorem filter_zip_self : ∀ (l r : List Nat), ((l.zip l ++ r.zip r).filter (fun p => decide (p.1 = p.2))).map (·.1) =
    (l.zip l ++ r.zip r).map (·.1) := by
  intro l r
  congr 1
  rw [List.filter_eq_self]
  have h : ∀ (l : List Nat) (p : Nat × Nat), p ∈ l.zip l → p.1 = p.2 := by
    intro l
    induction l with
    | nil => simp
    | cons a l ih =>
      intro p hp
      rw [List.zip_cons_cons, List.mem_cons] at hp
      rcases hp with rfl | hp
      · rfl
      · exact ih p hp
  intro p hp
  rcases List.mem_append.mp hp with hp | hp
  · simpa using h l p hp
  · simpa using h r p hp

/-- The part of a strictly increasing index list that the check for non-consecutive data keeps. -/
theorem chop_keeps {s : List Nat} {lo n hi : Nat} (hs : s.Pairwise (· < ·)) (hlo : ∀ i ∈ s, lo ≤ i)
    (hin : ∀ i, lo ≤ i → i < lo + n → i ∈ s) (hout : lo + n ∉ s) (hhi : lo + n ≤ hi) :
    ((s.zip (List.range' lo (hi + 1 - lo))).filter (fun p => decide (p.1 = p.2))).map (·.1) = List.range' lo n := by
  have hr : List.range' lo (hi + 1 - lo) = List.range' lo n ++ List.range' (lo + n) (hi + 1 - lo - n) := by
    rw [List.range'_append_1]
    congr 1
    omega
  rw [sorted_split hs hlo hin hout, hr, List.zip_append rfl, List.filter_append, List.map_append,
    zip_later _ _ (hs.filter _) (by
      intro i hi
      simp only [List.mem_filter, decide_eq_true_eq] at hi
      exact hi.2)]
  have h := filter_zip_self (List.range' lo n) []
  simp only [List.zip_nil_left, List.append_nil] at h
  rw [h]
  simp only [List.map_nil, List.append_nil]
  exact List.map_fst_zip (Nat.le_refl _)

theorem findFrom_inj {t u : Str} {keys : List Str} {start i : Nat} (h1 : findFrom t keys start = some i)
    (h2 : findFrom u keys start = some i) : t = u := by
  obtain ⟨-, -, h3, -⟩ := findFrom_some h1
  obtain ⟨-, -, h4, -⟩ := findFrom_some h2
  rw [h3] at h4
  exact Option.some.inj h4

theorem filterMap_nodup {tags keys : List Str} {start : Nat} (h : tags.Nodup) :
    (tags.filterMap (findFrom · keys start)).Nodup := by
  induction tags with
  | nil => simp
  | cons t ts ih =>
    rw [List.nodup_cons] at h
    rw [List.filterMap_cons]
    cases hf : findFrom t keys start with
    | none => exact ih h.2
    | some i =>
      refine List.nodup_cons.mpr ⟨?_, ih h.2⟩
      intro hm
      obtain ⟨u, hu, hfu⟩ := List.mem_filterMap.mp hm
      exact h.1 (findFrom_inj hf hfu ▸ hu)

/-- Keys that make the reader give up what follows them: one with a space, or one that is repeated. -/
def Breaks (gap : List Str) : Prop := (∃ k ∈ gap, ' ' ∈ k) ∨ ¬ gap.Nodup

theorem Breaks.ne {gap : List Str} (h : Breaks gap) : gap ≠ [] := by
  rintro rfl
  rcases h with ⟨k, hk, -⟩ | h
  · cases hk
  · exact h .nil

/-- A list with the keys at consecutive positions among its values breaks where those keys do. -/
theorem breaks_diff {keys gap : List Str} {q : Nat} {diff : List Nat} (hg : ∀ i, i < gap.length → keys[q + i]? = gap[i]?)
    (hd : ∀ i, i < gap.length → q + i ∈ diff) (hnd : diff.Nodup) (h : Breaks gap) :
    (((diff.map fun n => (keys[n]?).getD []).any (·.contains ' ')) ||
      !decide (diff.map fun n => (keys[n]?).getD []).Nodup) = true := by
  rw [Bool.or_eq_true]
  rcases h with ⟨k, hk, hs⟩ | h
  · left
    obtain ⟨i, hi, rfl⟩ := List.mem_iff_getElem.mp hk
    rw [List.any_eq_true]
    refine ⟨gap[i], List.mem_map.mpr ⟨_, hd i hi, ?_⟩, by simpa using hs⟩
    rw [hg i hi, List.getElem?_eq_getElem hi]
    rfl
  · right
    simp only [Bool.not_eq_true', decide_eq_false_iff_not]
    intro hn
    apply h
    rw [List.nodup_iff_injective_get]
    intro i j hij
    have h1 := List.inj_on_of_nodup_map hn (hd i i.2) (hd j j.2) (by
      rw [hg i i.2, hg j j.2, List.getElem?_eq_getElem i.2, List.getElem?_eq_getElem j.2]
      simpa using hij)
    exact Fin.ext (by omega)

/-- A block whose keys all belong to the section, followed by lines that are none of its keyword lines, one with a space
or two with the same key, is found with exactly its range even if its keywords occur again later. -/
theorem getMinMax_chop {tags pre blk gap post : List Str} (hn : tags.Nodup)
    (hnd : (blk.filter fun k => k != py "COMMENT").Nodup) (hin : ∀ t ∈ blk, t ∈ tags) (hne : blk ≠ [])
    (hlast : ∀ t, blk.getLast? = some t → t ≠ py "COMMENT") (hk : Breaks gap) (hkt : ∀ k ∈ gap, k ∉ tags) :
    getMinMax tags pre.length (pre ++ blk ++ (gap ++ post)) none false =
      .ok ((pre.length, pre.length + blk.length), tags) := by
  set keys := pre ++ blk ++ (gap ++ post) with hkeys
  have hpos : 0 < blk.length := List.length_pos_of_ne_nil hne
  have hgpos : 0 < gap.length := List.length_pos_of_ne_nil hk.ne
  have hq : ∀ i, i < gap.length → keys[pre.length + blk.length + i]? = gap[i]? := by
    intro i hi
    rw [hkeys, List.getElem?_append_right (by simp), List.length_append, Nat.add_sub_cancel_left,
      List.getElem?_append_left hi]
  set idx0 := (tags.filter (· != py "COMMENT")).filterMap (findFrom · keys pre.length) with hidx0
  have hnd0 : idx0.Nodup := filterMap_nodup (hn.filter _)
  have h0 : ∀ i ∈ idx0, pre.length ≤ i ∧ i < keys.length ∧ ∃ t ∈ tags, t ≠ py "COMMENT" ∧ keys[i]? = some t := by
    intro i hi
    obtain ⟨t, ht, hf⟩ := List.mem_filterMap.mp hi
    simp only [List.mem_filter, bne_iff_ne, ne_eq] at ht
    obtain ⟨h1, h2, h3, -⟩ := findFrom_some hf
    exact ⟨h1, h2, t, ht.1, ht.2, h3⟩
  have hin0 : ∀ i t, pre.length ≤ i → i < pre.length + blk.length → blk[i - pre.length]? = some t → t ≠ py "COMMENT" →
      i ∈ idx0 := by
    intro i t h1 h2 h3 htc
    rw [hidx0, List.mem_filterMap]
    have htb := List.mem_of_getElem? h3
    refine ⟨t, by simp [hin t htb, htc], ?_⟩
    obtain ⟨i', hf', h1', h2', h3'⟩ := findFrom_mid (pre := pre) (post := gap ++ post) htb
    rw [← hkeys] at hf'
    have := index_unique hnd (t := t) (by simp [htc]) h3 h3'
    rw [hf']
    congr 1
    omega
  have hlast0 : (pre.length + blk.length - 1) ∈ idx0 := by
    have hl : blk.getLast? = some (blk.getLast hne) := List.getLast?_eq_getLast_of_ne_nil hne
    refine hin0 _ _ (by omega) (by omega) ?_ (hlast _ hl)
    rw [← hl, List.getLast?_eq_getElem?]
    congr 1
    omega
  obtain ⟨hi, hmax⟩ : ∃ hi, idx0.max? = some hi := by
    cases hm : idx0.max? with
    | none => rw [List.max?_eq_none_iff] at hm; rw [hm] at hlast0; simp at hlast0
    | some hi => exact ⟨hi, rfl⟩
  have hmax' := List.max?_eq_some_iff.mp hmax
  have hhi : pre.length + blk.length - 1 ≤ hi := hmax'.2 _ hlast0
  -- the final index list
  obtain ⟨idx, hpc, hnd1, hge, hkey, hall, hle, hhim⟩ : ∃ idx, processComments tags pre.length keys idx0 = .ok idx ∧ idx.Nodup ∧
      (∀ i ∈ idx, pre.length ≤ i) ∧ (∀ i ∈ idx, ∃ t ∈ tags, keys[i]? = some t) ∧
      (∀ i, pre.length ≤ i → i < pre.length + blk.length → i ∈ idx) ∧ (∀ i ∈ idx, i ≤ hi) ∧ hi ∈ idx := by
    unfold processComments
    split
    · rename_i hc
      have hc' : py "COMMENT" ∈ tags := by simpa using hc
      by_cases h1 : tags.length = 1
      · exfalso
        obtain ⟨t, rfl⟩ := List.length_eq_one_iff.mp h1
        simp only [List.mem_singleton] at hc'
        obtain ⟨-, -, u, hu, huc, -⟩ := h0 _ hlast0
        simp only [List.mem_singleton] at hu
        exact huc (hu.trans hc'.symm)
      · rw [if_neg h1, hmax]
        refine ⟨_, rfl, ?_, ?_, ?_, ?_, ?_, ?_⟩
        · rw [List.nodup_append]
          refine ⟨hnd0, List.Nodup.filter _ List.nodup_range', ?_⟩
          rintro a ha b hb rfl
          obtain ⟨-, -, t, -, htc, hat⟩ := h0 a ha
          simp only [List.mem_filter, beq_iff_eq] at hb
          rw [hat] at hb
          exact htc (Option.some.inj hb.2)
        · intro i hi'
          rcases List.mem_append.mp hi' with h | h
          · exact (h0 i h).1
          · simp only [List.mem_filter, List.mem_range'_1] at h
            exact h.1.1
        · intro i hi'
          rcases List.mem_append.mp hi' with h | h
          · obtain ⟨-, -, t, ht, -, hit⟩ := h0 i h
            exact ⟨t, ht, hit⟩
          · simp only [List.mem_filter, beq_iff_eq] at h
            exact ⟨_, hc', h.2⟩
        · intro i h2 h3
          have hlt : i - pre.length < blk.length := by omega
          by_cases htc : blk[i - pre.length] = py "COMMENT"
          · refine List.mem_append_right _ (List.mem_filter.mpr ⟨?_, ?_⟩)
            · simp only [List.mem_range'_1]; omega
            · rw [hkeys, getElem?_mid h2 h3, List.getElem?_eq_getElem hlt, htc]
              simp
          · exact List.mem_append_left _ (hin0 i _ h2 h3 (List.getElem?_eq_getElem hlt) htc)
        · intro i hi'
          rcases List.mem_append.mp hi' with h | h
          · exact hmax'.2 i h
          · simp only [List.mem_filter, List.mem_range'_1] at h
            have := h.1.2
            omega
        · exact List.mem_append_left _ hmax'.1
    · rename_i hc
      have hc' : py "COMMENT" ∉ tags := by simpa using hc
      refine ⟨_, rfl, hnd0, fun i h => (h0 i h).1, ?_, ?_, fun i h => hmax'.2 i h, hmax'.1⟩
      · intro i h
        obtain ⟨-, -, t, ht, -, hit⟩ := h0 i h
        exact ⟨t, ht, hit⟩
      · intro i h2 h3
        have hlt : i - pre.length < blk.length := by omega
        refine hin0 i _ h2 h3 (List.getElem?_eq_getElem hlt) ?_
        intro htc
        exact hc' (htc ▸ hin _ (List.getElem_mem hlt))
  have hlo : pre.length ∈ idx := hall _ (Nat.le_refl _) (by omega)
  have hmin : idx.min? = some pre.length := by
    rw [List.min?_eq_some_iff]
    exact ⟨hlo, hge⟩
  have hmax1 : idx.max? = some hi := by
    rw [List.max?_eq_some_iff]
    exact ⟨hhim, hle⟩
  have hqns : ∀ i, i < gap.length → pre.length + blk.length + i ∉ idx := by
    intro i hi' hm
    obtain ⟨t, ht, hit⟩ := hkey _ hm
    rw [hq i hi', List.getElem?_eq_getElem hi'] at hit
    exact hkt _ (List.getElem_mem hi') (Option.some.inj hit ▸ ht)
  have hqn : pre.length + blk.length ∉ idx := hqns 0 hgpos
  have hsorted : (idx.insertionSort (· ≤ ·)).Pairwise (· < ·) := by
    have h1 : (idx.insertionSort (· ≤ ·)).Pairwise (· ≤ ·) := List.pairwise_insertionSort (· ≤ ·) idx
    have h2 : (idx.insertionSort (· ≤ ·)).Nodup := (List.perm_insertionSort (· ≤ ·) idx).nodup_iff.mpr hnd1
    exact (h1.and h2).imp fun ⟨a, b⟩ => Nat.lt_of_le_of_ne a b
  have hms : ∀ i, i ∈ idx.insertionSort (· ≤ ·) ↔ i ∈ idx := fun i => List.mem_insertionSort _
  have hchop : ∃ fin, chopAll keys idx = .ok fin ∧ fin.min? = some pre.length ∧
      fin.max? = some (pre.length + blk.length - 1) := by
    unfold chopAll
    rw [hmin, hmax1]
    simp only
    by_cases hcase : hi = pre.length + blk.length - 1
    · -- nothing later
      have hdiff : (List.range' pre.length (hi + 1 - pre.length)).filter
          (fun n => !(idx.insertionSort (· ≤ ·)).contains n) = [] := by
        rw [List.filter_eq_nil_iff]
        intro n hn'
        simp only [List.mem_range'_1] at hn'
        simp only [Bool.not_eq_true', List.contains_eq_mem, decide_eq_false_iff_not, not_not, hms]
        exact hall n (by omega) (by omega)
      unfold chop
      simp only [hdiff, List.isEmpty_nil, Bool.not_true, Bool.false_and, Bool.false_eq_true, if_false]
      refine ⟨_, rfl, ?_, ?_⟩
      · rw [List.min?_eq_some_iff]
        exact ⟨(hms _).mpr hlo, fun i h => hge i ((hms i).mp h)⟩
      · rw [List.max?_eq_some_iff, ← hcase]
        exact ⟨(hms _).mpr hhim, fun i h => hle i ((hms i).mp h)⟩
    · -- the data line lies between
      have hlt : pre.length + blk.length < hi := by
        have : hi ≠ pre.length + blk.length := fun h => hqn (h ▸ hhim)
        omega
      have hfar : pre.length + blk.length + gap.length ≤ hi := by
        by_contra hc
        exact hqns (hi - (pre.length + blk.length)) (by omega)
          (by rwa [show pre.length + blk.length + (hi - (pre.length + blk.length)) = hi by omega])
      have hqd : ∀ i, i < gap.length → pre.length + blk.length + i ∈
          (List.range' pre.length (hi + 1 - pre.length)).filter (fun n => !(idx.insertionSort (· ≤ ·)).contains n) := by
        intro i hi'
        rw [List.mem_filter]
        refine ⟨by simp only [List.mem_range'_1]; omega, ?_⟩
        simp only [Bool.not_eq_true', List.contains_eq_mem, decide_eq_false_iff_not, hms]
        exact hqns i hi'
      have hany := breaks_diff hq hqd (List.Nodup.filter _ List.nodup_range') hk
      unfold chop
      simp only
      rw [if_pos (by
        rw [hany, Bool.and_true, Bool.not_eq_true', List.isEmpty_eq_false_iff]
        exact List.ne_nil_of_mem (hqd 0 hgpos))]
      have hlen : ¬ (List.range' pre.length (hi + 1 - pre.length)).length < (idx.insertionSort (· ≤ ·)).length := by
        have hsub : (idx.insertionSort (· ≤ ·)).Subperm (List.range' pre.length (hi + 1 - pre.length)) := by
          apply List.Nodup.subperm (hsorted.imp Nat.ne_of_lt)
          intro i h
          have h' := (hms i).mp h
          simp only [List.mem_range'_1]
          have := hge i h'
          have := hle i h'
          omega
        have := hsub.length_le
        omega
      rw [if_neg hlen]
      refine ⟨_, rfl, ?_, ?_⟩
      · rw [chop_keeps hsorted (fun i h => hge i ((hms i).mp h)) (fun i h1 h2 => (hms i).mpr (hall i h1 h2))
          (fun h => hqn ((hms _).mp h)) (by omega), List.min?_eq_some_iff]
        exact ⟨by simp only [List.mem_range'_1]; omega, fun i h => by simp only [List.mem_range'_1] at h; omega⟩
      · rw [chop_keeps hsorted (fun i h => hge i ((hms i).mp h)) (fun i h1 h2 => (hms i).mpr (hall i h1 h2))
          (fun h => hqn ((hms _).mp h)) (by omega), List.max?_eq_some_iff]
        exact ⟨by simp only [List.mem_range'_1]; omega, fun i h => by simp only [List.mem_range'_1] at h; omega⟩
  obtain ⟨fin, hfin, hmin', hmax2⟩ := hchop
  unfold getMinMax
  simp only [withPrefix, ← hidx0, hpc, bind, Except.bind, hfin, pure, Except.pure]
  unfold limits
  rw [hmin', hmax2]
  simp
  omega

/-- A section none of whose keywords stands at the start is found later or not at all. -/
theorem getMinMax_later {tags pre rest : List Str} {k : Str} (hn : tags.Nodup) (hna : tags ≠ [py "COMMENT"])
    (hk : rest.head? = some k) (hkt : k ∉ tags) :
    ∃ lo hi, getMinMax tags pre.length (pre ++ rest) none false = .ok ((lo, hi), tags) ∧
      (lo = pre.length ∧ hi = pre.length ∨ pre.length < lo ∧ lo < hi) := by
  set keys := pre ++ rest with hkeys
  have hq : keys[pre.length]? = some k := by
    rw [hkeys, List.getElem?_append_right (Nat.le_refl _), Nat.sub_self]
    cases rest with
    | nil => simp at hk
    | cons a b => simpa using hk
  set idx0 := (tags.filter (· != py "COMMENT")).filterMap (findFrom · keys pre.length) with hidx0
  have hnd0 : idx0.Nodup := filterMap_nodup (hn.filter _)
  have hgt : ∀ {i t}, keys[i]? = some t → t ∈ tags → pre.length ≤ i → pre.length < i := by
    intro i t hi ht hle
    rcases Nat.lt_or_eq_of_le hle with h | h
    · exact h
    · subst h
      rw [hq] at hi
      exact absurd (Option.some.inj hi ▸ ht) hkt
  have h0 : ∀ i ∈ idx0, pre.length < i ∧ ∃ t, t ≠ py "COMMENT" ∧ keys[i]? = some t := by
    intro i hi
    obtain ⟨t, ht, hf⟩ := List.mem_filterMap.mp hi
    simp only [List.mem_filter, bne_iff_ne, ne_eq] at ht
    obtain ⟨h1, -, h3, -⟩ := findFrom_some hf
    exact ⟨hgt h3 ht.1 h1, t, ht.2, h3⟩
  obtain ⟨idx, hpc, hnd, hall⟩ : ∃ idx, processComments tags pre.length keys idx0 = .ok idx ∧ idx.Nodup ∧
      ∀ i ∈ idx, pre.length < i := by
    unfold processComments
    split
    · rename_i hc
      have hc' : py "COMMENT" ∈ tags := by simpa using hc
      rw [if_neg (length_one_iff hc' hna)]
      split
      · exact ⟨_, rfl, hnd0, fun i hi => (h0 i hi).1⟩
      · refine ⟨_, rfl, ?_, ?_⟩
        · rw [List.nodup_append]
          refine ⟨hnd0, List.Nodup.filter _ List.nodup_range', ?_⟩
          rintro a ha b hb rfl
          obtain ⟨-, t, htc, hat⟩ := h0 a ha
          simp only [List.mem_filter, beq_iff_eq] at hb
          rw [hat] at hb
          exact htc (Option.some.inj hb.2)
        · intro i hi
          rcases List.mem_append.mp hi with h | h
          · exact (h0 i h).1
          · simp only [List.mem_filter, beq_iff_eq, List.mem_range'_1] at h
            exact hgt h.2 hc' h.1.1
    · exact ⟨_, rfl, hnd0, fun i hi => (h0 i hi).1⟩
  obtain ⟨fin, hfin, hsub, hne⟩ : ∃ fin, chopAll keys idx = .ok fin ∧ (∀ i ∈ fin, i ∈ idx) ∧ (fin = [] → idx = []) := by
    cases hidx : idx with
    | nil => exact ⟨[], rfl, by simp, fun _ => rfl⟩
    | cons a as =>
      rw [← hidx]
      obtain ⟨lo, hmin⟩ : ∃ lo, idx.min? = some lo := by
        cases hm : idx.min? with
        | none => rw [List.min?_eq_none_iff] at hm; rw [hm] at hidx; cases hidx
        | some lo => exact ⟨lo, rfl⟩
      obtain ⟨hi, hmax⟩ : ∃ hi, idx.max? = some hi := by
        cases hm : idx.max? with
        | none => rw [List.max?_eq_none_iff] at hm; rw [hm] at hidx; cases hidx
        | some hi => exact ⟨hi, rfl⟩
      have hmin' := List.min?_eq_some_iff.mp hmin
      have hmax' := List.max?_eq_some_iff.mp hmax
      have hle : lo ≤ hi := hmin'.2 _ hmax'.1
      have hms : ∀ i, i ∈ idx.insertionSort (· ≤ ·) ↔ i ∈ idx := fun i => List.mem_insertionSort _
      have hsorted : (idx.insertionSort (· ≤ ·)).Pairwise (· ≤ ·) := List.pairwise_insertionSort (· ≤ ·) idx
      obtain ⟨s, ss, hss⟩ : ∃ s ss, idx.insertionSort (· ≤ ·) = s :: ss := by
        cases h : idx.insertionSort (· ≤ ·) with
        | nil =>
          have := (hms a).mpr (by rw [hidx]; simp)
          rw [h] at this
          simp at this
        | cons s ss => exact ⟨s, ss, rfl⟩
      have hs : s = lo := by
        have h1 : lo ≤ s := hmin'.2 s ((hms s).mp (by rw [hss]; simp))
        have h2 : s ≤ lo := by
          have hm : lo ∈ s :: ss := by rw [← hss]; exact (hms lo).mpr hmin'.1
          rcases List.mem_cons.mp hm with h | h
          · omega
          · rw [hss, List.pairwise_cons] at hsorted
            exact hsorted.1 _ h
        omega
      have hlen : ¬ (List.range' lo (hi + 1 - lo)).length < (idx.insertionSort (· ≤ ·)).length := by
        have hsub : (idx.insertionSort (· ≤ ·)).Subperm (List.range' lo (hi + 1 - lo)) := by
          apply List.Nodup.subperm ((List.perm_insertionSort (· ≤ ·) idx).nodup_iff.mpr hnd)
          intro i h
          have h' := (hms i).mp h
          simp only [List.mem_range'_1]
          have := hmin'.2 i h'
          have := hmax'.2 i h'
          omega
        have := hsub.length_le
        omega
      have hch : chopAll keys idx = chop keys idx lo hi := by unfold chopAll; rw [hmin, hmax]
      obtain ⟨fin, hfin, hfne⟩ : ∃ fin, chop keys idx lo hi = .ok fin ∧ fin ≠ [] := by
        unfold chop
        simp only
        split
        · refine ⟨_, rfl, ?_⟩
          rw [hss, hs, show hi + 1 - lo = (hi - lo) + 1 by omega, List.range'_succ, List.zip_cons_cons,
            List.filter_cons_of_pos (by simp)]
          simp
        · exact ⟨_, rfl, by rw [hss]; simp⟩
      exact ⟨fin, by rw [hch, hfin], mem_of_chopAll (by rw [hch, hfin]), fun h => absurd h hfne⟩
  unfold getMinMax
  simp only [withPrefix, ← hidx0, hpc, bind, Except.bind, hfin, pure, Except.pure]
  refine ⟨_, _, rfl, ?_⟩
  split
  · rename_i lo hi hmin hmax
    have h1 := (List.min?_eq_some_iff.mp hmin)
    have h2 := (List.max?_eq_some_iff.mp hmax)
    right
    have := hall lo (hsub lo h1.1)
    have := h1.2 hi h2.1
    simp only [Bool.false_eq_true, if_false]
    omega
  · exact .inl ⟨rfl, rfl⟩

end Ndm
