import Verif.Props.Total
import Verif.Lemmas.FromBuild
import Verif.Lemmas.Root

/-! Where the data of a whole message comes from. -/

namespace Ndm

variable {M : Cls} {L : List Line}

/-! ## The trees of the message classes -/

mutual
def plainTreeB : Elem → Bool
  | ⟨_, cls, subs, _, _, _, _, _⟩ => !isSpecialBuild cls && (prefixOf cls).isNone && plainTreesB subs
def plainTreesB : List Elem → Bool
  | [] => true
  | e :: es => plainTreeB e && plainTreesB es
end

mutual
theorem plainTree_of_b : ∀ e : Elem, plainTreeB e = true → PlainTree e
  | ⟨_, cls, subs, _, _, _, _, _⟩, h => by
    simp only [plainTreeB, Bool.and_eq_true, Bool.not_eq_true', Option.isNone_iff_eq_none] at h
    exact .mk h.1.1 h.1.2 (plainTrees_of_b subs h.2)
theorem plainTrees_of_b : ∀ es : List Elem, plainTreesB es = true → ∀ e ∈ es, PlainTree e
  | [], _, e, he => by cases he
  | a :: es, h, e, he => by
    simp only [plainTreesB, Bool.and_eq_true] at h
    have h1 := plainTree_of_b a h.1
    rcases List.mem_cons.mp he with rfl | he
    · exact h1
    · exact plainTrees_of_b es h.2 e he
end

def kindB (cls : Cls) (single : Option Str) : Bool :=
  if single.isSome then decide (cls ∈ rotationClasses) else cls.fields.all fun f => decide (f.kind ≠ .text)

theorem kind_of_b {cls : Cls} {single : Option Str} (h : kindB cls single = true) : KindOk cls single := by
  unfold kindB at h
  cases single with
  | none =>
    refine ⟨fun hs => absurd hs (by simp), fun _ f hf => ?_⟩
    simpa using List.all_eq_true.mp h f hf
  | some p => exact ⟨fun _ => by simpa using h, fun hs => absurd hs (by simp)⟩

mutual
def soundB (M : Cls) : Elem → Bool
  | ⟨_, cls, subs, kw, _, single, _, template⟩ =>
    (single.isNone || (prefixOf cls).isNone && kw.all (rotationNames.contains ·) && subs.isEmpty) &&
    template.isNone && (decide (cls ≠ .AttitudeStateType) || plainTreesB subs) && (!kw.contains (py "id") && kindB cls single) &&
    (decide (cls ≠ .StateVectorAccType) || decide (M = .Oem) && kw.all (columnKeywords.contains ·)) &&
    (decide (cls ≠ .OemCovarianceMatrixType) || decide (M = .Oem) && (kw.drop 3).all (columnKeywords.contains ·)) &&
    decide (cls = .TrackingDataObservationType → M = .Tdm) && decide (cls = .AemSegment → M = .Aem) && soundsB M subs
def soundsB (M : Cls) : List Elem → Bool
  | [] => true
  | e :: es => soundB M e && soundsB M es
end

mutual
theorem sound_of_b : ∀ e : Elem, soundB M e = true → SoundTree M L e
  | ⟨_, cls, subs, kw, _, single, _, template⟩, h => by
    simp only [soundB, Bool.and_eq_true] at h
    obtain ⟨⟨⟨⟨⟨⟨⟨⟨h1, h2⟩, h3⟩, h4⟩, h6⟩, h7⟩, h8⟩, h9⟩, h5⟩ := h
    refine .mk ?_ ?_ ?_ ?_ ?_ ⟨?_, ?_, of_decide_eq_true h8, of_decide_eq_true h9⟩ (sounds_of_b subs h5)
    · intro hs
      simp only at hs
      cases single with
      | none => cases hs
      | some p =>
        simp only [Option.isNone_some, Bool.false_or, Bool.and_eq_true, Option.isNone_iff_eq_none, List.all_eq_true] at h1
        exact ⟨h1.1.1, fun k hk => by simpa using h1.1.2 k hk⟩
    · intro t ht
      simp only at ht
      rw [ht] at h2; cases h2
    · intro hc
      simp only at hc
      simp only [hc, Bool.or_eq_true, decide_eq_true_eq, ne_eq, not_true, false_or] at h3
      exact plainTrees_of_b subs h3
    · exact ⟨by simpa using h4.1, kind_of_b h4.2⟩
    · intro hs
      simp only at hs
      cases single with
      | none => cases hs
      | some p =>
        simp only [Option.isNone_some, Bool.false_or, Bool.and_eq_true] at h1
        simpa using h1.2
    · intro hc
      simp only at hc
      simp only [hc, Bool.or_eq_true, Bool.and_eq_true, decide_eq_true_eq, ne_eq, not_true, false_or, List.all_eq_true] at h6
      exact ⟨h6.1, fun k hk => by simpa using h6.2 k hk⟩
    · intro hc
      simp only at hc
      simp only [hc, Bool.or_eq_true, Bool.and_eq_true, decide_eq_true_eq, ne_eq, not_true, false_or, List.all_eq_true] at h7
      exact ⟨h7.1, fun k hk => by simpa using h7.2 k hk⟩
theorem sounds_of_b : ∀ es : List Elem, soundsB M es = true → ∀ e ∈ es, SoundTree M L e
  | [], _, e, he => by cases he
  | a :: es, h, e, he => by
    simp only [soundsB, Bool.and_eq_true] at h
    have h1 := sound_of_b a h.1
    rcases List.mem_cons.mp he with rfl | he
    · exact h1
    · exact sounds_of_b es h.2 e he
end

/-- Conditions on the direct parts of a message (header and body), which may be searched from the first line on. -/
def topB (s : Elem) : Bool :=
  !isSpecialIdent s.cls && (prefixOf s.cls).isNone && !s.kw.contains (py "id") && !s.kw.contains (py "version")

theorem message_trees : (kvnTypes.all fun c =>
    soundsB c (objectMap c).subs && (objectMap c).subs.all topB && decide ((objectMap c).kw = [py "id", py "version"]) &&
    (objectMap c).single.isNone && !isSpecialIdent (objectMap c).cls && !isSpecialBuild (objectMap c).cls &&
    (prefixOf (objectMap c).cls).isNone && c.attrs.all (fun f => decide (f.kind ≠ .attr)) &&
    !(deletedKeywords c).contains (py "id") && !(deletedKeywords c).contains (py "version")) = true := by
  decide +kernel

/-! ## Ranges of the direct parts -/

theorem getMinMax_low {tags : List Str} {keys rest : List Str} {single : Bool} {mm : Nat × Nat} {kw : List Str}
    (hkeys : keys = py "id" :: py "version" :: rest) (hid : py "id" ∉ tags) (hver : py "version" ∉ tags)
    (h : getMinMax tags 0 keys none single = .ok (mm, kw)) : mm.1 < mm.2 → 2 ≤ mm.1 := by
  unfold getMinMax at h
  obtain ⟨idx, hidx, h⟩ := bind_ok_iff.mp h
  obtain ⟨idx', hidx', h⟩ := bind_ok_iff.mp h
  cases h
  simp only [withPrefix] at hidx
  have hk : ∀ i ∈ idx, ∃ k, keys[i]? = some k ∧ (k ∈ tags ∨ k = py "COMMENT") := by
    have h0 : ∀ i ∈ (tags.filter (· != py "COMMENT")).filterMap (findFrom · keys 0),
        ∃ k, keys[i]? = some k ∧ (k ∈ tags ∨ k = py "COMMENT") := by
      intro i hi
      obtain ⟨t, ht, hf⟩ := List.mem_filterMap.mp hi
      exact ⟨t, (findFrom_some hf).2.2.1, Or.inl (List.mem_of_mem_filter ht)⟩
    unfold processComments at hidx
    split at hidx
    · split at hidx
      · obtain ⟨k, hk, hidx⟩ := bind_ok_iff.mp hidx
        cases hidx
        split
        · rename_i hc
          intro i hi
          rcases List.mem_append.mp hi with hi | hi
          · exact h0 i hi
          · simp only [List.mem_singleton] at hi
            subst hi
            exact ⟨k, pyGet_ok_iff.mp hk, Or.inr hc⟩
        · exact h0
      · split at hidx
        · cases hidx; exact h0
        · cases hidx
          intro i hi
          rcases List.mem_append.mp hi with hi | hi
          · exact h0 i hi
          · have := (List.mem_filter.mp hi).2
            exact ⟨_, by simpa using this, Or.inr rfl⟩
    · cases hidx; exact h0
  intro hlt
  unfold limits at hlt ⊢
  split
  · rename_i lo hi hmin hmax
    have hmem : lo ∈ idx := mem_of_chopAll hidx' lo (List.min?_mem hmin)
    obtain ⟨k, hki, hkt⟩ := hk lo hmem
    simp only
    match lo, hki with
    | 0, hki =>
      rw [hkeys] at hki
      cases hki
      exact absurd hkt (by rintro (h | h); exacts [hid h, absurd h (by decide)])
    | 1, hki =>
      rw [hkeys] at hki
      cases hki
      exact absurd hkt (by rintro (h | h); exacts [hver h, absurd h (by decide)])
    | lo + 2, _ => omega
  · rename_i hnm
    split at hlt
    · exact absurd ‹_› (by
        intro hq
        rename_i a b hmin hmax
        exact hnm _ _ hmin hmax)
    · simp at hlt

theorem topSubs_low {keys rest : List Str} {lines : List Line} (hkeys : keys = py "id" :: py "version" :: rest)
    (hlen : keys.length = lines.length) : ∀ (ss : List Elem) (init mx : Nat) (es : List Elem),
    (∀ s ∈ ss, topB s = true) → 2 ≤ init → init ≤ lines.length → identSubs keys lines 0 ss init = .ok (mx, es) →
    ∀ s ∈ es, Low 2 s
  | [], init, mx, es, _, _, _, h => by
    simp only [identSubs] at h
    cases h
    intro s hs; cases hs
  | s :: ss, init, mx, es, htop, h2, hin, h => by
    simp only [identSubs] at h
    split at h
    · obtain ⟨⟨m1, es1⟩, h1, h⟩ := bind_ok_iff.mp h
      obtain ⟨⟨m2, es2⟩, h3, h⟩ := bind_ok_iff.mp h
      cases h
      have r1 := listLoop_range (n := lines.length)
        (fun i mx mm e hi h => identElem_range (by omega) (Nat.le_refl _) s i mx mm e hi h) _ init init [] m1 es1
        hin (Nat.le_refl _) (by intro s hs; cases hs) h1
      have r2 := topSubs_low hkeys hlen ss m1 m2 es2 (fun x hx => htop x (by simp [hx])) (by omega) r1.2.1 h3
      intro x hx
      rcases List.mem_append.mp hx with hx | hx
      · exact (((r1.2.2 x hx).mono h2)).low
      · exact r2 x hx
    · obtain ⟨⟨m1, mm1, s1⟩, h1, h⟩ := bind_ok_iff.mp h
      obtain ⟨⟨mm2, kw2⟩, h3, h⟩ := bind_ok_iff.mp h
      obtain ⟨⟨m3, es3⟩, h4, h⟩ := bind_ok_iff.mp h
      cases h
      have r1 := identElem_range (n := lines.length) (by omega) (Nat.le_refl _) s init m1 mm1 s1 hin h1
      have r2 := topSubs_low hkeys hlen ss m1 m3 es3 (fun x hx => htop x (by simp [hx])) (by omega) r1.1.2.2.2 h4
      intro x hx
      rcases List.mem_cons.mp hx with rfl | hx
      · have hb : ∀ y ∈ s1.subs, Low 2 y := fun y hy => ((r1.2 y hy).mono (by omega)).low
        refine .mk ?_ hb
        intro lo hi he hlt
        cases he
        unfold researchRange at h3
        split at h3
        · have ht := htop s (by simp)
          simp only [topB, Bool.and_eq_true, Bool.not_eq_true', Option.isNone_iff_eq_none] at ht
          obtain ⟨⟨⟨t1, t2⟩, t3⟩, t4⟩ := ht
          have hcls := (identElem_inst _ _ _ _ _ h1).cls
          have hkw : s1.kw = s.kw := by
            obtain ⟨name, cls, subs, kw, isList, single, minMax, template⟩ := s
            simp only [identElem] at h1
            obtain ⟨⟨mm', kw'⟩, hr, h1⟩ := bind_ok_iff.mp h1
            obtain ⟨⟨mx', subs'⟩, hs', h1⟩ := bind_ok_iff.mp h1
            cases h1
            simp only at t2
            rcases rootRange_keywords hr with h | h
            · rw [h]; simp only [t2]; rfl
            · exact h
          unfold rootRange at h3
          rw [hcls, t1, t2, hkw] at h3
          simp only [Bool.false_eq_true, if_false] at h3
          exact getMinMax_low hkeys (by simpa using t3) (by simpa using t4) h3 hlt
        · cases h3
          omega
      · exact r2 x hx

theorem parseLine_nonempty {raw : Str} {l : Line} (h : parseLine raw = some l) : l ≠ [] := by
  simp only [parseLine] at h
  split at h
  · cases h
  · split at h
    · cases h; simp
    · cases h
      have hsp : ∀ s : Str, splitOnce '=' s ≠ [] := by
        intro s
        induction s with
        | nil => simp [splitOnce]
        | cons c s ih =>
          unfold splitOnce
          split
          · simp
          · split
            · simp
            · simp
      intro he
      rw [List.map_eq_nil_iff] at he
      revert he
      have := hsp (strip raw)
      generalize splitOnce '=' (strip raw) = parts at this ⊢
      split
      · split
        · split <;> simp
        · simp
      · exact this

/-- Everything in an object read from a text was stated by the lines of the text. -/
theorem kvnFromString_from {src : Str} {v : Val} (h : kvnFromString src = .ok v) :
    ∃ M vs, v = .obj M vs ∧ From M ((splitChar '\n' src).filterMap parseLine) false v := by
  unfold kvnFromString at h
  obtain ⟨lines0, hl, h⟩ := bind_ok_iff.mp h
  obtain ⟨c, hc, h⟩ := bind_ok_iff.mp h
  obtain ⟨⟨mx, mm, tree⟩, hid, h⟩ := bind_ok_iff.mp h
  have hmem : c ∈ kvnTypes := by
    have := hc
    unfold identifyDataType at this
    obtain ⟨l, -, this⟩ := bind_ok_iff.mp this
    obtain ⟨i, -, this⟩ := bind_ok_iff.mp this
    exact (findKvnType_mem this).1
  have htree := List.all_eq_true.mp message_trees c hmem
  simp only [Bool.and_eq_true, Bool.not_eq_true', Option.isNone_iff_eq_none, decide_eq_true_eq,
    List.all_eq_true] at htree
  obtain ⟨⟨⟨⟨⟨⟨⟨⟨⟨hsound, htop⟩, hkw⟩, hsingle⟩, hsi⟩, hsb⟩, hpre⟩, hattr⟩, hd1⟩, hd2⟩ := htree
  have hcls : (objectMap c).cls = c := (extract_cls treeDepth _ c false).1
  generalize hL : (splitChar '\n' src).filterMap parseLine = L
  have hLne : ∀ l ∈ L, l ≠ [] := by
    intro l hl
    rw [← hL] at hl
    obtain ⟨raw, -, hraw⟩ := List.mem_filterMap.mp hl
    exact parseLine_nonempty hraw
  unfold preprocess at hl
  rw [hL] at hl
  match L, hl with
  | l0 :: rest0, hl =>
  obtain ⟨key, hkey, hl⟩ := bind_ok_iff.mp hl
  cases hl
  generalize hL' : l0 :: rest0 = L at *
  have hrest0 : ∀ l ∈ rest0, l ∈ L := by intro l hl; rw [← hL']; simp [hl]
  have hdel : deleteMarkers c ([py "id", key] :: (py "version" :: l0.drop 1) :: rest0) =
      [py "id", key] :: (py "version" :: l0.drop 1) :: deleteMarkers c rest0 := by
    unfold deleteMarkers
    rw [List.filter_cons_of_pos (by simp only [List.headD_cons, hd1, Bool.not_false]),
      List.filter_cons_of_pos (by simp only [List.headD_cons, hd2, Bool.not_false])]
  rw [hdel] at hid h
  generalize hrest : deleteMarkers c rest0 = rest at hid h
  have hrestL : ∀ l ∈ rest, l ∈ L := by
    intro l hl
    rw [← hrest] at hl
    exact hrest0 l (List.mem_of_mem_filter hl)
  generalize hlines : [py "id", key] :: (py "version" :: l0.drop 1) :: rest = lines at hid h
  have hkeys : keysOf lines = py "id" :: py "version" :: keysOf rest := by rw [← hlines]; rfl
  -- identification of the root
  have hidc := hid
  have hroot : ∃ nm subs isList minMax tmpl, objectMap c = ⟨nm, c, subs, [py "id", py "version"], isList, none, minMax, tmpl⟩ := by
    generalize objectMap c = e at hcls hkw hsingle
    obtain ⟨nm, cls, subs, kw, isList, single, minMax, template⟩ := e
    simp only at hcls hkw hsingle
    subst hcls hkw hsingle
    exact ⟨_, _, _, _, _, rfl⟩
  obtain ⟨nm, subs, isList, minMax, tmpl, hroot⟩ := hroot
  have htyped : Typed tree := by
    have hm : c.members = none := by simpa using List.all_eq_true.mp (show (kvnTypes.all fun c => c.members.isNone) = true by decide) c hmem
    have := extract_typed treeDepth ((c.idVersion.map (·.1)).getD []) c false hm
    have h2 : Typed (objectMap c) := by
      unfold objectMap
      cases this with
      | mk a b d => exact .mk a b d
    exact h2.inst (identElem_inst _ _ _ _ _ hid)
  rw [hroot] at hid hsound htop hsi hsb hpre hcls
  simp only at hsound htop hsi hsb hpre
  simp only [identElem] at hid
  obtain ⟨⟨mm', kw'⟩, hr, hid⟩ := bind_ok_iff.mp hid
  obtain ⟨⟨mx', subs'⟩, hs, hid⟩ := bind_ok_iff.mp hid
  have hrange : (mm', kw') = ((0, 2), [py "id", py "version"]) := by
    unfold rootRange at hr
    simp only [hsi, Bool.false_eq_true, if_false, Option.isSome_none, hpre] at hr
    have hb : BlockAt [py "id", py "version"] [py "id", py "version"] (keysOf rest) :=
      ⟨by decide, fun t ht _ _ => ht, by decide, by decide, by decide, by decide, by decide, by decide⟩
    have := getMinMax_block (pre := []) (pref := none) hb (by simp)
    rw [hkeys] at hr
    have h2 := hr.symm.trans this
    cases h2
    rfl
  cases hrange
  cases hid
  simp only at hs h htyped
  have hlow := topSubs_low hkeys (by simp [keysOf]) subs 2 mx' subs' htop (Nat.le_refl _) (by rw [← hlines]; simp) hs
  have hsd : ∀ s ∈ subs', SoundTree c L s := identSubs_sound subs 0 2 mx' subs' (sounds_of_b subs hsound) hs
  have hlinesne : ∀ l ∈ lines, l ≠ [] := by
    intro l hl
    rw [← hlines] at hl
    rcases List.mem_cons.mp hl with rfl | hl
    · simp
    · rcases List.mem_cons.mp hl with rfl | hl
      · simp
      · exact hLne l (hrestL l hl)
  have heul : ∀ seq r, (py "EULER_ROT_SEQ" :: seq :: r) ∈ lines → (py "EULER_ROT_SEQ" :: seq :: r) ∈ L := by
    intro seq r hl
    rw [← hlines] at hl
    rcases List.mem_cons.mp hl with he | hl
    · cases he
    · rcases List.mem_cons.mp hl with he | hl
      · cases he
      · exact hrestL _ hl
  have hfull : ∀ l ∈ lines.drop 2, OkLine c L (!false) l := by
    intro l hl
    rw [← hlines] at hl
    exact okLine_mem (hrestL l hl)
  -- building
  obtain ⟨fuel, hfuel⟩ : ∃ f, buildFuel = f + 1 := ⟨19, rfl⟩
  rw [hfuel] at h
  unfold build at h
  simp only at h
  have hlocne : ¬ (List.take (2 - 0) (List.drop 0 lines) = [] ∧ subs' = []) := by
    rw [← hlines]; rintro ⟨h, -⟩; cases h
  rw [if_neg hlocne] at h
  have hnsp : ∀ d, isSpecialBuild d = true → c ≠ d := by
    rintro d hd rfl
    rw [hsb] at hd
    cases hd
  rw [if_neg (hnsp .AttitudeStateType rfl)] at h
  obtain ⟨doc?, hdoc, h⟩ := bind_ok_iff.mp h
  unfold sectionDoc at hdoc
  simp only [hnsp .AemSegment rfl, hnsp .StateVectorAccType rfl, hnsp .OemCovarianceMatrixType rfl,
    hnsp .TrackingDataObservationType rfl, if_false] at hdoc
  obtain ⟨d?, hd, hdoc⟩ := bind_ok_iff.mp hdoc
  unfold plainDoc at hd
  simp only [hpre, Option.isSome_none, Bool.false_eq_true, if_false] at hd
  split at hd
  · rename_i hnil
    exfalso
    have h0 : [py "id", key] ∈ lines.take 2 := by rw [← hlines]; exact List.mem_cons_self
    have h1 : [py "id", key] ∈ List.filter
        (fun l => [py "id", py "version"].contains (List.headD l [])) (lines.take 2) :=
      List.mem_filter.mpr ⟨h0, rfl⟩
    rw [show List.filter (fun l => [py "id", py "version"].contains (List.headD l []))
      (lines.take 2) = [] from hnil.1] at h1
    cases h1
  · rw [if_pos trivial] at hd
    obtain ⟨d, hx, he⟩ := map_ok_iff.mp hd
    subst he
    cases hdoc
    obtain ⟨obj, hobj, h⟩ := bind_ok_iff.mp h
    have hdoc : d.children = [] ∧ d.text = [] := by
      unfold xmlifyRoot at hx
      obtain ⟨A, -, hx⟩ := bind_ok_iff.mp hx
      rw [← Except.ok.inj hx]
      exact ⟨rfl, rfl⟩
    obtain ⟨ovs, rfl, ho⟩ := bindDoc_from (M := c) (L := L) (att := false) (Or.inr hattr) hdoc.2
      (by rw [hdoc.1]; intro x hx; cases hx) hobj
    have := foldlM_inv (P := fun o => ∃ vs, o = .obj c vs ∧ FieldsFrom c L false c vs) ?_ ⟨ovs, rfl, ho⟩ h
    · obtain ⟨vs, rfl, hf⟩ := this
      refine ⟨c, vs, rfl, .block (fun f hf => ?_) hf⟩
      have := List.all_eq_true.mp (show (kvnTypes.all fun c => c.fields.all fun f => decide (f.kind ≠ .text)) = true by decide) c hmem
      simpa using List.all_eq_true.mp this f hf
    · rintro s hs _ r ⟨vs, rfl, hf⟩ hr
      obtain ⟨sub, hsub, hr⟩ := bind_ok_iff.mp hr
      cases htyped with
      | mk _ hslot hty =>
        have hms : s.cls.members = none := by cases hty s hs; assumption
        exact attach_from hf (slot_kind hms (hslot s hs)) (hslot s hs)
          (build_from rfl hlinesne heul fuel s lines false 2 sub (hty s hs) (hsd s hs) (fun h => by cases h)
            (Or.inr (hlow s hs)) hfull hsub) hr

end Ndm
