import Verif.Lemmas.EphOem
import Verif.Lemmas.Rotation

/-! What identification depends on, elements that are absent, and sections built without looking at the whole message. -/

namespace Ndm

/-! ### Ranges found earlier do not matter -/

mutual
/-- An element without the ranges found so far. -/
def Elem.erase : Elem → Elem
  | ⟨name, cls, subs, kw, isList, single, _, template⟩ =>
    ⟨name, cls, Elem.eraseAll subs, kw, isList, single, none, template⟩
def Elem.eraseAll : List Elem → List Elem
  | [] => []
  | s :: ss => s.erase :: Elem.eraseAll ss
end

theorem rootRange_congr {e e' : Elem} (h1 : e.cls = e'.cls) (h2 : e.kw = e'.kw) (h3 : e.single = e'.single)
    (keys : List Str) (lines : List Line) (i : Nat) : rootRange e keys lines i = rootRange e' keys lines i := by
  unfold rootRange identifySpecial
  rw [h1, h2, h3]

theorem erase_fields (e : Elem) : e.erase.name = e.name ∧ e.erase.cls = e.cls ∧ e.erase.kw = e.kw ∧
    e.erase.isList = e.isList ∧ e.erase.single = e.single ∧ e.erase.template = e.template ∧
    e.erase.subs = Elem.eraseAll e.subs ∧ e.erase.minMax = none := by
  cases e
  simp [Elem.erase]

theorem eraseAll_nil {ss : List Elem} : Elem.eraseAll ss = [] ↔ ss = [] := by
  cases ss <;> simp [Elem.eraseAll]

/-- The answer of the identification without the range stored in the element itself. -/
def clearTop (r : Nat × (Nat × Nat) × Elem) : Nat × (Nat × Nat) × Elem := (r.1, r.2.1, { r.2.2 with minMax := none })

theorem listLoop_clear (ident : Nat → Except PyErr (Nat × (Nat × Nat) × Elem)) (n : Nat) : ∀ (fuel i : Nat) (acc : List Elem),
    listLoop (fun i => (ident i).map clearTop) n fuel i acc = listLoop ident n fuel i acc
  | 0, i, acc => rfl
  | fuel + 1, i, acc => by
    have ih := listLoop_clear ident n fuel
    unfold listLoop
    cases h : ident i with
    | error e => simp only [Except.map, bind, Except.bind]
    | ok r =>
      obtain ⟨mx, mm, e⟩ := r
      have hm : (Except.ok (mx, mm, e) : Except PyErr _).map clearTop = .ok (mx, mm, { e with minMax := none }) := rfl
      rw [hm]
      simp only [bind, Except.bind, ih]

theorem research_clear (keys : List Str) (lines : List Line) (rootMin : Nat) (mm : Nat × Nat) (s : Elem) :
    researchRange keys lines rootMin mm { s with minMax := none } = researchRange keys lines rootMin mm s := by
  unfold researchRange
  rw [rootRange_congr (e := { s with minMax := none }) (e' := s) rfl rfl rfl]

mutual
theorem identElem_erase (keys : List Str) (lines : List Line) : ∀ (e : Elem) (i : Nat),
    identElem keys lines e.erase i = (identElem keys lines e i).map clearTop
  | ⟨name, cls, subs, kw, isList, single, minMax, template⟩, i => by
    simp only [Elem.erase, identElem]
    rw [rootRange_congr (e := ⟨name, cls, Elem.eraseAll subs, kw, isList, single, none, template⟩)
      (e' := ⟨name, cls, subs, kw, isList, single, minMax, template⟩) rfl rfl rfl]
    cases rootRange ⟨name, cls, subs, kw, isList, single, minMax, template⟩ keys lines i with
    | error e => rfl
    | ok r =>
      simp only [bind, Except.bind, identSubs_erase keys lines subs]
      cases identSubs keys lines r.1.1 subs r.1.2 with
      | error e => rfl
      | ok q => rfl

theorem identSubs_erase (keys : List Str) (lines : List Line) : ∀ (ss : List Elem) (rootMin i : Nat),
    identSubs keys lines rootMin (Elem.eraseAll ss) i = identSubs keys lines rootMin ss i
  | [], rootMin, i => by simp [Elem.eraseAll]
  | s :: ss, rootMin, i => by
    simp only [Elem.eraseAll, identSubs, (erase_fields s).2.2.2.1, identElem_erase keys lines s, listLoop_clear,
      identSubs_erase keys lines ss]
    split
    · rfl
    · cases identElem keys lines s i with
      | error e => rfl
      | ok r =>
        obtain ⟨mx, mm, s'⟩ := r
        simp only [Except.map, clearTop, bind, Except.bind, research_clear]
end

mutual
/-- No list and no user-defined parameters below an element. -/
def Elem.fixed : Elem → Bool
  | ⟨_, cls, subs, _, _, _, _, _⟩ => (prefixOf cls).isNone && Elem.fixedAll subs
def Elem.fixedAll : List Elem → Bool
  | [] => true
  | s :: ss => !s.isList && s.fixed && Elem.fixedAll ss
end

theorem getMinMax_tags {tags keys : List Str} {i : Nat} {single : Bool} {r : (Nat × Nat) × List Str}
    (h : getMinMax tags i keys none single = .ok r) : r.2 = tags := by
  unfold getMinMax at h
  obtain ⟨a, -, h⟩ := bind_ok_iff.mp h
  obtain ⟨b, -, h⟩ := bind_ok_iff.mp h
  cases h
  rfl

theorem rootRange_kw {e : Elem} (hp : prefixOf e.cls = none) {keys : List Str} {lines : List Line} {i : Nat}
    {r : (Nat × Nat) × List Str} (h : rootRange e keys lines i = .ok r) : r.2 = e.kw := by
  unfold rootRange at h
  split at h
  · unfold identifySpecial at h
    split at h
    · obtain ⟨a, -, h⟩ := bind_ok_iff.mp h
      obtain ⟨b, -, h⟩ := bind_ok_iff.mp h
      obtain ⟨c, -, h⟩ := bind_ok_iff.mp h
      obtain ⟨d, -, h⟩ := bind_ok_iff.mp h
      cases h; rfl
    · split at h
      · obtain ⟨a, -, h⟩ := bind_ok_iff.mp h
        obtain ⟨b, -, h⟩ := bind_ok_iff.mp h
        obtain ⟨c, -, h⟩ := bind_ok_iff.mp h
        obtain ⟨d, -, h⟩ := bind_ok_iff.mp h
        cases h; rfl
      · split at h
        · rw [hp] at h
          obtain ⟨⟨⟨a, b⟩, k⟩, hg, h⟩ := bind_ok_iff.mp h
          have := getMinMax_tags hg
          simp only at this h
          by_cases hab : a = b
          · rw [if_pos hab] at h
            cases h; exact this
          · rw [if_neg hab] at h
            cases h; exact this
        · cases h
  · rw [hp] at h
    exact getMinMax_tags h

mutual
/-- Identification only finds ranges. -/
theorem identElem_fixed {keys : List Str} {lines : List Line} : ∀ (e : Elem) (i mx : Nat) (mm : Nat × Nat) (e' : Elem),
    e.fixed = true → identElem keys lines e i = .ok (mx, mm, e') → e'.erase = e.erase
  | ⟨name, cls, subs, kw, isList, single, minMax, template⟩, i, mx, mm, e', hf, h => by
    simp only [Elem.fixed, Bool.and_eq_true, Option.isNone_iff_eq_none] at hf
    simp only [identElem] at h
    obtain ⟨⟨mm', kw'⟩, hr, h⟩ := bind_ok_iff.mp h
    obtain ⟨⟨mx', subs'⟩, hs, h⟩ := bind_ok_iff.mp h
    cases h
    have := rootRange_kw (e := ⟨name, cls, subs, kw, isList, single, minMax, template⟩) hf.1 hr
    simp only at this
    simp only [Elem.erase, identSubs_fixed subs _ _ _ _ hf.2 hs, this]

theorem identSubs_fixed {keys : List Str} {lines : List Line} : ∀ (ss : List Elem) (rootMin i mx : Nat) (es : List Elem),
    Elem.fixedAll ss = true → identSubs keys lines rootMin ss i = .ok (mx, es) → Elem.eraseAll es = Elem.eraseAll ss
  | [], rootMin, i, mx, es, _, h => by
    simp only [identSubs] at h
    cases h
    rfl
  | s :: ss, rootMin, i, mx, es, hf, h => by
    simp only [Elem.fixedAll, Bool.and_eq_true, Bool.not_eq_true'] at hf
    obtain ⟨⟨hl, hs⟩, hss⟩ := hf
    simp only [identSubs, hl, Bool.false_eq_true, if_false] at h
    obtain ⟨⟨m1, mm1, s1⟩, h1, h⟩ := bind_ok_iff.mp h
    obtain ⟨⟨mm2, kw2⟩, h2, h⟩ := bind_ok_iff.mp h
    obtain ⟨⟨m3, es3⟩, h3, h⟩ := bind_ok_iff.mp h
    cases h
    have e1 := identElem_fixed s i m1 mm1 s1 hs h1
    have e3 := identSubs_fixed ss rootMin m1 m3 es3 hss h3
    have hk : kw2 = s1.kw := by
      unfold researchRange at h2
      split at h2
      · refine rootRange_kw (e := s1) ?_ h2
        have hc : s1.cls = s.cls := by
          rw [← (erase_fields s1).2.1, e1, (erase_fields s).2.1]
        cases s
        simp only [Elem.fixed, Bool.and_eq_true, Option.isNone_iff_eq_none] at hs
        rw [hc]
        exact hs.1
      · cases h2; rfl
    simp only [Elem.eraseAll, e3]
    congr 1
    rw [← e1, hk]
    cases s1
    simp [Elem.erase]
end

/-! ### Elements that are absent -/

mutual
/-- All keywords of an element and of everything below it. -/
def Elem.allKw : Elem → List Str
  | ⟨_, _, subs, kw, _, _, _, _⟩ => kw ++ Elem.allKws subs
def Elem.allKws : List Elem → List Str
  | [] => []
  | s :: ss => s.allKw ++ Elem.allKws ss
end

mutual
/-- An element found by keywords other than `COMMENT` alone, as everything below it. -/
def Elem.quiet : Elem → Bool
  | ⟨_, cls, subs, kw, _, _, _, _⟩ =>
    !isSpecialIdent cls && (prefixOf cls).isNone && decide (kw ≠ [py "COMMENT"]) && Elem.quietAll subs
def Elem.quietAll : List Elem → Bool
  | [] => true
  | s :: ss => !s.isList && s.quiet && Elem.quietAll ss
end

theorem quiet_fields {e : Elem} (h : e.quiet = true) : isSpecialIdent e.cls = false ∧ prefixOf e.cls = none ∧
    e.kw ≠ [py "COMMENT"] ∧ Elem.quietAll e.subs = true := by
  cases e
  simp only [Elem.quiet, Bool.and_eq_true, Bool.not_eq_true', Option.isNone_iff_eq_none, decide_eq_true_eq] at h
  exact ⟨h.1.1.1, h.1.1.2, h.1.2, h.2⟩

theorem quiet_range {e : Elem} (h : e.quiet = true) {pre rest : List Line} (hr : ∀ l ∈ rest, l.key ∉ e.allKw) :
    rootRange e (keysOf (pre ++ rest)) (pre ++ rest) pre.length = .ok ((pre.length, pre.length), e.kw) := by
  obtain ⟨h1, h2, h3, -⟩ := quiet_fields h
  refine rootRange_absent h1 ?_ ?_ h3
  · intro l hl _ hk
    refine hr l hl ?_
    cases e
    simp only [Elem.allKw, List.mem_append]
    exact .inl hk
  · intro p hp
    rw [h2] at hp
    cases hp

mutual
theorem identElem_absent : ∀ (e : Elem) (pre rest : List Line), e.quiet = true → (∀ l ∈ rest, l.key ∉ e.allKw) →
    ∃ e', identElem (keysOf (pre ++ rest)) (pre ++ rest) e pre.length = .ok (pre.length, (pre.length, pre.length), e') ∧
      e'.cls = e.cls ∧ e'.single = e.single ∧ e'.kw = e.kw
  | ⟨name, cls, subs, kw, isList, single, minMax, template⟩, pre, rest, hq, hr => by
    have hrange := quiet_range hq (pre := pre) hr
    have hsubs := (quiet_fields hq).2.2.2
    obtain ⟨es, hes⟩ := identSubs_absent subs pre [] rest hsubs (by
      intro l hl hk
      refine hr l (by simpa using hl) ?_
      simp only [Elem.allKw, List.mem_append]
      exact .inr hk)
    simp only [List.append_nil] at hes
    refine ⟨⟨name, cls, es, kw, isList, single, minMax, template⟩, ?_, rfl, rfl, rfl⟩
    simp only [identElem, hrange, bind, Except.bind, hes, pure, Except.pure]

theorem identSubs_absent : ∀ (ss : List Elem) (pre mid rest : List Line), Elem.quietAll ss = true →
    (∀ l ∈ mid ++ rest, l.key ∉ Elem.allKws ss) →
    ∃ es, identSubs (keysOf (pre ++ mid ++ rest)) (pre ++ mid ++ rest) pre.length ss (pre ++ mid).length =
      .ok ((pre ++ mid).length, es)
  | [], pre, mid, rest, _, _ => ⟨[], by simp [identSubs]⟩
  | s :: ss, pre, mid, rest, hq, hr => by
    simp only [Elem.quietAll, Bool.and_eq_true, Bool.not_eq_true'] at hq
    obtain ⟨⟨hl, hs⟩, hss⟩ := hq
    have hrs : ∀ l ∈ mid ++ rest, l.key ∉ s.allKw := by
      intro l hl hk
      exact hr l hl (by simp only [Elem.allKws, List.mem_append]; exact .inl hk)
    have hrss : ∀ l ∈ mid ++ rest, l.key ∉ Elem.allKws ss := by
      intro l hl hk
      exact hr l hl (by simp only [Elem.allKws, List.mem_append]; exact .inr hk)
    obtain ⟨e', he, hc, hsi, hk⟩ := identElem_absent s (pre ++ mid) rest hs (fun l hl => hrs l (by simp [hl]))
    obtain ⟨es, hes⟩ := identSubs_absent ss pre mid rest hss hrss
    have hre : ∃ mm kw, researchRange (keysOf (pre ++ mid ++ rest)) (pre ++ mid ++ rest) pre.length
        ((pre ++ mid).length, (pre ++ mid).length) e' = .ok (mm, kw) := by
      unfold researchRange
      split
      · have := quiet_range hs (pre := pre) hrs
        rw [rootRange_congr hc hk hsi]
        rw [← List.append_assoc] at this
        exact ⟨_, _, this⟩
      · exact ⟨_, _, rfl⟩
    obtain ⟨mm, kw, hre⟩ := hre
    refine ⟨{ e' with minMax := some mm, kw } :: es, ?_⟩
    simp only [identSubs, hl, Bool.false_eq_true, if_false, he, bind, Except.bind, hre, hes, pure, Except.pure]
end

/-! ### Sections built from their own lines alone -/

/-- No AEM segment and no attitude state, down to the given depth. -/
def FreeN : Nat → Elem → Prop
  | 0, _ => True
  | n + 1, e => e.cls ≠ .AemSegment ∧ e.cls ≠ .AttitudeStateType ∧ ∀ s ∈ e.subs, FreeN n s

theorem freeN_inst : ∀ {n : Nat} {e e' : Elem}, FreeN n e → Inst e e' → FreeN n e'
  | 0, _, _, _, _ => trivial
  | n + 1, e, e', h, hi => by
    refine ⟨by rw [hi.cls]; exact h.1, by rw [hi.cls]; exact h.2.1, ?_⟩
    intro s hs
    obtain ⟨t, ht, hti⟩ := hi.sub hs
    exact freeN_inst (h.2.2 t ht) hti

theorem build_free (k1 k2 : List Str) (l1 l2 : List Line) : ∀ (fuel : Nat) (e : Elem) (full : List Line), FreeN fuel e →
    build k1 l1 fuel e full = build k2 l2 fuel e full
  | 0, _, _, _ => rfl
  | fuel + 1, e, full, h => by
    obtain ⟨h1, h2, h3⟩ := h
    unfold build
    have hsec : ∀ loc hi, sectionDoc k1 l1 e loc hi = sectionDoc k2 l2 e loc hi := by
      intro loc hi
      unfold sectionDoc
      rw [if_neg h1, if_neg h1]
    have hsubs : ∀ loc hi d, sectionDoc k2 l2 e loc hi = .ok (some d) → d.2 = e.subs := by
      intro loc hi d hd
      unfold sectionDoc at hd
      rw [if_neg h1] at hd
      split at hd
      · obtain ⟨a, -, hd⟩ := bind_ok_iff.mp hd
        obtain ⟨b, -, hd⟩ := bind_ok_iff.mp hd
        cases hd; rfl
      split at hd
      · obtain ⟨b, -, hd⟩ := bind_ok_iff.mp hd
        cases hd; rfl
      split at hd
      · obtain ⟨a, -, hd⟩ := bind_ok_iff.mp hd
        obtain ⟨b, -, hd⟩ := bind_ok_iff.mp hd
        cases hd; rfl
      · obtain ⟨b, -, hd⟩ := bind_ok_iff.mp hd
        cases b with
        | none => cases hd
        | some b => cases hd; rfl
    cases e.minMax with
    | none => rfl
    | some mm =>
      obtain ⟨lo, hi⟩ := mm
      simp only [if_neg h2, hsec]
      split
      · rfl
      · cases hd : sectionDoc k2 l2 e ((full.drop lo).take (hi - lo)) hi with
        | error e => rfl
        | ok d =>
          cases d with
          | none => rfl
          | some d =>
            have := hsubs _ _ _ hd
            obtain ⟨doc, subs⟩ := d
            simp only at this
            subst this
            simp only [bind, Except.bind]
            cases bindDoc e.cls doc with
            | error e => rfl
            | ok o =>
              simp only
              have key : ∀ (ss : List Elem), (∀ s ∈ ss, FreeN fuel s) → ∀ o : Val,
                  ss.foldlM (fun o s => (build k1 l1 fuel s full).bind fun sub => attach o s.name sub) o =
                    ss.foldlM (fun o s => (build k2 l2 fuel s full).bind fun sub => attach o s.name sub) o := by
                intro ss
                induction ss with
                | nil => intro _ o; rfl
                | cons s ss ih =>
                  intro hs o
                  rw [List.foldlM_cons, List.foldlM_cons, build_free k1 k2 l1 l2 fuel s full (hs s (by simp))]
                  congr 1
                  funext o'
                  exact ih (fun s h => hs s (by simp [h])) o'
              exact key _ h3 o

end Ndm
