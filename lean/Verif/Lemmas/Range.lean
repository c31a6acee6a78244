import Verif.KvnIo
import Verif.Lemmas.Exc

/-! Ranges computed by the identification of sections, the shape of the identified tree, and termination. -/

namespace Ndm

theorem findFrom_some {key : Str} {keys : List Str} {start i : Nat} (h : findFrom key keys start = some i) :
    start ≤ i ∧ i < keys.length ∧ keys[i]? = some key ∧ ∀ j, start ≤ j → j < i → keys[j]? ≠ some key := by
  unfold findFrom at h
  rw [Option.map_eq_some_iff] at h
  obtain ⟨k, hk, rfl⟩ := h
  rw [List.findIdx?_eq_some_iff_getElem] at hk
  obtain ⟨hlt, hkey, hmin⟩ := hk
  rw [List.length_drop] at hlt
  simp only [List.getElem_drop, beq_iff_eq] at hkey
  refine ⟨by omega, by omega, ?_, ?_⟩
  · rw [List.getElem?_eq_getElem (by omega)]
    have : k + start = start + k := by omega
    simp only [this, hkey]
  · intro j hj1 hj2 hj
    have := hmin (j - start) (by omega)
    simp only [List.getElem_drop, beq_iff_eq] at this
    apply this
    have e : start + (j - start) = j := by omega
    simp only [e]
    rw [List.getElem?_eq_some_iff] at hj
    exact hj.2

theorem findFrom_none {key : Str} {keys : List Str} {start : Nat} (h : findFrom key keys start = none) :
    key ∉ keys.drop start := by
  unfold findFrom at h
  rw [Option.map_eq_none_iff, List.findIdx?_eq_none_iff] at h
  intro hm
  simpa using h key hm

/-- All indices lie between the search start and the end of the file. -/
def IdxOk (start n : Nat) (idx : List Nat) : Prop := ∀ i ∈ idx, start ≤ i ∧ i < n

theorem idxOk_find (tags : List Str) (keys : List Str) (start : Nat) :
    IdxOk start keys.length (tags.filterMap (findFrom · keys start)) := by
  intro i hi
  obtain ⟨t, -, ht⟩ := List.mem_filterMap.mp hi
  exact ⟨(findFrom_some ht).1, (findFrom_some ht).2.1⟩

theorem idxOk_comments {tags keys : List Str} {start : Nat} {idx r : List Nat} (h : IdxOk start keys.length idx)
    (hr : processComments tags start keys idx = .ok r) : IdxOk start keys.length r := by
  unfold processComments at hr
  split at hr
  · split at hr
    · obtain ⟨k, hk, hr⟩ := bind_ok_iff.mp hr
      cases hr
      split
      · intro i hi
        rcases List.mem_append.mp hi with hi | hi
        · exact h i hi
        · simp only [List.mem_singleton] at hi
          subst hi
          exact ⟨Nat.le_refl _, pyGet_lt hk⟩
      · exact h
    · split at hr
      · cases hr; exact h
      · cases hr
        intro i hi
        rcases List.mem_append.mp hi with hi | hi
        · exact h i hi
        · simp only [List.mem_filter, List.mem_range', beq_iff_eq] at hi
          obtain ⟨⟨j, -, rfl⟩, hk⟩ := hi
          exact ⟨by omega, (List.getElem?_eq_some_iff.mp hk).1⟩
  · cases hr; exact h

theorem mem_of_chopAll {keys : List Str} {idx r : List Nat} (h : chopAll keys idx = .ok r) : ∀ i ∈ r, i ∈ idx := by
  unfold chopAll at h
  split at h
  · unfold chop at h
    simp only at h
    split at h
    · split at h
      · cases h
      · cases h
        intro i hi
        obtain ⟨p, hp, rfl⟩ := List.mem_map.mp hi
        have := (List.of_mem_zip (List.mem_of_mem_filter hp)).1
        exact (List.mem_insertionSort _).mp this
    · cases h
      intro i hi
      exact (List.mem_insertionSort _).mp hi
  · cases h; exact fun _ h => h

theorem limits_ok {start n : Nat} {idx : List Nat} (single : Bool) (h : IdxOk start n idx) :
    start ≤ (limits start single idx).1 ∧ (limits start single idx).1 ≤ (limits start single idx).2 ∧
    (limits start single idx).2 ≤ max start n := by
  unfold limits
  split
  · rename_i lo hi hlo hhi
    have h1 := h lo (List.min?_mem hlo)
    have h2 := h hi (List.max?_mem hhi)
    have h3 : lo ≤ hi := (List.max?_eq_some_iff.mp hhi).2 lo (List.min?_mem hlo)
    cases single <;> simp <;> omega
  · simp

theorem getMinMax_range {tags : List Str} {start : Nat} {keys : List Str} {pref : Option Str} {single : Bool}
    {mm : Nat × Nat} {kw : List Str} (h : getMinMax tags start keys pref single = .ok (mm, kw)) :
    start ≤ mm.1 ∧ mm.1 ≤ mm.2 ∧ mm.2 ≤ max start keys.length := by
  unfold getMinMax at h
  obtain ⟨idx, hidx, h⟩ := bind_ok_iff.mp h
  obtain ⟨idx', hidx', h⟩ := bind_ok_iff.mp h
  cases h
  have := idxOk_comments (idxOk_find _ _ _) hidx
  exact limits_ok single (fun i hi => this i (mem_of_chopAll hidx' i hi))

theorem countFloatLines_le (ls : List Line) : countFloatLines ls ≤ ls.length := by
  induction ls with
  | nil => simp [countFloatLines]
  | cons l ls ih =>
    unfold countFloatLines
    split
    · split
      · simp; exact ih
      · simp
    · simp

theorem dateRange_ok {init n : Nat} (h : init < n) (b : Bool) :
    init ≤ (if b then (init, init + 1) else (init, init)).1 ∧
    (if b then (init, init + 1) else (init, init)).1 ≤ (if b then (init, init + 1) else (init, init)).2 ∧
    (if b then (init, init + 1) else (init, init)).2 ≤ n := by
  cases b <;> simp <;> omega

/-- The limits of an element start at or after the search start and end inside the file. -/
theorem rootRange_range {e : Elem} {keys : List Str} {lines : List Line} {init n : Nat} {mm : Nat × Nat}
    {kw : List Str} (hk : keys.length ≤ n) (hl : lines.length ≤ n) (hi : init ≤ n)
    (h : rootRange e keys lines init = .ok (mm, kw)) : init ≤ mm.1 ∧ mm.1 ≤ mm.2 ∧ mm.2 ≤ n := by
  have gm : ∀ {tags pref single mm kw}, getMinMax tags init keys pref single = .ok (mm, kw) →
      init ≤ mm.1 ∧ mm.1 ≤ mm.2 ∧ mm.2 ≤ n := by
    intro tags pref single mm kw h
    have := getMinMax_range h
    omega
  unfold rootRange at h
  split at h
  · unfold identifySpecial at h
    split at h
    · obtain ⟨l, hl', h⟩ := bind_ok_iff.mp h
      obtain ⟨s, -, h⟩ := bind_ok_iff.mp h
      obtain ⟨d, -, h⟩ := bind_ok_iff.mp h
      obtain ⟨b, -, h⟩ := bind_ok_iff.mp h
      cases h
      exact dateRange_ok (by have := pyGet_lt hl'; omega) b
    · split at h
      · obtain ⟨l, hl', h⟩ := bind_ok_iff.mp h
        obtain ⟨s, -, h⟩ := bind_ok_iff.mp h
        obtain ⟨d, -, h⟩ := bind_ok_iff.mp h
        obtain ⟨b, -, h⟩ := bind_ok_iff.mp h
        cases h
        exact dateRange_ok (by have := pyGet_lt hl'; omega) b
      · split at h
        · obtain ⟨⟨⟨lo, hi'⟩, kw'⟩, hg, h⟩ := bind_ok_iff.mp h
          have := gm hg
          simp only at this h
          split at h
          · cases h; simp; omega
          · cases h
            have hc := countFloatLines_le (lines.drop hi')
            rw [List.length_drop] at hc
            simp only
            omega
        · cases h
  · exact gm h

/-! ## The identified tree -/

/-- The element and everything below it carry ranges inside the file (of `n` lines), starting at or after `base`,
and those below start at or after the element's own start. -/
inductive Ranged (n : Nat) : Nat → Elem → Prop
  | mk {base : Nat} {e : Elem} (a b : Nat) (hmm : e.minMax = some (a, b)) (h1 : base ≤ a) (h2 : a ≤ b) (h3 : b ≤ n)
      (hs : ∀ s ∈ e.subs, Ranged n a s) : Ranged n base e

theorem Ranged.mono {n base base' : Nat} {e : Elem} (h : Ranged n base e) (hb : base' ≤ base) : Ranged n base' e := by
  cases h with
  | mk a b hmm h1 h2 h3 hs => exact .mk a b hmm (by omega) h2 h3 hs

theorem listLoop_range {ident : Nat → Except PyErr (Nat × (Nat × Nat) × Elem)} {nLines n : Nat}
    (hid : ∀ i mx mm e, i ≤ n → ident i = .ok (mx, mm, e) →
      (i ≤ mm.1 ∧ mm.1 ≤ mm.2 ∧ mm.2 ≤ mx ∧ mx ≤ n) ∧ ∀ s ∈ e.subs, Ranged n mm.1 s) :
    ∀ (fuel init : Nat) (base : Nat) (acc : List Elem) (r : Nat) (es : List Elem), init ≤ n → base ≤ init →
      (∀ s ∈ acc, Ranged n base s) → listLoop ident nLines fuel init acc = .ok (r, es) →
      init ≤ r ∧ r ≤ n ∧ ∀ s ∈ es, Ranged n base s
  | 0, _, _, _, _, _, _, _, _, h => by cases h
  | fuel + 1, init, base, acc, r, es, hi, hb, hacc, h => by
    unfold listLoop at h
    obtain ⟨⟨mx, mm, e⟩, hid', h⟩ := bind_ok_iff.mp h
    obtain ⟨hr, hsub⟩ := hid init mx mm e hi hid'
    have hrev : ∀ (l : List Elem), (∀ s ∈ l, Ranged n base s) → ∀ s ∈ l.reverse, Ranged n base s :=
      fun l hl s hs => hl s (List.mem_reverse.mp hs)
    simp only at h
    split at h
    · cases h
      exact ⟨by omega, by omega, hrev _ hacc⟩
    · split at h
      · cases h
        exact ⟨by omega, by omega, hrev _ hacc⟩
      · have hacc' : ∀ s ∈ ({ e with minMax := some mm } :: acc), Ranged n base s := by
          intro s hs
          rcases List.mem_cons.mp hs with rfl | hs
          · exact .mk mm.1 mm.2 rfl (by omega) hr.2.1 (by omega) hsub
          · exact hacc s hs
        split at h
        · cases h
          exact ⟨by omega, by omega, hrev _ hacc'⟩
        · have := listLoop_range hid fuel mx base _ r es (by omega) (by omega) hacc' h
          exact ⟨by omega, this.2⟩

mutual
theorem identElem_range {keys : List Str} {lines : List Line} {n : Nat} (hk : keys.length ≤ n)
    (hl : lines.length ≤ n) : ∀ (e : Elem) (init mx : Nat) (mm : Nat × Nat) (e' : Elem), init ≤ n →
    identElem keys lines e init = .ok (mx, mm, e') →
    (init ≤ mm.1 ∧ mm.1 ≤ mm.2 ∧ mm.2 ≤ mx ∧ mx ≤ n) ∧ ∀ s ∈ e'.subs, Ranged n mm.1 s
  | ⟨name, cls, subs, kw, isList, single, minMax, template⟩, init, mx, mm, e', hi, h => by
    simp only [identElem] at h
    obtain ⟨⟨mm', kw'⟩, hr, h⟩ := bind_ok_iff.mp h
    obtain ⟨⟨mx', subs'⟩, hs, h⟩ := bind_ok_iff.mp h
    cases h
    have h1 := rootRange_range hk hl hi hr
    have h2 := identSubs_range hk hl subs mm'.1 mm'.2 mx' subs' (by omega) (by omega) hs
    exact ⟨⟨h1.1, h1.2.1, h2.1, h2.2.1⟩, h2.2.2⟩

theorem identSubs_range {keys : List Str} {lines : List Line} {n : Nat} (hk : keys.length ≤ n)
    (hl : lines.length ≤ n) : ∀ (ss : List Elem) (rootMin init mx : Nat) (es : List Elem), rootMin ≤ init →
    init ≤ n → identSubs keys lines rootMin ss init = .ok (mx, es) →
    init ≤ mx ∧ mx ≤ n ∧ ∀ s ∈ es, Ranged n rootMin s
  | [], rootMin, init, mx, es, _, hi, h => by
    simp only [identSubs] at h
    cases h
    exact ⟨Nat.le_refl _, hi, by intro s hs; cases hs⟩
  | s :: rest, rootMin, init, mx, es, hb, hi, h => by
    simp only [identSubs] at h
    split at h
    · obtain ⟨⟨m1, es1⟩, h1, h⟩ := bind_ok_iff.mp h
      obtain ⟨⟨m2, es2⟩, h2, h⟩ := bind_ok_iff.mp h
      cases h
      have r1 := listLoop_range (fun i mx mm e hi h => identElem_range hk hl s i mx mm e hi h) _ init rootMin [] m1 es1
        hi hb (by intro s hs; cases hs) h1
      have r2 := identSubs_range hk hl rest rootMin m1 m2 es2 (by omega) r1.2.1 h2
      refine ⟨Nat.le_trans r1.1 r2.1, r2.2.1, ?_⟩
      intro x hx
      rcases List.mem_append.mp hx with hx | hx
      · exact r1.2.2 x hx
      · exact r2.2.2 x hx
    · obtain ⟨⟨m1, mm1, s1⟩, h1, h⟩ := bind_ok_iff.mp h
      obtain ⟨⟨mm2, kw2⟩, h2, h⟩ := bind_ok_iff.mp h
      obtain ⟨⟨m3, es3⟩, h3, h⟩ := bind_ok_iff.mp h
      cases h
      have r1 := identElem_range hk hl s init m1 mm1 s1 hi h1
      have r3 := identSubs_range hk hl rest rootMin m1 m3 es3 (by omega) (by omega) h3
      refine ⟨Nat.le_trans (by omega) r3.1, r3.2.1, ?_⟩
      intro x hx
      rcases List.mem_cons.mp hx with rfl | hx
      · unfold researchRange at h2
        split at h2
        · rename_i hc
          have r2 := rootRange_range hk hl (by omega) h2
          refine .mk mm2.1 mm2.2 rfl (by omega) (by omega) (by omega) ?_
          intro y hy
          rw [show ({ s1 with minMax := some mm2, kw := kw2 } : Elem).subs = s1.subs from rfl, hc.2] at hy
          cases hy
        · cases h2
          exact .mk mm1.1 mm1.2 rfl (by omega) (by omega) (by omega) r1.2
      · exact r3.2.2 x hx
end

/-! ## The shape of the identified tree -/

/-- `e'` is an instance of the template element `e`: same name and class, and everything below it is an instance of
something below `e`. -/
inductive Inst : Elem → Elem → Prop
  | mk {e e' : Elem} (hname : e'.name = e.name) (hcls : e'.cls = e.cls) (hlist : e'.isList = e.isList)
      (hsingle : e'.single = e.single) (htmpl : e'.template = e.template)
      (f : Elem → Elem) (hf : ∀ s ∈ e'.subs, f s ∈ e.subs) (hi : ∀ s ∈ e'.subs, Inst (f s) s) : Inst e e'

theorem Inst.sub {e e' s : Elem} (h : Inst e e') (hs : s ∈ e'.subs) : ∃ t ∈ e.subs, Inst t s := by
  cases h with
  | mk _ _ _ _ _ f hf hi => exact ⟨f s, hf s hs, hi s hs⟩

theorem Inst.name {e e' : Elem} (h : Inst e e') : e'.name = e.name := by cases h; assumption
theorem Inst.cls {e e' : Elem} (h : Inst e e') : e'.cls = e.cls := by cases h; assumption

theorem Inst.of_exists {e e' : Elem} (hname : e'.name = e.name) (hcls : e'.cls = e.cls) (hlist : e'.isList = e.isList)
    (hsingle : e'.single = e.single) (htmpl : e'.template = e.template)
    (h : ∀ s ∈ e'.subs, ∃ t ∈ e.subs, Inst t s) : Inst e e' := by
  classical
  refine .mk hname hcls hlist hsingle htmpl (fun s => if hs : s ∈ e'.subs then (h s hs).choose else s) ?_ ?_
  · intro s hs
    simp only [dif_pos hs]
    exact (h s hs).choose_spec.1
  · intro s hs
    simp only [dif_pos hs]
    exact (h s hs).choose_spec.2

theorem Inst.setRange {e e' : Elem} (h : Inst e e') (mm : Option (Nat × Nat)) (kw : List Str) :
    Inst e { e' with minMax := mm, kw := kw } := by
  cases h with
  | mk h1 h2 h3 h4 h5 f hf hi => exact .mk h1 h2 h3 h4 h5 f hf hi

mutual
theorem instRefl : ∀ e : Elem, Inst e e
  | ⟨name, cls, subs, kw, isList, single, minMax, template⟩ =>
    .of_exists rfl rfl rfl rfl rfl (instReflList subs)
theorem instReflList : ∀ ss : List Elem, ∀ s ∈ ss, ∃ t ∈ ss, Inst t s
  | [], s, hs => by cases hs
  | t :: ss, s, hs => by
    rcases List.mem_cons.mp hs with h | hs
    · exact ⟨t, by simp, h ▸ instRefl t⟩
    · obtain ⟨u, hu, hi⟩ := instReflList ss s hs
      exact ⟨u, by simp [hu], hi⟩
end

theorem listLoop_inst {ident : Nat → Except PyErr (Nat × (Nat × Nat) × Elem)} {nLines : Nat} {t : Elem}
    (hid : ∀ i mx mm e, ident i = .ok (mx, mm, e) → Inst t e) :
    ∀ (fuel init : Nat) (acc : List Elem) (r : Nat) (es : List Elem), (∀ s ∈ acc, Inst t s) →
      listLoop ident nLines fuel init acc = .ok (r, es) → ∀ s ∈ es, Inst t s
  | 0, _, _, _, _, _, h => by cases h
  | fuel + 1, init, acc, r, es, hacc, h => by
    unfold listLoop at h
    obtain ⟨⟨mx, mm, e⟩, hid', h⟩ := bind_ok_iff.mp h
    have hrev : ∀ (l : List Elem), (∀ s ∈ l, Inst t s) → ∀ s ∈ l.reverse, Inst t s :=
      fun l hl s hs => hl s (List.mem_reverse.mp hs)
    simp only at h
    split at h
    · cases h; exact hrev _ hacc
    · split at h
      · cases h; exact hrev _ hacc
      · have hacc' : ∀ s ∈ ({ e with minMax := some mm } :: acc), Inst t s := by
          intro s hs
          rcases List.mem_cons.mp hs with rfl | hs
          · exact (hid init mx mm e hid').setRange _ _
          · exact hacc s hs
        split at h
        · cases h; exact hrev _ hacc'
        · exact listLoop_inst hid fuel mx _ r es hacc' h

mutual
theorem identElem_inst {keys : List Str} {lines : List Line} : ∀ (e : Elem) (init mx : Nat) (mm : Nat × Nat)
    (e' : Elem), identElem keys lines e init = .ok (mx, mm, e') → Inst e e'
  | ⟨name, cls, subs, kw, isList, single, minMax, template⟩, init, mx, mm, e', h => by
    simp only [identElem] at h
    obtain ⟨⟨mm', kw'⟩, hr, h⟩ := bind_ok_iff.mp h
    obtain ⟨⟨mx', subs'⟩, hs, h⟩ := bind_ok_iff.mp h
    cases h
    exact .of_exists rfl rfl rfl rfl rfl (identSubs_inst subs mm'.1 mm'.2 mx' subs' hs)

theorem identSubs_inst {keys : List Str} {lines : List Line} : ∀ (ss : List Elem) (rootMin init mx : Nat)
    (es : List Elem), identSubs keys lines rootMin ss init = .ok (mx, es) → ∀ s ∈ es, ∃ t ∈ ss, Inst t s
  | [], rootMin, init, mx, es, h => by
    simp only [identSubs] at h
    cases h
    intro s hs; cases hs
  | s :: rest, rootMin, init, mx, es, h => by
    simp only [identSubs] at h
    split at h
    · obtain ⟨⟨m1, es1⟩, h1, h⟩ := bind_ok_iff.mp h
      obtain ⟨⟨m2, es2⟩, h2, h⟩ := bind_ok_iff.mp h
      cases h
      have r1 := listLoop_inst (t := s) (fun i mx mm e h => identElem_inst s i mx mm e h) _ init [] m1 es1
        (by intro s hs; cases hs) h1
      have r2 := identSubs_inst rest rootMin m1 m2 es2 h2
      intro x hx
      rcases List.mem_append.mp hx with hx | hx
      · exact ⟨s, by simp, r1 x hx⟩
      · obtain ⟨t, ht, hi⟩ := r2 x hx
        exact ⟨t, by simp [ht], hi⟩
    · obtain ⟨⟨m1, mm1, s1⟩, h1, h⟩ := bind_ok_iff.mp h
      obtain ⟨⟨mm2, kw2⟩, h2, h⟩ := bind_ok_iff.mp h
      obtain ⟨⟨m3, es3⟩, h3, h⟩ := bind_ok_iff.mp h
      cases h
      have r1 := identElem_inst s init m1 mm1 s1 h1
      have r3 := identSubs_inst rest rootMin m1 m3 es3 h3
      intro x hx
      rcases List.mem_cons.mp hx with rfl | hx
      · exact ⟨s, by simp, r1.setRange _ _⟩
      · obtain ⟨t, ht, hi⟩ := r3 x hx
        exact ⟨t, by simp [ht], hi⟩
end

/-! ## Exceptions -/

section
variable {S : PyErr → Prop}

theorem chopAll_raises (hS : Common S) (keys : List Str) (idx : List Nat) : Raises S (chopAll keys idx) := by
  unfold chopAll
  split
  · unfold chop
    simp only
    split
    · split
      · exact .err hS.index
      · exact .ok _
    · exact .ok _
  · exact .ok _

theorem getMinMax_raises (hS : Common S) (tags : List Str) (start : Nat) (keys : List Str) (pref : Option Str) (single : Bool) :
    Raises S (getMinMax tags start keys pref single) := by
  unfold getMinMax
  refine .bind ?_ fun idx _ => .bind (chopAll_raises hS _ _) fun _ _ => .pure _
  unfold processComments
  split
  · split
    · exact .bind (.pyGet hS.index _ _) fun _ _ => .pure _
    · split <;> exact .ok _
  · exact .ok _

theorem isDateStr_raises (hS : Common S) (d : Str) : Raises S (isDateStr d) := by
  unfold isDateStr
  split
  · exact .bind (.pyGet hS.index _ _) fun _ _ => .pure _
  · exact .ok _

theorem rootRange_raises (hS : Common S) (e : Elem) (keys : List Str) (lines : List Line) (init : Nat) :
    Raises S (rootRange e keys lines init) := by
  unfold rootRange
  split
  · unfold identifySpecial
    split
    · exact .bind (.pyGet hS.index _ _) fun _ _ => .bind (.pyGet hS.index _ _) fun _ _ => .bind (.pyGet hS.index _ _) fun _ _ =>
        .bind (isDateStr_raises hS _) fun _ _ => .pure _
    · split
      · exact .bind (.pyGet hS.index _ _) fun _ _ => .bind (.pyGet hS.index _ _) fun _ _ => .bind (.pyGet hS.index _ _) fun _ _ =>
          .bind (isDateStr_raises hS _) fun _ _ => .pure _
      · split
        · refine .bind (getMinMax_raises hS _ _ _ _ _) fun x _ => ?_
          obtain ⟨⟨lo, hi⟩, kw⟩ := x
          simp only
          split <;> exact .pure _
        · exact .err hS.value
  · exact getMinMax_raises hS _ _ _ _ _

/-- The loop over the elements of a list always advances. -/
theorem listLoop_raises {ident : Nat → Except PyErr (Nat × (Nat × Nat) × Elem)} {nLines : Nat}
    (hs : ∀ i, Raises S (ident i))
    (hid : ∀ i mx mm e, ident i = .ok (mx, mm, e) → i ≤ mm.1 ∧ mm.1 ≤ mm.2 ∧ mm.2 ≤ mx) :
    ∀ (fuel init : Nat) (acc : List Elem), nLines - init < fuel → Raises S (listLoop ident nLines fuel init acc)
  | 0, _, _, h => by omega
  | fuel + 1, init, acc, h => by
    unfold listLoop
    refine .bind (hs init) fun x hx => ?_
    obtain ⟨mx, mm, e⟩ := x
    have hr := hid init mx mm e hx
    simp only
    split
    · exact .pure _
    · split
      · exact .pure _
      · split
        · exact .pure _
        · exact listLoop_raises hs hid fuel mx _ (by omega)

mutual
theorem identElem_raises (hS : Common S) {keys : List Str} {lines : List Line} : ∀ (e : Elem) (init : Nat),
    Raises S (identElem keys lines e init)
  | ⟨name, cls, subs, kw, isList, single, minMax, template⟩, init => by
    simp only [identElem]
    refine .bind (rootRange_raises hS _ _ _ _) fun x _ => ?_
    obtain ⟨mm', kw'⟩ := x
    exact .bind (identSubs_raises hS subs _ _) fun _ _ => .pure _

theorem identSubs_raises (hS : Common S) {keys : List Str} {lines : List Line} : ∀ (ss : List Elem) (rootMin init : Nat),
    Raises S (identSubs keys lines rootMin ss init)
  | [], rootMin, init => by simp only [identSubs]; exact .ok _
  | s :: rest, rootMin, init => by
    simp only [identSubs]
    split
    · refine .bind (listLoop_raises (fun i => identElem_raises hS s i) ?_ _ _ _ (by omega)) fun x _ => ?_
      · intro i mx mm e h
        have := identElem_range (n := max i (max keys.length lines.length)) (by omega) (by omega) s i mx mm e (by omega) h
        omega
      · exact .bind (identSubs_raises hS rest _ _) fun _ _ => .pure _
    · refine .bind (identElem_raises hS s init) fun x _ => ?_
      obtain ⟨m1, mm1, s1⟩ := x
      refine .bind ?_ fun y _ => .bind (identSubs_raises hS rest _ _) fun _ _ => .pure _
      simp only
      unfold researchRange
      split
      · exact rootRange_raises hS _ _ _ _
      · exact .ok _
end

/-- The tree below an element has fewer than `n` levels. -/
def DepthLt : Nat → Elem → Prop
  | 0, _ => False
  | n + 1, e => ∀ s ∈ e.subs, DepthLt n s

theorem DepthLt.inst : ∀ {n : Nat} {e e' : Elem}, DepthLt n e → Inst e e' → DepthLt n e'
  | 0, _, _, h, _ => h
  | n + 1, e, e', h, hi => by
    intro s hs
    obtain ⟨t, ht, hts⟩ := hi.sub hs
    exact (h t ht).inst hts

theorem DepthLt.mono : ∀ {n m : Nat} {e : Elem}, DepthLt n e → n ≤ m → DepthLt m e
  | 0, _, _, h, _ => h.elim
  | n + 1, 0, _, _, hm => by omega
  | n + 1, m + 1, e, h, hm => fun s hs => (h s hs).mono (by omega)

theorem extract_depth : ∀ (fuel : Nat) (name : Str) (c : Cls) (l : Bool), DepthLt (fuel + 1) (extract fuel name c l)
  | 0, _, _, _ => by intro s hs; simp [extract] at hs
  | fuel + 1, name, c, l => by
    intro s hs
    unfold extract at hs
    simp only at hs
    split at hs
    · cases hs
    · simp only [List.mem_filterMap] at hs
      obtain ⟨f, -, hf⟩ := hs
      rw [Option.map_eq_some_iff] at hf
      obtain ⟨d, -, rfl⟩ := hf
      exact extract_depth fuel _ _ _

theorem prepare_subs {keys : List Str} {lines : List Line} {e : Elem} {start : Nat} {subs : List Elem}
    (h : prepareAemSegment keys lines e start = .ok subs) :
    ∀ s ∈ subs, s ∈ e.subs ∨ ∃ d ∈ e.subs, ∃ tm av, s = { d with subs := d.subs.map fun a =>
      { a with template := some tm, subs := a.subs.filter fun x => some x.name == av } } := by
  unfold prepareAemSegment at h
  obtain ⟨data, hd, h⟩ := bind_ok_iff.mp h
  obtain ⟨⟨tm, av⟩, -, h⟩ := bind_ok_iff.mp h
  cases h
  intro s hs
  rcases List.mem_or_eq_of_mem_set hs with hs | rfl
  · exact Or.inl hs
  · exact Or.inr ⟨data, pyGet_mem hd, tm, av, rfl⟩

theorem prepare_depth {keys : List Str} {lines : List Line} {e : Elem} {start n : Nat} {subs : List Elem}
    (hd : DepthLt (n + 1) e) (h : prepareAemSegment keys lines e start = .ok subs) : ∀ s ∈ subs, DepthLt n s := by
  intro s hs
  rcases prepare_subs h s hs with hs | ⟨d, hds, tm, av, rfl⟩
  · exact hd s hs
  · have := hd d hds
    match n, this with
    | n + 1, this =>
      intro a ha
      obtain ⟨a', ha', rfl⟩ := List.mem_map.mp ha
      have := this a' ha'
      match n, this with
      | n + 1, this =>
        intro x hx
        exact this x (List.mem_of_mem_filter hx)

theorem sectionDoc_subs {keys : List Str} {lines : List Line} {e : Elem} {loc : List Line} {hi : Nat} {doc : XDoc}
    {subs : List Elem} (h : sectionDoc keys lines e loc hi = .ok (some (doc, subs))) :
    subs = e.subs ∨ e.cls = .AemSegment ∧ prepareAemSegment keys lines e hi = .ok subs := by
  unfold sectionDoc at h
  split at h
  · obtain ⟨ss, hs, h⟩ := bind_ok_iff.mp h
    obtain ⟨d, -, h⟩ := bind_ok_iff.mp h
    cases h
    exact Or.inr ⟨by assumption, hs⟩
  · left
    split at h
    · obtain ⟨ls, -, h⟩ := bind_ok_iff.mp h
      obtain ⟨d, -, h⟩ := bind_ok_iff.mp h
      cases h; rfl
    · split at h
      · obtain ⟨d, -, h⟩ := bind_ok_iff.mp h
        cases h; rfl
      · split at h
        · obtain ⟨ls, -, h⟩ := bind_ok_iff.mp h
          obtain ⟨d, -, h⟩ := bind_ok_iff.mp h
          cases h; rfl
        · obtain ⟨d, -, h⟩ := bind_ok_iff.mp h
          cases d with
          | none => cases h
          | some d => cases h; rfl

theorem xmlCheck_raises (hS : Common S) (s : Str) : Raises S (xmlCheck s) := by
  unfold xmlCheck; split
  · exact .ok _
  · exact .err hS.value

theorem xmlifyList_raises (hS : Common S) (tag : Str) (items : List Line) (pref : Option Str) : Raises S (xmlifyList tag items pref) := by
  unfold xmlifyList
  refine .bind (.mapM fun x _ => ?_) fun _ _ => .pure _
  unfold xmlifyChild
  split
  · unfold xmlifyPrefixItem
    exact .bind (.pyGet hS.index _ _) fun _ _ => .bind (xmlCheck_raises hS _) fun _ _ => .bind (.pyGet hS.index _ _) fun _ _ =>
      .bind (xmlCheck_raises hS _) fun _ _ => .pure _
  · unfold xmlifyItem
    refine .bind (.pyGet hS.index _ _) fun _ _ => .bind ?_ fun _ _ => .bind ?_ fun _ _ => .bind (.pyGet hS.index _ _) fun _ _ =>
      .bind (xmlCheck_raises hS _) fun _ _ => .pure _
    · unfold tagCheck; split
      · exact .ok _
      · exact .err hS.value
    · unfold unitAttrs; split
      · exact .bind (xmlCheck_raises hS _) fun _ _ => .pure _
      · exact .ok _

theorem metaValue_raises (hS : Common S) (key : Str) (keys : List Str) (lines : List Line) (start : Nat) :
    Raises S (metaValue key keys lines start) := by
  unfold metaValue; split
  · exact .err hS.value
  · exact .bind (.pyGet hS.index _ _) fun _ _ => .pyGet hS.index _ _

theorem eulerId_raises (hk : S .keyError) (s : Str) (c : Char) : Raises S (eulerId s c) := by
  unfold eulerId
  split
  · exact .ok _
  · split
    · exact .ok _
    · split
      · exact .ok _
      · exact .err hk

theorem prepare_raises (hS : Common S) (hk : S .keyError) (keys : List Str) (lines : List Line) (e : Elem) (start : Nat) :
    Raises S (prepareAemSegment keys lines e start) := by
  unfold prepareAemSegment
  refine .bind (.pyGet hS.index _ _) fun _ _ => .bind ?_ fun _ _ => .pure _
  unfold attTemplate
  refine .bind (metaValue_raises hS _ _ _ _) fun _ _ => .bind ?_ fun _ _ => .bind ?_ fun _ _ => .pure _
  · unfold quaternionPart; split
    · exact .bind (metaValue_raises hS _ _ _ _) fun _ _ => .pure _
    · exact .ok _
  · unfold eulerPart; split
    · refine .bind (metaValue_raises hS _ _ _ _) fun _ _ => ?_
      unfold eulerTemplate
      exact .bind (.mapM fun _ _ => eulerId_raises hk _ _) fun _ _ => .bind (.mapM fun _ _ => eulerId_raises hk _ _)
        fun _ _ => .pure _
    · exact .ok _

theorem sectionDoc_raises (hS : Common S) (keys : List Str) (lines : List Line) (e : Elem) (loc : List Line) (hi : Nat)
    (hk : e.cls = .AemSegment → S .keyError) :
    Raises S (sectionDoc keys lines e loc hi) := by
  unfold sectionDoc
  split
  · exact .bind (prepare_raises hS (hk ‹_›) _ _ _ _) fun _ _ => .bind (xmlifyList_raises hS _ _ _) fun _ _ => .pure _
  · split
    · refine .bind ?_ fun _ _ => .bind (xmlifyList_raises hS _ _ _) fun _ _ => .pure _
      unfold stateVectorLines
      exact .bind (.pyGet hS.index _ _) fun _ _ => .bind (.pyGet hS.index _ _) fun _ _ => .pure _
    · split
      · exact .bind (xmlifyList_raises hS _ _ _) fun _ _ => .pure _
      · split
        · refine .bind ?_ fun _ _ => .bind (xmlifyList_raises hS _ _ _) fun _ _ => .pure _
          unfold observationLines
          exact .bind (.pyGet hS.index _ _) fun _ _ => .bind (.pyGet hS.index _ _) fun _ _ => .bind (.pyGet hS.index _ _) fun _ _ => .pure _
        · refine .bind ?_ fun _ _ => .pure _
          unfold plainDoc
          simp only
          generalize (if (prefixOf e.cls).isSome = true then loc
            else List.filter (fun l => e.kw.contains (l.headD [])) loc) = loc'
          split
          · exact .ok _
          · split
            · refine .map ?_
              unfold xmlifyRoot
              exact .bind (.mapM fun _ _ => .bind (.pyGet hS.index _ _) fun _ _ => .bind (xmlCheck_raises hS _) fun _ _ =>
                .bind (.pyGet hS.index _ _) fun _ _ => .pure _) fun _ _ => .pure _
            · split
              · refine .map ?_
                unfold xmlifySingle
                refine .bind (.pyGet hS.index _ _) fun item _ => .bind (.pyGet hS.index _ _) fun _ _ => .bind (xmlCheck_raises hS _) fun _ _ =>
                  .bind (.pyGet hS.index _ _) fun _ _ => .bind (xmlCheck_raises hS _) fun _ _ => ?_
                split
                · exact .bind (xmlCheck_raises hS _) fun _ _ => .pure _
                · exact .pure _
              · exact .map (xmlifyList_raises hS _ _ _)

theorem attach_raises (ha : S .attributeError) (o : Val) (name : Str) (sub : Val) : Raises S (attach o name sub) := by
  unfold attach
  split
  · split
    · exact .err ha
    · split <;> exact .ok _
    · exact .ok _
  · exact .err ha

theorem checkChildren_raises (hS : Common S) (c : Cls) : ∀ (seen : List Str) (xs : List XLeaf), Raises S (checkChildren c seen xs)
  | _, [] => .ok _
  | seen, x :: xs => by
    unfold checkChildren
    split
    · exact .err hS.parser
    · split
      · exact .err hS.parser
      · exact checkChildren_raises hS c _ xs

theorem bindDoc_raises (hS : Common S) (c : Cls) (d : XDoc) : Raises S (bindDoc c d) := by
  unfold bindDoc
  exact .bind (checkChildren_raises hS _ _ _) fun _ _ => .pure _

theorem build_raises (hS : Common S) (hk : S .keyError) (ha : S .attributeError) (keys : List Str) (lines : List Line) : ∀ (fuel : Nat) (e : Elem) (full : List Line),
    DepthLt fuel e → Raises S (build keys lines fuel e full)
  | 0, _, _, h => h.elim
  | fuel + 1, e, full, hd => by
    unfold build
    split
    · exact .err ha
    · simp only
      split
      · exact .ok _
      · split
        · refine .bind ?_ fun tm _ => .bind (.pyGet hS.index _ _) fun _ _ => .bind (.pyGet hS.index _ _) fun _ _ =>
            .bind (identElem_raises hS _ _) fun x hx => ?_
          · unfold templateOf; split
            · exact .ok _
            · exact .err hk
          · obtain ⟨mx, mm, e'⟩ := x
            refine .bind (.pyGet hS.index _ _) fun s0 hs0 => .bind ?_ fun _ _ => .bind (attach_raises ha _ _ _) fun _ _ => .pure _
            have : DepthLt (fuel + 1) e' := hd.inst (identElem_inst _ _ _ _ _ hx)
            exact build_raises hS hk ha keys lines fuel s0 _ (this s0 (pyGet_mem hs0))
        · refine .bind (sectionDoc_raises hS _ _ _ _ _ fun _ => hk) fun doc hdoc => ?_
          split
          · exact .pure _
          · rename_i doc subs
            refine .bind (bindDoc_raises hS _ _) fun obj _ => .foldlM fun s hs o =>
              .bind (build_raises hS hk ha keys lines fuel s full ?_) fun _ _ => attach_raises ha _ _ _
            rcases sectionDoc_subs hdoc with rfl | ⟨-, hp⟩
            · exact hd s hs
            · exact prepare_depth hd hp s hs

end

end Ndm
