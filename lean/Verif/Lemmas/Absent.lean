import Verif.Lemmas.Within
import Verif.Lemmas.FromRoot

/-! Blocks whose keywords do not occur are not found. -/

namespace Ndm

/-- A property of class, keyword list and sub-elements that holds everywhere in a tree. -/
inductive Tree (Q : Cls → List Str → List Elem → Prop) : Elem → Prop
  | mk {e : Elem} : Q e.cls e.kw e.subs → (∀ s ∈ e.subs, Tree Q s) → Tree Q e

/-- The same for a tree with ranges. -/
inductive RTree (Q : Cls → List Str → List Elem → Prop) (G : Cls → Nat × Nat → Prop) : Elem → Prop
  | mk {e : Elem} : Q e.cls e.kw e.subs → (∀ mm, e.minMax = some mm → G e.cls mm) → (∀ s ∈ e.subs, RTree Q G s) → RTree Q G e

section
variable {Q : Cls → List Str → List Elem → Prop} {G : Cls → Nat × Nat → Prop} {keys : List Str} {lines : List Line}

theorem listLoop_tree {ident : Nat → Except PyErr (Nat × (Nat × Nat) × Elem)} {nLines : Nat}
    (hid : ∀ i mx mm e, ident i = .ok (mx, mm, e) → RTree Q G { e with minMax := some mm }) :
    ∀ (fuel init : Nat) (acc : List Elem) (r : Nat) (es : List Elem), (∀ s ∈ acc, RTree Q G s) →
      listLoop ident nLines fuel init acc = .ok (r, es) → ∀ s ∈ es, RTree Q G s
  | 0, _, _, _, _, _, h => by cases h
  | fuel + 1, init, acc, r, es, hacc, h => by
    unfold listLoop at h
    obtain ⟨⟨mx, mm, e⟩, hi, h⟩ := bind_ok_iff.mp h
    simp only at h
    split at h
    · cases h
      intro s hs; exact hacc s (List.mem_reverse.mp hs)
    · split at h
      · cases h
        intro s hs; exact hacc s (List.mem_reverse.mp hs)
      · have hacc' : ∀ s ∈ { e with minMax := some mm } :: acc, RTree Q G s := by
          intro s hs
          rcases List.mem_cons.mp hs with rfl | hs
          · exact hid _ _ _ _ hi
          · exact hacc s hs
        split at h
        · cases h
          intro s hs; exact hacc' s (List.mem_reverse.mp hs)
        · exact listLoop_tree hid fuel _ _ _ _ hacc' h

variable (hmono : ∀ c kw subs subs', Q c kw subs → (subs = [] → subs' = []) → Q c kw subs')
  (hR : ∀ (e : Elem) (init : Nat) (mm : Nat × Nat) (kw : List Str), Q e.cls e.kw e.subs →
    rootRange e keys lines init = .ok (mm, kw) → Q e.cls kw e.subs ∧ G e.cls mm)

include hmono hR

mutual
theorem identElem_tree : ∀ (e : Elem) (init mx : Nat) (mm : Nat × Nat) (e' : Elem), Tree Q e →
    identElem keys lines e init = .ok (mx, mm, e') →
      e'.cls = e.cls ∧ Q e'.cls e'.kw e'.subs ∧ G e'.cls mm ∧ ∀ s ∈ e'.subs, RTree Q G s
  | ⟨name, cls, subs, kw, isList, single, minMax, template⟩, init, mx, mm, e', ht, h => by
    simp only [identElem] at h
    obtain ⟨⟨mm', kw'⟩, hr, h⟩ := bind_ok_iff.mp h
    obtain ⟨⟨mx', subs'⟩, hs, h⟩ := bind_ok_iff.mp h
    cases h
    cases ht with
    | mk hq hsub =>
      obtain ⟨h1, h2⟩ := hR _ _ _ _ hq hr
      refine ⟨rfl, hmono _ _ _ _ h1 ?_, h2, identSubs_tree subs _ _ _ _ hsub hs⟩
      rintro rfl
      simp only [identSubs] at hs
      cases hs
      rfl

theorem identSubs_tree : ∀ (ss : List Elem) (rootMin init mx : Nat) (es : List Elem), (∀ s ∈ ss, Tree Q s) →
    identSubs keys lines rootMin ss init = .ok (mx, es) → ∀ s ∈ es, RTree Q G s
  | [], rootMin, init, mx, es, _, h => by
    simp only [identSubs] at h
    cases h
    intro s hs; cases hs
  | s :: ss, rootMin, init, mx, es, ht, h => by
    simp only [identSubs] at h
    split at h
    · obtain ⟨⟨m1, es1⟩, h1, h⟩ := bind_ok_iff.mp h
      obtain ⟨⟨m2, es2⟩, h2, h⟩ := bind_ok_iff.mp h
      cases h
      intro x hx
      rcases List.mem_append.mp hx with hx | hx
      · refine listLoop_tree (Q := Q) (G := G) ?_ _ _ _ _ _ (by intro s hs; cases hs) h1 x hx
        intro i mx mm e hi
        obtain ⟨-, hq, hg, hsub⟩ := identElem_tree s i mx mm e (ht s (by simp)) hi
        refine .mk hq ?_ hsub
        intro mm' he; cases he; exact hg
      · exact identSubs_tree ss _ _ _ _ (fun x hx => ht x (by simp [hx])) h2 x hx
    · obtain ⟨⟨m1, mm1, s1⟩, h1, h⟩ := bind_ok_iff.mp h
      obtain ⟨⟨mm2, kw2⟩, h3, h⟩ := bind_ok_iff.mp h
      obtain ⟨⟨m3, es3⟩, h4, h⟩ := bind_ok_iff.mp h
      cases h
      intro x hx
      rcases List.mem_cons.mp hx with rfl | hx
      · obtain ⟨-, hq, hg, hsub⟩ := identElem_tree s init m1 mm1 s1 (ht s (by simp)) h1
        have : Q s1.cls kw2 s1.subs ∧ G s1.cls mm2 := by
          unfold researchRange at h3
          split at h3
          · exact hR _ _ _ _ hq h3
          · cases h3; exact ⟨hq, hg⟩
        refine .mk this.1 ?_ hsub
        intro mm' he; cases he; exact this.2
      · exact identSubs_tree ss _ _ _ _ (fun x hx => ht x (by simp [hx])) h4 x hx
end

omit hR in
theorem prepare_tree {e : Elem} {start : Nat} {subs : List Elem} (ht : RTree Q G e)
    (h : prepareAemSegment keys lines e start = .ok subs) : ∀ s ∈ subs, RTree Q G s := by
  intro s hs
  cases ht with
  | mk _ _ hd =>
    rcases prepare_subs h s hs with hs | ⟨d, hds, tm, av, rfl⟩
    · exact hd s hs
    · cases hd d hds with
      | mk h1 h2 hs1 =>
        refine .mk (hmono _ _ _ _ h1 (by intro h; simp [h])) h2 ?_
        intro x hx
        obtain ⟨x', hx', rfl⟩ := List.mem_map.mp hx
        cases hs1 x' hx' with
        | mk h3 h4 hs2 =>
          exact .mk (hmono _ _ _ _ h3 (by intro h; simp [h])) h4 fun y hy => hs2 y (List.mem_of_mem_filter hy)

end

/-! ## Nothing is found without keywords -/

theorem getMinMax_nowhere {tags kw : List Str} {start : Nat} {keys : List Str} {pref : Option Str} {single : Bool}
    {mm : Nat × Nat} (hno : ∀ k ∈ keys, k ≠ py "COMMENT" → k ∉ withPrefix tags start keys pref)
    (hlen : (withPrefix tags start keys pref).contains (py "COMMENT") = true → (withPrefix tags start keys pref).length ≠ 1)
    (h : getMinMax tags start keys pref single = .ok (mm, kw)) : mm = (start, start) := by
  unfold getMinMax at h
  simp only at h
  generalize withPrefix tags start keys pref = ts at hno hlen h
  have hidx : (ts.filter (· != py "COMMENT")).filterMap (findFrom · keys start) = [] := by
    rw [List.filterMap_eq_nil_iff]
    intro t ht
    obtain ⟨ht, hc⟩ := List.mem_filter.mp ht
    unfold findFrom
    rw [Option.map_eq_none_iff, List.findIdx?_eq_none_iff]
    intro k hk
    by_contra he
    have he : k = t := by simpa using he
    subst he
    exact hno k (List.mem_of_mem_drop hk) (by simpa using hc) ht
  rw [hidx] at h
  obtain ⟨idx, h1, h⟩ := bind_ok_iff.mp h
  have : idx = [] := by
    unfold processComments at h1
    split at h1
    · rename_i hc
      rw [if_neg (hlen hc)] at h1
      simp only [List.max?_nil] at h1
      cases h1; rfl
    · cases h1; rfl
  subst this
  obtain ⟨idx', h2, h⟩ := bind_ok_iff.mp h
  unfold chopAll at h2
  simp only [List.min?_nil] at h2
  cases h2
  cases h
  rfl

/-- Nothing is found for an element none of whose keywords occurs. -/
theorem rootRange_nowhere {e : Elem} {keys : List Str} {lines : List Line} {init : Nat} {mm : Nat × Nat} {kw : List Str}
    (hsp : isSpecialIdent e.cls = false ∨ e.cls = .OemCovarianceMatrixType)
    (hno : ∀ k ∈ keys, k ≠ py "COMMENT" → k ∉ e.kw) (hpre : ∀ p, prefixOf e.cls = some p → ∀ k ∈ keys, startsWith k p = false)
    (hlen : e.kw.contains (py "COMMENT") = true → e.kw.length ≠ 1)
    (h : rootRange e keys lines init = .ok (mm, kw)) : mm.1 = mm.2 ∧ kw = e.kw := by
  have hw : withPrefix e.kw init keys (prefixOf e.cls) = e.kw := by
    unfold withPrefix
    split
    · rfl
    · rename_i p hp
      rw [List.filter_eq_nil_iff.mpr, List.append_nil]
      intro k hk
      rw [hpre p hp k (List.mem_of_mem_drop hk)]
      simp
  have key : ∀ mm kw, getMinMax e.kw init keys (prefixOf e.cls) e.single.isSome = .ok (mm, kw) → mm = (init, init) ∧ kw = e.kw := by
    intro mm kw h
    refine ⟨getMinMax_nowhere ?_ ?_ h, ?_⟩
    · rw [hw]; exact hno
    · rw [hw]; exact hlen
    · rw [getMinMax_kw h, hw]
  unfold rootRange at h
  split at h
  · rename_i hs
    rcases hsp with hsp | hsp
    · rw [hsp] at hs; cases hs
    · unfold identifySpecial at h
      rw [if_neg (by rw [hsp]; decide), if_neg (by rw [hsp]; decide), if_pos hsp] at h
      obtain ⟨⟨⟨lo, hi⟩, kw'⟩, hg, h⟩ := bind_ok_iff.mp h
      obtain ⟨h1, h2⟩ := key _ _ hg
      cases h1
      simp only [if_true] at h
      cases h
      exact ⟨rfl, h2⟩
  · obtain ⟨h1, h2⟩ := key _ _ h
    rw [h1]
    exact ⟨rfl, h2⟩

end Ndm
