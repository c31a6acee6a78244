import Verif.Lemmas.AbsentRead
import Verif.Lemmas.SpelledCheck
import Verif.Props.Provenance
import Verif.Props.Refuted

/-! # What a text does not mention is not there (C36), and the covariance frame (C30)

The specification (`Within`, `keywordBlocks`, `Mentions`) is in `Verif/SpecWithin.lean`. -/

namespace Ndm

/-- **C36, for blocks of keyword lines.**  Let `L` be the items stated by the lines of a text.  If none of these lines
has a keyword of the block class `d`, the object that is read has no such block anywhere: no part of it is an object of
the class `d`, and every attribute that could hold one is `None`, or `[]` if it is a list.

Missing: the blocks that are made of other blocks (`C36_refuted`), ephemeris, attitude and tracking lines, which have no
keyword, and the metadata of attitude ephemerides. -/
theorem C36_partial (s : KvnSelf) (src : Str) (ls cs : List Str) (L : List (List Str)) (v : Val)
    (ht : TextLines src ls) (hs : SigLines ls cs) (hL : List.Forall₂ LineItems cs L)
    (h : (s.fromString src).1 = .ok v) (d : Cls) (hd : d ∈ keywordBlocks)
    (hno : ∀ k r, (k :: r) ∈ L → ¬ Mentions d k) :
    (∀ ws, ¬ Within (.obj d ws) v) ∧
    ∀ c vs, Within (.obj c vs) v → ∀ f ∈ c.attrs, f.ty = .cls d →
      Val.lookupVar f.name vs = some (if f.isList then .list [] else .none) := by
  rw [kvn_history_independent] at h
  have hlines : (splitChar '\n' src).filterMap parseLine = L := by
    rw [splitChar_textLines ht, filterMap_sigLines hs, lineItems_filterMap (sigLines_cores hs) hL]
  have hne : ∀ l ∈ L, l ≠ [] := by
    intro l hl
    rw [← hlines] at hl
    obtain ⟨raw, -, hraw⟩ := List.mem_filterMap.mp hl
    exact parseLine_nonempty hraw
  have habs := read_absent hlines h hd (by
    intro l hl
    cases l with
    | nil => exact absurd rfl (hne _ hl)
    | cons k r => exact hno k r hl)
  refine ⟨habs, ?_⟩
  intro c vs hw f hf hty
  have hm : d.members = none := by
    have := List.all_eq_true.mp (show (keywordBlocks.all fun d => d.members.isNone) = true by decide +kernel) d hd
    simpa using this
  obtain ⟨-, c0, -, -, -, htop⟩ := kvnFromString_type h
  have hfs := (within_typed hw).1 _ htop
  obtain ⟨x, hx⟩ := hasFields_find hfs hf
  obtain ⟨g, hg, hn, hok⟩ := hasFields_lookup hfs hx
  have : g = f := eq_of_name (attrs_nodup c) hg hf hn
  subst this
  obtain ⟨n, hmem⟩ := lookupVar_within hx
  rw [hx]
  have hin : ∀ {o y}, Within o y → Within y x → Within o v := by
    intro o y ho hy
    have trans : ∀ {a b : Val}, Within a b → Within o a → Within o b := by
      intro a b hab hoa
      induction hab with
      | self => exact hoa
      | field hm _ ih => exact .field hm ih
      | item hm _ ih => exact .item hm ih
    exact trans hw (.field hmem (trans hy ho))
  have hobj : ∀ y, HasType (.cls d) y → Within y x → False := by
    intro y hy hyx
    cases hy with
    | enum _ h => rw [hm] at h; cases h
    | enumText _ h => rw [hm] at h; cases h
    | obj _ _ => exact habs _ (hin .self hyx)
  cases hok with
  | list hl ha =>
    rw [hl]
    cases ha with
    | nil => rfl
    | cons hy _ => rw [hty] at hy; exact (hobj _ hy (.item List.mem_cons_self .self)).elim
  | none hl => rw [hl]; rfl
  | one hl hy => rw [hty] at hy; exact (hobj _ hy .self).elim

/-- **C30 fails for every text.**  Whatever the text of an orbit ephemeris says, the reference frame of each covariance
matrix in the object that is read is `None`. -/
theorem C30_frame_never_read (s : KvnSelf) (src : Str) (v : Val) (h : (s.fromString src).1 = .ok v)
    (ws : List (Str × Val)) (hw : Within (.obj .OemCovarianceMatrixType ws) v) :
    Val.lookupVar (py "cov_ref_frame") ws = some .none := by
  rw [kvn_history_independent] at h
  exact read_frame h ws hw

/-! ## Examples -/

/-- The lines of the orbit parameter message, none of which mentions a manoeuvre. -/
example : ∃ ls cs L v, TextLines opmText ls ∧ SigLines ls cs ∧ List.Forall₂ LineItems cs L ∧
    (KvnSelf.fromString {} opmText).1 = .ok v ∧ (∀ k r, (k :: r) ∈ L → ¬ Mentions .ManeuverParametersType k) ∧
    v.at [.f (py "body"), .f (py "segment"), .f (py "data"), .f (py "maneuver_parameters")] = some (.list []) := by
  obtain ⟨ls, cs, L, h1, h2, h3⟩ := C37_lines opmText
  have hL : (splitChar '\n' opmText).filterMap parseLine = L := by
    rw [splitChar_textLines h1, filterMap_sigLines h2, lineItems_filterMap (sigLines_cores h2) h3]
  obtain ⟨v, hv, hat⟩ : ∃ v, kvnFromString opmText = .ok v ∧
      v.at [.f (py "body"), .f (py "segment"), .f (py "data"), .f (py "maneuver_parameters")] = some (.list []) :=
    ok_of_check _ (by decide +kernel)
  refine ⟨ls, cs, L, v, h1, h2, h3, by rw [kvn_history_independent]; exact hv, ?_, hat⟩
  have key : (((splitChar '\n' opmText).filterMap parseLine).all fun l =>
      !(Cls.keyAttrs .ManeuverParametersType).any fun f => l.headD [] != py "COMMENT" && l.headD [] == upper f.name) = true := by
    decide +kernel
  rintro k r hl ⟨hc, ⟨f, hf, hk⟩ | ⟨h, -⟩⟩
  · rw [← hL] at hl
    have := List.all_eq_true.mp key _ hl
    simp only [List.headD_cons, Bool.not_eq_true', List.any_eq_false, Bool.and_eq_true, bne_iff_ne, ne_eq, beq_iff_eq,
      not_and] at this
    exact this f hf hc hk
  · cases h

-- The frame that is stated is not kept.
example : ∃ v, kvnFromString (oemText (py "COV_REF_FRAME = RTN\n")) = .ok v ∧
    v.at (covPath (py "cov_ref_frame")) = some .none :=
  ok_of_check _ (by decide +kernel)

end Ndm
