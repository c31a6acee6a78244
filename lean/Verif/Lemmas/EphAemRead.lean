import Verif.Lemmas.EphAem
import Verif.Lemmas.EphWrite

/-! Reading the segments of an AEM and the whole message. -/

namespace Ndm

theorem AemDataOk.mono {P Q : Val → List Line → Prop} (h : ∀ v l, P v l → Q v l) {v : Val} {l : List Line}
    (hd : AemDataOk P v l) : AemDataOk Q v l := by
  cases hd with
  | mk h1 h2 h3 h4 =>
    refine .mk h1 h2 h3 ?_
    clear h3
    induction h4 with
    | nil => exact .nil
    | cons hx _ ih => exact .cons (h _ _ hx) ih

theorem AemSegmentsOf.mono {P Q : AttitudeDecl → Val → List Line → Prop} (h : ∀ D v l, P D v l → Q D v l) {segs : List Val}
    {ls : List Line} (hs : AemSegments P segs ls) : AemSegmentsOf Spelled Q segs ls := by
  induction hs with
  | nil => exact .nil
  | cons h1 h2 h3 _ h5 ih => exact .cons h1.spelled h2 (h3.mono (h _)) ih h5

theorem aemSegments_keys {segs : List Val} {ls : List Line} (h : AemSegmentsOf Spelled AttitudeRead segs ls) :
    ∀ m ∈ ls, m.key = py "COMMENT" ∨ m.key ∈ Cls.keywords .AemMetadata ∨ letterHead m.key = false := by
  induction h with
  | nil => simp
  | @cons D m lm d ld segs ls hm hdec hd _ _ ih =>
    intro x hx
    rcases List.mem_append.mp hx with hx | hx
    · rcases List.mem_append.mp hx with hx | hx
      · exact .inr (.inl ((keyBlock_keys hm).1 x hx))
      · rcases (aemData_lines hd).2.1 x hx with h | h
        · exact .inl h
        · exact .inr (.inr h)
    · exact ih x hx

theorem aemSegments_away {segs : List Val} {ls : List Line} (h : AemSegmentsOf Spelled AttitudeRead segs ls) : ∀ m ∈ ls, Away m := by
  intro m hm
  rcases aemSegments_keys h m hm with h | h | h
  · exact away_keyword (.inl h)
  · exact away_keyword (.inr h)
  · intro hk
    have := (attE_keywords _ hk).1
    rw [h] at this
    cases this

theorem aemSegments_first {segs : List Val} {ls : List Line} (h : AemSegmentsOf Spelled AttitudeRead segs ls) : AemFirst ls := by
  cases h with
  | nil => intro l hl; cases hl
  | @cons D m lm d ld segs ls hm hdec hd _ _ =>
    obtain ⟨hk, hn, -⟩ := keyBlock_keys hm
    cases lm with
    | nil => exact absurd rfl hn
    | cons a as =>
      intro l hl
      simp only [List.cons_append, List.head?_cons, Option.some.injEq] at hl
      subst hl
      exact .inr (hk _ (by simp))

theorem read_aemSegments {segs : List Val} {ls : List Line} (h : AemSegmentsOf Spelled AttitudeRead segs ls) (name : Str) :
    ItemsRead 6 (extract 8 name .AemSegment true) [] segs ls := by
  induction h with
  | nil => exact .nil
  | @cons D m lm d ld segs ls hm hdec hd hs h1 ih =>
    refine .cons ?_ (by simp [(keyBlock_keys hm).2.1]) ih
    rw [List.append_nil]
    exact read_aemSegment hm hdec hd (aemSegments_away hs) (aemSegments_first hs) h1 name

theorem aemSegments_truthy {K : Cls → List (Str × Val) → List Line → Prop} {P : AttitudeDecl → Val → List Line → Prop}
    {segs : List Val} {ls : List Line} (h : AemSegmentsOf K P segs ls) :
    ∀ x ∈ segs, x.truthy = true := by
  induction h with
  | nil => simp
  | cons _ _ _ _ _ ih =>
    intro x hx
    rcases List.mem_cons.mp hx with rfl | hx
    · rfl
    · exact ih x hx

theorem aemBody_regular : Regular .AemBody := regular_iff (by decide +kernel)
theorem aemBody_blocks : Cls.keyAttrs .AemBody = [] ∧ blocksAre (Cls.blockAttrs .AemBody) [(py "segment", .AemSegment, true)] = true := by
  decide +kernel
theorem aem_blocks : blocksAre (Cls.blockAttrs .Aem) [(py "header", .NdmHeader, false), (py "body", .AemBody, false)] = true := by
  decide +kernel
theorem aemHeader_facts : ∀ k ∈ Cls.keywords .AemMetadata, k ∈ Cls.keywords .NdmHeader → k = py "COMMENT" := by decide +kernel

theorem read_aemBody {segs : List Val} {ls : List Line} (h : AemSegmentsOf Spelled AttitudeRead segs ls) (hne : segs ≠ []) (name : Str)
    (il : Bool) : ItemRead 7 (extract 9 name .AemBody il) (.obj .AemBody [(py "segment", .list segs)]) ls [] := by
  have hparts := PartsRead.one (PartRead.many (a := py "segment") (aemSegments_truthy h) (read_aemSegments h _) (by
    rintro (h | h)
    · exact absurd h hne
    · exact absurd rfl h))
  obtain ⟨hsubs, hbv⟩ := parts_subs aemBody_blocks.2 hparts
  exact read_container aemBody_regular aemBody_blocks.1 hsubs hbv
    (parts_nonempty aemBody_blocks.2 hparts (by simpa using hne)) name il

theorem read_aem {src : Str} {raw lh ls : List Line} {h : Val} {segs : List Val} {id ver₀ ver : Str}
    (hk : (Cls.Aem, id, ver₀) ∈ messageKinds) (hver : xmlCheck ver = .ok ())
    (hsrc : (splitChar '\n' src).filterMap parseLine = [id, ver] :: raw) (hdel : deleteMarkers .Aem raw = lh ++ ls)
    (hh : KeyBlockOf Spelled .NdmHeader h lh) (hs : AemSegmentsOf Spelled AttitudeRead segs ls) (hne : segs ≠ []) :
    kvnFromString src = .ok (aem h segs) := by
  obtain ⟨-, -, ⟨vh, rfl⟩⟩ := keyBlock_keys hh
  have hrh := (read_keyBlock ndmHeader_regular ndmHeader_facts.1 ndmHeader_facts.2.1 hh (post := ls ++ []) (by
    left
    intro m hm hc hk
    rw [List.append_nil] at hm
    exfalso
    rcases aemSegments_keys hs m hm with h | h | h
    · exact hc h
    · exact hc (aemHeader_facts _ h hk)
    · exact not_keyword ndmHeader_regular.toBindable h hk)
    8 (py "header") false).mono (show 1 ≤ 7 by omega)
  have hrb := read_aemBody hs hne (py "body") false
  obtain ⟨hsubs, hbv⟩ := parts_subs aem_blocks (PartsRead.cons (.single hrh) (PartsRead.one (.single hrb)))
  exact read_root (rootCls hk) hver hsrc hdel (n := 7) (by decide) hsubs hbv ⟨by simp, by simp⟩ (by decide)

end Ndm
