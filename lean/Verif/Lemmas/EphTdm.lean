import Verif.Lemmas.EphOem
import Verif.Lemmas.EphWrite

/-! Reading and writing TDMs. -/

namespace Ndm

/-! ### Observations -/

theorem no_keys {fs : List Field} (hl : ∀ g ∈ fs, g.isList = false) {F : Field → Val} (hF : ∀ g ∈ fs, F g = .none) :
    KeysOf KeyText fs (fs.map fun g => (g.name, F g)) [] := by
  induction fs with
  | nil => exact .nil
  | cons g fs ih =>
    rw [List.map_cons, hF g (by simp)]
    exact .absent (hl g (by simp)) (ih (fun g h => hl g (by simp [h])) (fun g h => hF g (by simp [h])))

theorem one_key {fs : List Field} (hl : ∀ g ∈ fs, g.isList = false) (hn : (fs.map (·.name)).Nodup) {f : Field} (hf : f ∈ fs)
    {F : Field → Val} {v : Val} {l : Line} (hv : F f = v) (hF : ∀ g ∈ fs, g.name ≠ f.name → F g = .none) (hk : KeyText f v l) :
    KeysOf KeyText fs (fs.map fun g => (g.name, F g)) [l] := by
  induction fs with
  | nil => cases hf
  | cons g fs ih =>
    rw [List.map_cons, List.nodup_cons] at hn
    rw [List.map_cons]
    rcases List.mem_cons.mp hf with rfl | hf
    · rw [hv]
      refine .value (hl _ (by simp)) hk (no_keys (fun g h => hl g (by simp [h])) fun g hg => hF g (by simp [hg]) ?_)
      intro h
      exact hn.1 (h ▸ List.mem_map_of_mem hg)
    · rw [hF g (by simp) (fun h => hn.1 (h ▸ List.mem_map_of_mem hf))]
      exact .absent (hl g (by simp)) (ih (fun g h => hl g (by simp [h])) hn.2 hf fun g h => hF g (by simp [h]))

theorem obs_bindable : Bindable .TrackingDataObservationType := bindable_iff (by decide +kernel)
theorem obs_blocks : Cls.blockFields .TrackingDataObservationType = [] ∧ Cls.blockAttrs .TrackingDataObservationType = [] := by
  decide +kernel
theorem obs_lists : ∀ g ∈ Cls.keyAttrs .TrackingDataObservationType, g.isList = false := by decide +kernel
theorem obs_names : ((Cls.keyAttrs .TrackingDataObservationType).map (·.name)).Nodup := by decide +kernel

/-- The epoch comes first. -/
def epochFirst : List Field → Bool
  | f :: _ => decide (f.name = py "epoch") && decide (f.ty = .str) && !f.isList
  | [] => false

theorem obs_epoch : epochFirst (Cls.keyAttrs .TrackingDataObservationType) = true := by decide +kernel

theorem obs_keys {fs : List Field} (h : epochFirst fs = true) (hl : ∀ g ∈ fs, g.isList = false) (hn : (fs.map (·.name)).Nodup)
    {f : Field} (hf : f ∈ fs) (hfe : f.name ≠ py "epoch") {e : Str} (he : XmlText e) {v : Val} {l : Line} (hk : KeyText f v l) :
    KeysOf KeyText fs (fs.map fun g => (g.name, if g.name = py "epoch" then .str e else if g.name = f.name then v else .none))
      [[py "EPOCH", e], l] := by
  cases fs with
  | nil => cases h
  | cons g fs =>
    simp only [epochFirst, Bool.and_eq_true, decide_eq_true_eq, Bool.not_eq_true'] at h
    obtain ⟨⟨h1, h2⟩, h3⟩ := h
    rw [List.map_cons, List.nodup_cons] at hn
    have hf' : f ∈ fs := by
      rcases List.mem_cons.mp hf with rfl | h
      · exact absurd h1 hfe
      · exact h
    rw [List.map_cons]
    have hrest := one_key (fun g h => hl g (by simp [h])) hn.2 hf'
      (F := fun g => if g.name = py "epoch" then .str e else if g.name = f.name then v else .none) (v := v) (l := l)
      (by simp [hfe]) (by
        intro g' hg' hne
        rw [if_neg, if_neg hne]
        intro h
        exact hn.1 (by rw [h1, ← h]; exact List.mem_map_of_mem hg')) hk
    have := KeysOf.value h3 (KeyText.str (f := g) (s := e) (by rw [h2]; simp) (by rw [h2]; exact .str e) he) hrest
    rw [h1] at this
    rw [h1, if_pos rfl]
    exact this

theorem obs_range {e : Elem} (hc : e.cls = .TrackingDataObservationType) {s k : Str} {r : Line}
    {t : Str} {ts : List Str} (hw : words s = t :: ts) {b : Bool} (hb : isDateStr t = .ok b) (keys : List Str)
    (pre rest : List Line) :
    rootRange e keys (pre ++ (k :: s :: r) :: rest) pre.length =
      .ok (if b then (pre.length, pre.length + 1) else (pre.length, pre.length), e.kw) := by
  have hi : isSpecialIdent e.cls = true := by rw [hc]; decide
  have hb1 : (decide (e.cls = .StateVectorAccType) || decide (e.cls = .AttitudeStateType)) = false := by rw [hc]; decide
  unfold rootRange identifySpecial
  rw [hi, hb1]
  simp only [if_true, bind, Except.bind, pyGet_mid, pure, Except.pure, Bool.false_eq_true, if_false, hc]
  have h0 : pyGet (k :: s :: r) 1 = .ok s := rfl
  have h1 : pyGet (words s) 0 = .ok t := by rw [hw]; rfl
  simp only [h0, h1, hb]

/-- Reading an observation line with any spacing. -/
theorem read_obsLine {f : Field} (hf : f ∈ Cls.keyAttrs .TrackingDataObservationType) (hfe : f.name ≠ py "epoch") {e s t : Str}
    (he : DateText e) (hw : words s = [e, t]) {v : Val} (hk : KeyText f v [upper f.name, t]) {post : List Line} (k : Nat)
    (name : Str) (il : Bool) :
    ItemRead 1 (extract (k + 1) name .TrackingDataObservationType il) (observation f.name e v) [[upper f.name, s]] post := by
  rw [extract_leaf obs_bindable obs_blocks.1]
  refine item_special (syn := [[py "EPOCH", e], [upper f.name, t]]) obs_bindable obs_blocks.2
    rfl rfl (by decide) ?_ (by simp) ?_ ?_
  · intro pre
    rw [List.append_assoc, List.singleton_append, obs_range rfl hw he.isDate]
    simp
  · intro keys lines mm hi
    unfold sectionDoc
    simp only [reduceCtorEq, if_false, if_true, observationLines, bind, Except.bind]
    have h0 : ∀ l : Line, pyGet [l] 0 = .ok l := fun _ => rfl
    have h1 : ∀ a s : Str, pyGet [a, s] 0 = .ok a ∧ pyGet [a, s] 1 = .ok s := fun _ _ => ⟨rfl, rfl⟩
    simp only [h0, h1, hw, pure, Except.pure, zipLines, List.zip_cons_cons, List.zip_nil_left, List.map_cons, List.map_nil]
    cases xmlifyList name [[py "EPOCH", e], [upper f.name, t]] none <;> rfl
  · exact obs_keys obs_epoch obs_lists obs_names hf hfe he.asPlain.xml hk

theorem obs_words {e t : Str} (he : Token e) (hl : e.length < 30) (ht : Token t) :
    words (e ++ List.replicate (30 - e.length) ' ' ++ t) = [e, t] := by
  rw [words_cons he.1 (fun c hc => (he.2 c hc).1) (blank_replicate _) (by simp; omega),
    words_single ht.1 (fun c hc => (ht.2 c hc).1)]

theorem dec_notEpoch : ∀ f ∈ Cls.keyAttrs .TrackingDataObservationType, f.ty = .dec → f.name ≠ py "epoch" := by decide +kernel

theorem Observation.observed {v : Val} {l : List Line} (h : Observation v l) : Observed v l := by
  cases h with
  | @mk e f d he hlen hf hty =>
    exact .mk he (obs_words he.token hlen (token_dec d)) hf (dec_notEpoch f hf hty) (KeyVal.dec hty).text

theorem read_observed {v : Val} {l post : List Line} (h : Observed v l) (k : Nat) (name : Str) (il : Bool) :
    ItemRead 1 (extract (k + 1) name .TrackingDataObservationType il) v l post := by
  cases h with
  | mk he hw hf hfe hk => exact read_obsLine hf hfe he hw hk k name il

theorem observed_key {v : Val} {l : List Line} (h : Observed v l) :
    l ≠ [] ∧ v.truthy = true ∧ (∃ vs, v = .obj .TrackingDataObservationType vs) ∧
      ∀ m ∈ l, m.key ∈ Cls.keywords .TrackingDataObservationType := by
  cases h with
  | mk he hw hf hfe hk =>
    refine ⟨by simp, rfl, ⟨_, rfl⟩, ?_⟩
    intro m hm
    simp only [List.mem_singleton] at hm
    subst hm
    exact List.mem_map_of_mem hf

theorem TdmDataOk.mono {P Q : Val → List Line → Prop} (hPQ : ∀ x l, P x l → Q x l) {v : Val} {ls : List Line}
    (h : TdmDataOk P v ls) : TdmDataOk Q v ls := by
  cases h with
  | mk h1 h2 h3 h4 => exact .mk h1 h2 h3 (h4.mono hPQ)

theorem TdmSegmentsOf.mono {P Q : Val → List Line → Prop} (hPQ : ∀ x l, P x l → Q x l) {segs : List Val} {ls : List Line}
    (h : TdmSegmentsOf Written P segs ls) : TdmSegmentsOf Spelled Q segs ls := by
  induction h with
  | nil => exact .nil
  | cons h1 h2 _ h4 h5 ih => exact .cons h1.spelled (h2.mono hPQ) ih h4 h5

theorem stop_obs {e : Elem} (hc : e.cls = .TrackingDataObservationType) (hs : e.subs = []) {l : Line} (hl : Undated l)
    (rest : List Line) : StopAt e (l :: rest) := by
  obtain ⟨k, v, r, w, ws, rfl, hw, h⟩ := hl
  have hb : isDateStr w = .ok false := by
    unfold isDateStr
    rcases h with h | ⟨c, h, hne⟩
    · rw [h]; rfl
    · cases isNumeric (w.take 4)
      · rfl
      · simp [pyGet, h, bind, Except.bind, pure, Except.pure, hne]
  intro pre
  rw [identElem_eq, obs_range hc hw hb]
  simp only [Except.bind, hs, identSubs]
  exact ⟨_, _, _, rfl, .inl ⟨rfl, rfl⟩⟩

theorem tdmData_regular : Regular .TdmData := regular_iff (by decide +kernel)
theorem tdmData_blocks : blocksAre (Cls.blockAttrs .TdmData) [(py "observation", .TrackingDataObservationType, true)] = true := by
  decide +kernel
theorem tdmData_keys : commentOnly (Cls.keyAttrs .TdmData) = true := by decide +kernel
theorem obs_noComment : py "COMMENT" ∉ Cls.keywords .TrackingDataObservationType := by decide +kernel

theorem observations_head {obs : List Val} {lo : List Line} (h : Each Observed obs lo) (hne : obs ≠ []) :
    lo ≠ [] ∧ ∃ l, lo.head? = some l ∧ l.key ≠ py "COMMENT" := by
  cases h with
  | nil => exact absurd rfl hne
  | @cons x l xs ls hx _ =>
    obtain ⟨h1, -, -, h4⟩ := observed_key hx
    obtain ⟨a, b, rfl⟩ := List.exists_cons_of_ne_nil h1
    refine ⟨by simp, a, rfl, ?_⟩
    intro h
    exact obs_noComment (h ▸ h4 a (by simp))

theorem read_tdmData {v : Val} {l post : List Line} (h : TdmDataOk Observed v l) (hpost : ∀ m, post.head? = some m → Undated m) (k : Nat)
    (name : Str) (il : Bool) : ItemRead 2 (extract (k + 2) name .TdmData il) v l post := by
  cases h with
  | @mk texts obs lo ht hlen hne hob =>
    have hp := extract_plain tdmData_regular (k + 1) name il
    obtain ⟨hkeys, hnames, hkw⟩ := commentOnly_keys tdmData_keys ht
    obtain ⟨hobr, -⟩ := each_items (n := 1) (s := extract (k + 1) (py "observation") .TrackingDataObservationType true)
      (post := post) (Q := fun _ => True) (fun x l h => (observed_key h).1)
      (fun x l tail h _ => read_observed h k _ _) trivial (fun x l tail h hq => trivial) hob
    have hparts : PartsRead 1 (k + 1) post [(py "observation", .TrackingDataObservationType, true)]
        [(py "observation", .list obs)] lo := by
      refine .one (.many (each_truthy (fun x l h => (observed_key h).2.1) hob) hobr ?_)
      intro hor
      cases post with
      | nil => exact absurd rfl (hor.resolve_left hne)
      | cons m rest =>
        refine stop_obs ?_ ?_ (hpost m rfl) rest
        · rw [extract_leaf obs_bindable obs_blocks.1]
        · rw [extract_leaf obs_bindable obs_blocks.1]
    obtain ⟨hsubs, hbv⟩ := parts_subs tdmData_blocks hparts
    refine item_of_parts tdmData_regular hp hkeys ?_ ?_ (n := 1) (avoid := fun _ => False) ?_ (by simp) hbv ?_
    · unfold Laid
      rw [if_pos hnames]
      exact ⟨by simpa using hlen, fun _ => (observations_head hob hne).2⟩
    · intro m _ hc hm
      rw [hp.kw, hkw] at hm
      simp at hm
      exact absurd hm hc
    · rw [extract_ordinary tdmData_regular]
      exact hsubs
    · intro _
      exact parts_nonempty tdmData_blocks hparts (by simpa using hne)

theorem tdmMetadata_regular : Regular .TdmMetadata := regular_iff (by decide +kernel)
theorem tdmMetadata_facts : Cls.blockAttrs .TdmMetadata = [] ∧ (Cls.keyAttrs .TdmMetadata).map (·.name) ≠ [py "comment"] ∧
    (∀ k ∈ Cls.keywords .TrackingDataObservationType, k ∉ Cls.keywords .TdmMetadata) := by
  decide +kernel
theorem tdmSegment_regular : Regular .TdmSegment := regular_iff (by decide +kernel)
theorem tdmSegment_blocks : Cls.keyAttrs .TdmSegment = [] ∧ blocksAre (Cls.blockAttrs .TdmSegment)
    [(py "metadata", .TdmMetadata, false), (py "data", .TdmData, false)] = true := by decide +kernel
theorem tdmBody_regular : Regular .TdmBody := regular_iff (by decide +kernel)
theorem tdmBody_blocks : Cls.keyAttrs .TdmBody = [] ∧ blocksAre (Cls.blockAttrs .TdmBody)
    [(py "segment", .TdmSegment, true)] = true := by decide +kernel
theorem tdmHeader_regular : Regular .TdmHeader := regular_iff (by decide +kernel)
theorem tdmHeader_facts : Cls.blockAttrs .TdmHeader = [] ∧ (Cls.keyAttrs .TdmHeader).map (·.name) ≠ [py "comment"] ∧
    (∀ k ∈ Cls.keywords .TdmMetadata, k ∈ Cls.keywords .TdmHeader → k = py "COMMENT") ∧
    ∀ k ∈ Cls.keywords .TrackingDataObservationType, k ∉ Cls.keywords .TdmHeader := by
  decide +kernel
theorem tdm_blocks : blocksAre (Cls.blockAttrs .Tdm) [(py "header", .TdmHeader, false), (py "body", .TdmBody, false)] = true := by
  decide +kernel

theorem tdmData_lines {v : Val} {l : List Line} (h : TdmDataOk Observed v l) :
    (∀ m ∈ l, m.key = py "COMMENT" ∨ m.key ∈ Cls.keywords .TrackingDataObservationType) ∧ l ≠ [] ∧
      ∃ vs, v = .obj .TdmData vs := by
  cases h with
  | @mk texts obs lo ht hlen hne hob =>
    refine ⟨?_, by simp [(observations_head hob hne).1], _, rfl⟩
    intro m hm
    rcases List.mem_append.mp hm with hm | hm
    · obtain ⟨t, -, rfl⟩ := List.mem_map.mp hm
      exact .inl rfl
    · clear hne
      right
      induction hob with
      | nil => simp at hm
      | cons hx _ ih =>
        rcases List.mem_append.mp hm with hm' | hm'
        · exact (observed_key hx).2.2.2 m hm'
        · exact ih (List.mem_append_right _ hm') hm'

theorem tdmSegments_keys {segs : List Val} {ls : List Line} (h : TdmSegmentsOf Spelled Observed segs ls) :
    ∀ m ∈ ls, m.key = py "COMMENT" ∨ m.key ∈ Cls.keywords .TrackingDataObservationType ∨ m.key ∈ Cls.keywords .TdmMetadata := by
  induction h with
  | nil => simp
  | @cons m lm d ld segs ls hm hd hs h1 h2 ih =>
    intro x hx
    rcases List.mem_append.mp hx with hx | hx
    · rcases List.mem_append.mp hx with hx | hx
      · exact .inr (.inr ((keyBlock_keys hm).1 x hx))
      · rcases (tdmData_lines hd).1 x hx with h | h
        · exact .inl h
        · exact .inr (.inl h)
    · exact ih x hx

theorem read_tdmSegments {segs : List Val} {ls : List Line} (h : TdmSegmentsOf Spelled Observed segs ls) (k : Nat) (name : Str) :
    ItemsRead 3 (extract (k + 3) name .TdmSegment true) [] segs ls := by
  induction h with
  | nil => exact .nil
  | @cons m lm d ld segs ls hm hd hs h1 h2 ih =>
    obtain ⟨hdk, hdn, ⟨vd, hvd⟩⟩ := tdmData_lines hd
    obtain ⟨hmk, hmn, ⟨vm, hvm⟩⟩ := keyBlock_keys hm
    refine .cons ?_ (by simp [hmn]) ih
    rw [List.append_nil]
    have hrd := read_tdmData hd h2 k (py "data") false
    have hrm := (read_keyBlock tdmMetadata_regular tdmMetadata_facts.1 tdmMetadata_facts.2.1 hm (post := ld ++ ls) (by
      rcases h1 with h1 | ⟨h1, hrep⟩
      · left
        intro x hx hxc hxk
        rcases List.mem_append.mp hx with hx | hx
        · exfalso
          rcases hdk x hx with h | h
          · exact hxc h
          · exact tdmMetadata_facts.2.2 _ h hxk
        · exact h1 x hx hxc hxk
      · exact .inr ⟨ld, ls, rfl, .inr hrep, fun l hl => tdmMetadata_facts.2.2 _ ((hdk l hl).resolve_left (h1 l hl))⟩)
      (k + 1) (py "metadata") false).mono (show 1 ≤ 2 by omega)
    subst hvm hvd
    have hparts := PartsRead.cons (.single hrm) (PartsRead.one (.single hrd))
    obtain ⟨hsubs, hbv⟩ := parts_subs tdmSegment_blocks.2 hparts
    exact read_container tdmSegment_regular tdmSegment_blocks.1 hsubs hbv
      (parts_nonempty tdmSegment_blocks.2 hparts (by simp)) name true

theorem tdmSegments_truthy {segs : List Val} {ls : List Line} (h : TdmSegmentsOf Spelled Observed segs ls) : ∀ x ∈ segs, x.truthy = true := by
  induction h with
  | nil => simp
  | cons _ _ _ _ _ ih =>
    intro x hx
    rcases List.mem_cons.mp hx with rfl | hx
    · rfl
    · exact ih x hx

theorem read_tdmBody {segs : List Val} {ls : List Line} (h : TdmSegmentsOf Spelled Observed segs ls) (hne : segs ≠ []) (k : Nat) (name : Str)
    (il : Bool) : ItemRead 4 (extract (k + 4) name .TdmBody il) (.obj .TdmBody [(py "segment", .list segs)]) ls [] := by
  have hparts := PartsRead.one (PartRead.many (a := py "segment") (tdmSegments_truthy h) (read_tdmSegments h k _) (by
    rintro (h | h)
    · exact absurd h hne
    · exact absurd rfl h))
  obtain ⟨hsubs, hbv⟩ := parts_subs tdmBody_blocks.2 hparts
  exact read_container tdmBody_regular tdmBody_blocks.1 hsubs hbv
    (parts_nonempty tdmBody_blocks.2 hparts (by simpa using hne)) name il

theorem read_tdm {src : Str} {raw lh ls : List Line} {h : Val} {segs : List Val} {id ver₀ ver : Str}
    (hk : (Cls.Tdm, id, ver₀) ∈ messageKinds) (hver : xmlCheck ver = .ok ())
    (hsrc : (splitChar '\n' src).filterMap parseLine = [id, ver] :: raw) (hdel : deleteMarkers .Tdm raw = lh ++ ls)
    (hh : KeyBlockOf Spelled .TdmHeader h lh) (hs : TdmSegmentsOf Spelled Observed segs ls) (hne : segs ≠ []) :
    kvnFromString src = .ok (tdm h segs) := by
  obtain ⟨-, -, ⟨vh, rfl⟩⟩ := keyBlock_keys hh
  have hrh := (read_keyBlock tdmHeader_regular tdmHeader_facts.1 tdmHeader_facts.2.1 hh (post := ls ++ []) (by
    left
    intro m hm hc hk
    rw [List.append_nil] at hm
    exfalso
    rcases tdmSegments_keys hs m hm with h | h | h
    · exact hc h
    · exact tdmHeader_facts.2.2.2 _ h hk
    · exact hc (tdmHeader_facts.2.2.1 _ h hk))
    8 (py "header") false).mono (show 1 ≤ 4 by omega)
  have hrb := read_tdmBody hs hne 5 (py "body") false
  obtain ⟨hsubs, hbv⟩ := parts_subs tdm_blocks (PartsRead.cons (.single hrh) (PartsRead.one (.single hrb)))
  exact read_root (rootCls hk) hver hsrc hdel (n := 4) (by decide) hsubs hbv ⟨by simp, by simp⟩ (by decide)

/-! ### Writing -/

theorem tdm_lines : LineProp (deletedKeywords .Tdm) (fun w => '\n' ∉ w) := ⟨by simp, by decide⟩

theorem tdm_notMarker {k : Str} (h : k = py "COMMENT" ∨ k ∈ Cls.keywords .TrackingDataObservationType ∨
    k ∈ Cls.keywords .TdmMetadata ∨ k ∈ Cls.keywords .TdmHeader) : k ∉ deletedKeywords .Tdm := by
  have h1 : ∀ k ∈ deletedKeywords .Tdm, k ≠ py "COMMENT" ∧ k ∉ Cls.keywords .TrackingDataObservationType ∧
    k ∉ Cls.keywords .TdmMetadata ∧ k ∉ Cls.keywords .TdmHeader := by decide +kernel
  intro hk
  obtain ⟨a, b, c, d⟩ := h1 k hk
  rcases h with h | h | h | h
  · exact a h
  · exact b h
  · exact c h
  · exact d h

/-- The line of an observation is read as written. -/
theorem parseLine_multi {key e t : Str} (hk : Keyword (upper key)) (he : Token e) (heb : '[' ∉ e) (ht : Token t) (htb : '[' ∉ t) :
    parseLine (fillMultiKvn key e t) = some [upper key, e ++ List.replicate (30 - e.length) ' ' ++ t] := by
  have eq : fillMultiKvn key e t = [] ++ upper key ++ (List.replicate (20 - (upper key).length) ' ' ++ [' ']) ++ ['='] ++
      [' '] ++ (e ++ List.replicate (30 - e.length) ' ' ++ t) ++ [' '] := by
    simp [fillMultiKvn, ljust, lit]
  rw [eq]
  refine C05_key_value _ _ _ _ _ _ blank_nil ?_ blank_space blank_space hk ?_ ?_
  · have := blank_replicate (20 - (upper key).length + 1)
    rwa [List.replicate_succ'] at this
  · constructor
    · intro c hc
      obtain ⟨a, b, rfl⟩ := List.exists_cons_of_ne_nil he.1
      simp at hc
      subst hc
      exact (he.2 _ (by simp)).1
    · intro c hc
      rw [List.getLast?_append] at hc
      cases hq : t.getLast? with
      | none => exact absurd (List.getLast?_eq_none_iff.mp hq) ht.1
      | some x =>
        rw [hq] at hc
        simp at hc
        subst hc
        exact (ht.2 _ (List.mem_of_getLast? hq)).1
  · rintro ⟨hb, -⟩
    simp only [List.mem_append, List.mem_replicate] at hb
    rcases hb with (h | h) | h
    · exact heb h
    · exact absurd h.2 (by decide)
    · exact htb h

theorem dict_epoch {fs : List Field} (h : epochFirst fs = true) (e : Str) (F : Field → Val) :
    dictGet (py "epoch") (fs.map fun g => (g.name, if g.name = py "epoch" then Val.str e else F g)) = .ok (.str e) := by
  cases fs with
  | nil => cases h
  | cons g fs =>
    simp only [epochFirst, Bool.and_eq_true, decide_eq_true_eq] at h
    rw [List.map_cons, if_pos h.1.1, h.1.1]
    simp [dictGet, Val.lookupVar]

theorem items_none {fs : List Field} {n : Str} (hn : n ∉ fs.map (·.name)) (e : Str) (d : Dec) :
    (fs.map fun g => (g.name, if g.name = py "epoch" then Val.str e else if g.name = n then Val.dec d else .none)).filter
      (fun p => (match p.2 with | .dec _ => true | _ => false) && p.1 != py "epoch") = [] := by
  rw [List.filter_eq_nil_iff]
  intro p hp
  obtain ⟨g, hg, rfl⟩ := List.mem_map.mp hp
  have hne : g.name ≠ n := by rintro rfl; exact hn (List.mem_map_of_mem hg)
  by_cases h : g.name = py "epoch"
  · simp [h]
  · simp [h, hne]

theorem items_dec {fs : List Field} (hn : (fs.map (·.name)).Nodup) {f : Field} (hf : f ∈ fs) (hne : f.name ≠ py "epoch")
    (e : Str) (d : Dec) :
    (fs.map fun g => (g.name, if g.name = py "epoch" then Val.str e else if g.name = f.name then Val.dec d else .none)).filter
      (fun p => (match p.2 with | .dec _ => true | _ => false) && p.1 != py "epoch") = [(f.name, .dec d)] := by
  induction fs with
  | nil => cases hf
  | cons g fs ih =>
    rw [List.map_cons, List.nodup_cons] at hn
    rw [List.map_cons]
    rcases List.mem_cons.mp hf with rfl | hf
    · rw [if_neg hne, if_pos rfl, List.filter_cons_of_pos (by simpa using hne), items_none hn.1]
    · have hgf : g.name ≠ f.name := fun h => hn.1 (h ▸ List.mem_map_of_mem hf)
      rw [List.filter_cons_of_neg ?_, ih hn.2 hf]
      by_cases h : g.name = py "epoch"
      · simp [h]
      · simp [h, hgf]

theorem collate_observation {f : Field} (hf : f ∈ Cls.keyAttrs .TrackingDataObservationType) (hty : f.ty = .dec) {e : Str} {d : Dec}
    {key : Str} {out : List Str} :
    collateObj key out (observation f.name e (.dec d)) = .ok (out ++ [fillMultiKvn f.name e d.toStr]) := by
  have hso : isSpecialOut .TrackingDataObservationType = true := by decide
  have hfe := dec_notEpoch f hf hty
  have hget : ∀ p : Str × Val, pyGet [p] 0 = .ok p := fun _ => rfl
  have hi := items_dec obs_names hf hfe e d
  have : writeObservation ((Cls.keyAttrs .TrackingDataObservationType).map fun g =>
      (g.name, if g.name = py "epoch" then .str e else if g.name = f.name then .dec d else .none)) =
      .ok [fillMultiKvn f.name e d.toStr] := by
    unfold writeObservation
    erw [hi]
    simp only [dict_epoch obs_epoch e, hget, bind, Except.bind, pure, Except.pure]
    rfl
  simp only [observation, collateObj, hso, if_true, writeSpecial, reduceCtorEq, if_false, this, bind, Except.bind, pure,
    Except.pure]

theorem write_observation {v : Val} {l : List Line} (h : Observation v l) (key : Str) (out : List Str) :
    WritesM (deletedKeywords .Tdm) (fun w => '\n' ∉ w) (collateObj key out v) out l := by
  cases h with
  | @mk e f d he hlen hf hty =>
    have hfield := (keyed obs_bindable.members obs_bindable.value obs_bindable.user).field f hf
    have hkw := hfield.keyword (obs_lists f hf)
    rw [collate_observation hf hty]
    have htb : '[' ∉ d.toStr := fun h => (dec_toStr_num d _ h).plain.2.2.1 rfl
    have heb : '[' ∉ e := fun h => (he.plain _ h).2.1 rfl
    refine .line (parseLine_multi hkw he.token heb (token_dec d) htb) (tdm_notMarker (.inr (.inl (List.mem_map_of_mem hf)))) ?_
    intro hm
    simp only [fillMultiKvn, ljust, List.mem_append, List.mem_replicate] at hm
    rcases hm with ((((hm | hm) | hm) | hm | hm) | hm) | hm
    · have := hfield.chars _ hm
      revert this; decide
    · exact absurd hm.2 (by decide)
    · revert hm; decide
    · have := he.noBlank _ hm
      revert this; decide
    · exact absurd hm.2 (by decide)
    · exact (dec_toStr_num d _ hm).plain.2.2.2.2.2.1 rfl
    · revert hm; decide

theorem write_tdmData {v : Val} {l : List Line} (h : TdmDataOk Observation v l) (out : List Str) :
    WritesM (deletedKeywords .Tdm) (fun w => '\n' ∉ w) (collateSub (py "data") out v) out l := by
  cases h with
  | @mk texts obs lo ht hlen hne hob =>
    refine write_nested tdm_lines (by decide) (by decide) rfl (by decide) fun ws _ => ?_
    simp only [collateVars]
    refine ((write_comments ht _).toM ?_).thenRun fun ws2 _ => ?_
    · intro l hl
      obtain ⟨t, -, rfl⟩ := List.mem_map.mp hl
      exact tdm_notMarker (.inl rfl)
    · have := (write_many tdm_lines stays_true (c := .TrackingDataObservationType) (key := py "observation") (by decide)
        (by decide) (fun x l hx => (observed_key hx.observed).2.2.1) (fun x l out hx _ => write_observation hx _ out) hob
        (out := out ++ ws ++ ws2) trivial).thenRun (f := fun o => .ok o) (l2 := []) fun ws _ => .nil _
      rw [List.append_nil] at this
      exact this

theorem write_tdmSegments {segs : List Val} {ls : List Line} (h : TdmSegments Observation segs ls) (out : List Str) :
    WritesM (deletedKeywords .Tdm) (fun w => '\n' ∉ w) (collateSub (py "segment") out (.list segs)) out ls := by
  have heach : Each (fun x l => ∃ m lm d ld, x = tdmSegment m d ∧ l = lm ++ ld ∧
      KeyBlock .TdmMetadata m lm ∧ TdmDataOk Observation d ld) segs ls := by
    induction h with
    | nil => exact .nil
    | @cons m lm d ld segs ls hm hd _ _ _ ih => exact .cons ⟨m, lm, d, ld, rfl, rfl, hm, hd⟩ ih
  refine write_many tdm_lines stays_true (c := .TdmSegment) (by decide) (by decide) ?_ ?_ heach trivial
  · rintro x l ⟨m, lm, d, ld, rfl, -⟩
    exact ⟨_, rfl⟩
  · rintro x l out ⟨m, lm, d, ld, rfl, rfl, hm, hd⟩ -
    have hso : isSpecialOut .TdmSegment = false := by decide
    simp only [tdmSegment, collateObj, hso, Bool.false_eq_true, if_false]
    refine WritesM.blank (by simp) ?_ _
    simp only [collateVars]
    refine (write_keyBlock tdmMetadata_regular.toBindable (by decide) (fun _ hk => tdm_notMarker (.inr (.inr (.inl hk))))
      tdm_lines (by decide) tdmMetadata_facts.1 (by decide) hm out).thenRun fun ws _ => ?_
    have := (write_tdmData hd (out ++ ws)).thenRun (f := fun o => .ok o) (l2 := []) fun ws _ => .nil _
    rw [List.append_nil] at this
    exact this

theorem write_tdm {h : Val} {lh ls : List Line} {segs : List Val} (hh : KeyBlock .TdmHeader h lh)
    (hs : TdmSegments Observation segs ls) : ∃ text raw, kvnToString (tdm h segs) = .ok text ∧
      (splitChar '\n' text).filterMap parseLine = [py "CCSDS_TDM_VERS", py "2.0"] :: raw ∧ deleteMarkers .Tdm raw = lh ++ ls := by
  have hk : (Cls.Tdm, py "CCSDS_TDM_VERS", py "2.0") ∈ messageKinds := by decide
  have hroot := rootCls hk
  refine write_marked hroot ?_
  simp only [collateVars]
  refine (write_keyBlock tdmHeader_regular.toBindable (by decide) (fun k hk => tdm_notMarker (.inr (.inr (.inr hk))))
    tdm_lines (by decide) tdmHeader_facts.1 (by decide) hh _).thenRun fun ws _ => ?_
  have hbody : WritesM (deletedKeywords .Tdm) (fun w => '\n' ∉ w)
      (collateSub (py "body") ([fillKvn (py "CCSDS_TDM_VERS") (py "2.0") none] ++ ws)
        (.obj .TdmBody [(py "segment", .list segs)])) ([fillKvn (py "CCSDS_TDM_VERS") (py "2.0") none] ++ ws) ls := by
    refine write_nested tdm_lines (by decide) (by decide) rfl (by decide) fun ws' _ => ?_
    simp only [collateVars]
    have := (write_tdmSegments hs ([fillKvn (py "CCSDS_TDM_VERS") (py "2.0") none] ++ ws ++ ws')).thenRun
      (f := fun o => .ok o) (l2 := []) fun ws _ => .nil _
    rw [List.append_nil] at this
    exact this
  have := hbody.thenRun (f := fun o => .ok o) (l2 := []) fun ws _ => .nil _
  rw [List.append_nil] at this
  exact this

theorem tdm_round_trip {o : Val} (h : WellFormedTdm o) : ∃ text, kvnToString o = .ok text ∧ kvnFromString text = .ok o := by
  cases h with
  | @mk h lh segs ls hh hne hs =>
    obtain ⟨text, raw, h1, h2, h3⟩ := write_tdm hh hs
    have hk : (Cls.Tdm, py "CCSDS_TDM_VERS", py "2.0") ∈ messageKinds := by decide
    exact ⟨text, h1, read_tdm hk (rootCls hk).xver h2 h3 hh.spelled (hs.mono fun _ _ h => h.observed) hne⟩

end Ndm
