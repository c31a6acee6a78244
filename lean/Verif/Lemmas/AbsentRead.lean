import Verif.Lemmas.Absent
import Verif.Props.Conform

/-! What holds of every part of an object that is read; absent blocks and the covariance frame. -/

namespace Ndm

/-- Objects among the parts of what a document is bound to. -/
theorem bindDoc_within {c d : Cls} {doc : XDoc} {obj : Val} {ws : List (Str × Val)} (h : bindDoc c doc = .ok obj)
    (hw : Within (.obj d ws) obj) : .obj d ws = obj ∧ d = c ∨
      ∃ f ∈ c.attrs, f.kind = .elem ∧ f.ty = .cls d ∧ ∃ x ∈ doc.children, x.tag = f.xmlName ∧ .obj d ws = bindLeafClass d x := by
  unfold bindDoc at h
  obtain ⟨_, -, h⟩ := bind_ok_iff.mp h
  cases h
  have conv : ∀ t s, ¬ Within (.obj d ws) (convText t s) := by
    intro t s hw
    unfold convText at hw
    split at hw
    · cases hw
    · split at hw <;> cases hw
    · split at hw <;> cases hw
    · split at hw
      · unfold convEnum at hw; split at hw <;> cases hw
      · cases hw
  have attr : ∀ f A, ¬ Within (.obj d ws) (bindAttr f A) := by
    intro f A hw
    unfold bindAttr at hw
    split at hw
    · exact conv _ _ hw
    · cases hw
  have text : ∀ f s, ¬ Within (.obj d ws) (bindText f s) := by
    intro f s hw
    unfold bindText at hw
    split at hw
    · cases hw
    · exact conv _ _ hw
  have leafc : ∀ c x, Within (.obj d ws) (bindLeafClass c x) → c = d ∧ .obj d ws = bindLeafClass d x := by
    intro c x hw
    unfold bindLeafClass at hw
    generalize hvs : (List.map _ (c.fields.filter (·.init))) = vs at hw
    cases hw with
    | self => refine ⟨rfl, ?_⟩; unfold bindLeafClass; rw [hvs]
    | @field _ _ n y hm hw =>
      exfalso
      rw [← hvs] at hm
      obtain ⟨f, -, hf⟩ := List.mem_map.mp hm
      cases hf
      split at hw
      · exact attr _ _ hw
      · exact text _ _ hw
      · split at hw
        · generalize hnil : ([] : List Val) = xs at hw
          cases hw with
          | item hm _ => subst hnil; cases hm
        · cases hw
  have leaf : ∀ f x, Within (.obj d ws) (bindLeaf f x) → f.ty = .cls d ∧ .obj d ws = bindLeafClass d x := by
    intro f x hw
    unfold bindLeaf at hw
    split at hw
    · rename_i c' hc'
      split at hw
      · split at hw
        · cases hw
        · exact absurd hw (conv _ _)
      · obtain ⟨rfl, h⟩ := leafc _ _ hw
        exact ⟨hc', h⟩
    · split at hw
      · cases hw
      · exact absurd hw (conv _ _)
  generalize hvs : (List.map _ (c.fields.filter (·.init))) = vs at hw ⊢
  cases hw with
  | self => exact Or.inl ⟨rfl, rfl⟩
  | @field _ _ n y hm hw =>
    right
    rw [← hvs] at hm
    obtain ⟨f, hf, he⟩ := List.mem_map.mp hm
    cases he
    refine ⟨f, hf, ?_⟩
    unfold bindField at hw
    split at hw
    · exact absurd hw (attr _ _)
    · exact absurd hw (text _ _)
    · rename_i hk
      simp only at hw
      split at hw
      · generalize hxs : List.map (bindLeaf f) _ = xs at hw
        cases hw with
        | item hm hw =>
          rw [← hxs] at hm
          obtain ⟨x, hx, rfl⟩ := List.mem_map.mp hm
          obtain ⟨hx, ht⟩ := List.mem_filter.mp hx
          obtain ⟨h1, h2⟩ := leaf _ _ hw
          exact ⟨hk, h1, x, hx, by simpa using ht, h2⟩
      · split at hw
        · cases hw
        · rename_i x xs hxs
          have hx : x ∈ doc.children.filter (·.tag == f.xmlName) := by rw [hxs]; simp
          obtain ⟨hx, ht⟩ := List.mem_filter.mp hx
          obtain ⟨h1, h2⟩ := leaf _ _ hw
          exact ⟨hk, h1, x, hx, by simpa using ht, h2⟩

/-- Parts of a well-typed object are well typed. -/
theorem within_typed {c : Cls} {vs : List (Str × Val)} {v : Val} (h : Within (.obj c vs) v) :
    (∀ t, HasType t v → HasFields c.attrs vs) ∧ (∀ t xs, v = .list xs → AllHaveType t xs → HasFields c.attrs vs) := by
  induction h with
  | self =>
    refine ⟨?_, fun t xs h _ => by cases h⟩
    intro t h
    cases h with
    | obj _ hf => exact hf
  | @field c' vs' n x hmem hw ih =>
    refine ⟨?_, fun t xs h _ => by cases h⟩
    intro t h
    cases h with
    | obj _ hf =>
      obtain ⟨f, -, hx⟩ := hasFields_mem hf hmem
      cases hx with
      | list _ ha => exact ih.2 _ _ rfl ha
      | none _ => cases hw
      | one _ h1 => exact ih.1 _ h1
  | @item xs x hmem hw ih =>
    refine ⟨fun t h => (by cases h), ?_⟩
    intro t xs' h ha
    cases h
    exact ih.1 t (allHaveType_mem ha hmem)

theorem hasFields_find {f : Field} : ∀ {fs : List Field} {vs : List (Str × Val)}, HasFields fs vs →
    f ∈ fs → ∃ v, Val.lookupVar f.name vs = some v
  | _, _, .nil, h => by cases h
  | _, _, .cons (f := g) (v := w) (vs := vs) hw hr, h => by
    unfold Val.lookupVar
    rw [List.find?_cons]
    by_cases he : g.name = f.name
    · exact ⟨w, by simp [he]⟩
    · have : (g.name == f.name) = false := by simpa using he
      simp only [this]
      rcases List.mem_cons.mp h with rfl | h
      · exact absurd rfl he
      · exact hasFields_find hr h

section
variable {Q : Cls → List Str → List Elem → Prop} {G : Cls → Nat × Nat → Prop}

theorem read_within {src : Str} {v : Val} {L : List Line} (hL : (splitChar '\n' src).filterMap parseLine = L)
    (h : kvnFromString src = .ok v) (P : Val → Prop) (hstatic : ∀ c ∈ kvnTypes, Tree Q (objectMap c))
    (hnone : P .none) (hlist : ∀ xs, P (.list xs))
    (hmono : ∀ c kw subs subs', Q c kw subs → (subs = [] → subs' = []) → Q c kw subs')
    (hR : ∀ (keys : List Str) (lines : List Line), (∀ k ∈ keys, k = py "id" ∨ k = py "version" ∨ ∃ l ∈ L, k = l.headD []) →
      ∀ (e : Elem) (init : Nat) (mm : Nat × Nat) (kw : List Str), Q e.cls e.kw e.subs →
        rootRange e keys lines init = .ok (mm, kw) → Q e.cls kw e.subs ∧ G e.cls mm)
    (hatt : ∀ v w, HasType (.cls .AttitudeStateType) v → Within w v → P w)
    (hset : ∀ c vs name d x, HasSlot c name d → d.members = none → P (.obj c vs) → P (.obj c (Val.setVar name x vs)))
    (hbind : ∀ (keys : List Str) (lines : List Line) (e : Elem) (lo hi : Nat) (full : List Line) (doc : XDoc)
      (subs : List Elem) (obj : Val), RTree Q G e → e.minMax = some (lo, hi) →
      ¬ ((full.drop lo).take (hi - lo) = [] ∧ e.subs = []) →
      sectionDoc keys lines e ((full.drop lo).take (hi - lo)) hi = .ok (some (doc, subs)) →
      bindDoc e.cls doc = .ok obj → ∀ w, Within w obj → P w) : ∀ w, Within w v → P w := by
  unfold kvnFromString at h
  obtain ⟨lines0, hl, h⟩ := bind_ok_iff.mp h
  obtain ⟨c, hc, h⟩ := bind_ok_iff.mp h
  obtain ⟨⟨mx, mm, tree⟩, hid, h⟩ := bind_ok_iff.mp h
  have hmem : c ∈ kvnTypes := by
    have := hc
    unfold identifyDataType at this
    obtain ⟨l, -, this⟩ := bind_ok_iff.mp this
    obtain ⟨i, -, this⟩ := bind_ok_iff.mp this
    exact (findKvnType_mem this).1
  have hm : c.members = none := by
    simpa using List.all_eq_true.mp message_dataclasses c hmem
  have ht0 : Typed (objectMap c) := by
    have := extract_typed treeDepth ((c.idVersion.map (·.1)).getD []) c false hm
    cases this with
    | mk h1 h2 h3 => exact .mk h1 h2 h3
  have ht : Typed { tree with minMax := some mm } :=
    (ht0.inst (identElem_inst _ _ _ _ _ hid)).inst ((instRefl tree).setRange _ _)
  have hkeys : ∀ k ∈ keysOf (deleteMarkers c lines0), k = py "id" ∨ k = py "version" ∨ ∃ l ∈ L, k = l.headD [] := by
    intro k hk
    obtain ⟨l, hlm, rfl⟩ := List.mem_map.mp hk
    have hlm : l ∈ lines0 := List.mem_of_mem_filter hlm
    unfold preprocess at hl
    rw [hL] at hl
    match L, hl with
    | l0 :: rest0, hl =>
      obtain ⟨key, hkey, hl⟩ := bind_ok_iff.mp hl
      cases hl
      rcases List.mem_cons.mp hlm with rfl | hlm
      · exact Or.inl rfl
      · rcases List.mem_cons.mp hlm with rfl | hlm
        · exact Or.inr (Or.inl rfl)
        · exact Or.inr (Or.inr ⟨l, by simp [hlm], rfl⟩)
  obtain ⟨-, hq, hg, hsub⟩ := identElem_tree (Q := Q) (G := G) hmono (hR _ _ hkeys) _ _ _ _ _ (hstatic c hmem) hid
  have hT : RTree Q G { tree with minMax := some mm } := by
    refine .mk hq ?_ hsub
    intro mm' he; cases he; exact hg
  refine build_within P (RTree Q G) hnone hlist ?_ ?_ (fun e v w _ _ => hatt v w) hset ?_ _ _ v ht hT h
  · intro e hT s hs
    cases hT with
    | mk _ _ h => exact h s hs
  · intro e start subs hT hp
    exact prepare_tree hmono hT hp
  · intro e lo hi doc subs obj _ hT
    exact hbind _ _ e lo hi _ doc subs obj hT

end

/-! ## Blocks without keywords -/

def blockKw (d : Cls) : List Str := (ccsdsKwList d).filter isUpper

/-- What the tree says about the block `d`. -/
def BlockQ (d c : Cls) (kw : List Str) (subs : List Elem) : Prop :=
  (c = d → subs = [] ∧ kw = blockKw d) ∧ ∀ f ∈ c.attrs, f.ty = .cls d → f.xmlName ∉ kw

mutual
def blockTreeB : Elem → Bool
  | ⟨_, c, subs, kw, _, _, _, _⟩ =>
    (!keywordBlocks.contains c || subs.isEmpty && decide (kw = blockKw c)) &&
    c.attrs.all (fun f => match f.ty with
      | .cls d => !keywordBlocks.contains d || !kw.contains f.xmlName
      | _ => true) && blockTreesB subs
def blockTreesB : List Elem → Bool
  | [] => true
  | s :: ss => blockTreeB s && blockTreesB ss
end

mutual
theorem blockTree_of_b {d : Cls} (hd : d ∈ keywordBlocks) : ∀ e, blockTreeB e = true → Tree (BlockQ d) e
  | ⟨_, c, subs, kw, _, _, _, _⟩, h => by
    simp only [blockTreeB, Bool.and_eq_true, Bool.or_eq_true, Bool.not_eq_true', decide_eq_true_eq,
      List.all_eq_true] at h
    obtain ⟨⟨h1, h2⟩, h3⟩ := h
    refine .mk ⟨?_, ?_⟩ (blockTrees_of_b hd subs h3)
    · intro hc
      simp only at hc
      subst hc
      rcases h1 with h1 | h1
      · rw [List.contains_iff_mem.mpr hd] at h1; cases h1
      · exact ⟨by simpa using h1.1, h1.2⟩
    · intro f hf hty hk
      have := h2 f hf
      rw [hty] at this
      simp only [Bool.or_eq_true, Bool.not_eq_true'] at this
      rcases this with h | h
      · rw [List.contains_iff_mem.mpr hd] at h; cases h
      · rw [List.contains_iff_mem.mpr hk] at h; cases h
theorem blockTrees_of_b {d : Cls} (hd : d ∈ keywordBlocks) : ∀ ss, blockTreesB ss = true → ∀ s ∈ ss, Tree (BlockQ d) s
  | [], _ => by intro s hs; cases hs
  | s :: ss, h => by
    simp only [blockTreesB, Bool.and_eq_true] at h
    intro x hx
    have hs := blockTree_of_b hd s h.1
    rcases List.mem_cons.mp hx with hx | hx
    · exact hx ▸ hs
    · exact blockTrees_of_b hd ss h.2 x hx
end

theorem blocks_static : (kvnTypes.all fun c => blockTreeB (objectMap c)) = true := by decide +kernel

/-- The classes of the objects inside attitude states. -/
def attitudeClasses : List Cls := [.AttitudeStateType, .QuaternionEphemerisType, .QuaternionDerivativeType,
  .QuaternionEulerRateType, .EulerAngleType, .EulerAngleRateType, .SpinType, .SpinNutationType, .QuaternionType,
  .QuaternionRateType, .QuaternionDotType, .RotationAngleType, .RotationRateType, .RotationAngleComponentType,
  .RotationRateComponentType, .AngleType, .AngleRateType, .DurationType]

theorem attitude_closed : (attitudeClasses.all fun c => c.attrs.all fun f => match f.ty with
    | .cls e => e.members.isSome || attitudeClasses.contains e
    | _ => true) = true := by decide +kernel

theorem attitude_within {d : Cls} {ws : List (Str × Val)} {v : Val} (h : HasType (.cls .AttitudeStateType) v)
    (hw : Within (.obj d ws) v) : d ∈ attitudeClasses := by
  refine (within_class (S := attitudeClasses) ?_ hw).1 (.cls .AttitudeStateType) ?_ h
  · intro c hc f hf e he hm
    have := List.all_eq_true.mp (List.all_eq_true.mp attitude_closed c hc) f hf
    rw [he] at this
    simp only [hm, Option.isSome_none, Bool.false_or] at this
    exact List.contains_iff_mem.mp this
  · intro c hc _
    cases hc; decide

theorem blocks_schema : (keywordBlocks.all fun d =>
    d.members.isNone && !attitudeClasses.contains d && (!isSpecialIdent d || decide (d = .OemCovarianceMatrixType)) &&
    (!(blockKw d).contains (py "COMMENT") || decide ((blockKw d).length ≠ 1)) &&
    (blockKw d).all (fun k => k != py "id" && k != py "version" && (k == py "COMMENT" || d.keyAttrs.any fun f => k == upper f.name)) &&
    Cls.all.all fun c => !c.attrs.any (fun f => decide (f.ty = .cls d)) || !isSpecialBuild c && (prefixOf c).isNone) = true := by
  decide +kernel

theorem plainDoc_tags {e : Elem} {loc : List Line} {doc : XDoc} (hp : prefixOf e.cls = none)
    (h : plainDoc e loc = .ok (some doc)) : ∀ x ∈ doc.children, x.tag ∈ e.kw := by
  unfold plainDoc at h
  simp only [hp, Option.isSome_none, Bool.false_eq_true, if_false] at h
  split at h
  · cases h
  · split at h
    · obtain ⟨d, hx, he⟩ := map_ok_iff.mp h
      cases he
      unfold xmlifyRoot at hx
      obtain ⟨A, -, hx⟩ := bind_ok_iff.mp hx
      cases hx
      intro x hx; cases hx
    · split at h
      · obtain ⟨d, hx, he⟩ := map_ok_iff.mp h
        cases he
        unfold xmlifySingle at hx
        obtain ⟨_, -, hx⟩ := bind_ok_iff.mp hx
        obtain ⟨_, -, hx⟩ := bind_ok_iff.mp hx
        obtain ⟨_, -, hx⟩ := bind_ok_iff.mp hx
        obtain ⟨_, -, hx⟩ := bind_ok_iff.mp hx
        obtain ⟨_, -, hx⟩ := bind_ok_iff.mp hx
        split at hx
        · obtain ⟨_, -, hx⟩ := bind_ok_iff.mp hx
          cases hx
          intro x hx; cases hx
        · cases hx
          intro x hx; cases hx
      · obtain ⟨d, hx, he⟩ := map_ok_iff.mp h
        cases he
        unfold xmlifyList at hx
        obtain ⟨xs, hxs, hx⟩ := bind_ok_iff.mp hx
        cases hx
        intro x hx
        obtain ⟨l, hl, hf⟩ := mapM_mem hxs x hx
        obtain ⟨r, he, -⟩ := xmlifyItem_items hf
        have := (List.mem_filter.mp hl).2
        rw [he] at this
        exact List.contains_iff_mem.mp this

theorem xmlifyList_tags {tag : Str} {items : List Line} {doc : XDoc} (h : xmlifyList tag items none = .ok doc) :
    ∀ x ∈ doc.children, ∃ l ∈ items, x.tag = l.headD [] := by
  unfold xmlifyList at h
  obtain ⟨xs, hxs, h⟩ := bind_ok_iff.mp h
  cases h
  intro x hx
  obtain ⟨l, hl, hf⟩ := mapM_mem hxs x hx
  obtain ⟨r, he, -⟩ := xmlifyItem_items hf
  exact ⟨l, hl, by rw [he]; rfl⟩

/-- No object of the class `d` is read from lines that do not mention it. -/
theorem read_absent {src : Str} {v : Val} {L : List Line} (hL : (splitChar '\n' src).filterMap parseLine = L)
    (h : kvnFromString src = .ok v) {d : Cls} (hd : d ∈ keywordBlocks) (hno : ∀ l ∈ L, ¬ Mentions d (l.headD [])) :
    ∀ ws, ¬ Within (.obj d ws) v := by
  have hsch := List.all_eq_true.mp blocks_schema d hd
  simp only [Bool.and_eq_true, Bool.or_eq_true, Bool.not_eq_true', decide_eq_true_eq, Option.isNone_iff_eq_none,
    List.all_eq_true, bne_iff_ne, ne_eq, beq_iff_eq, List.any_eq_true, List.any_eq_false] at hsch
  obtain ⟨⟨⟨⟨⟨hm, hatt⟩, hsp⟩, hlen⟩, hkw⟩, hcls⟩ := hsch
  have hholder : ∀ c, ∀ f ∈ c.attrs, f.ty = .cls d → isSpecialBuild c = false ∧ prefixOf c = none := by
    intro c f hf hty
    rcases hcls c (by cases c <;> decide) with h | h
    · exact absurd hty (h f hf)
    · exact h
  intro ws hw
  refine read_within (Q := BlockQ d) (G := fun c mm => c = d → mm.1 = mm.2) hL h
    (fun w => ∀ ws, w ≠ .obj d ws) ?_ ?_ ?_ ?_ ?_ ?_ ?_ ?_ _ hw ws rfl
  · intro c hc
    exact blockTree_of_b hd _ (List.all_eq_true.mp blocks_static c hc)
  · intro ws h; cases h
  · intro xs ws h; cases h
  · rintro c kw subs subs' ⟨h1, h2⟩ hs
    exact ⟨fun hc => ⟨hs (h1 hc).1, (h1 hc).2⟩, h2⟩
  · rintro keys lines hkeys e init mm kw ⟨h1, h2⟩ hr
    by_cases hc : e.cls = d
    · obtain ⟨hs, hk⟩ := h1 hc
      have hr' := rootRange_nowhere (by rw [hc]; exact hsp) ?_ ?_ ?_ hr
      · rw [hr'.2]
        exact ⟨⟨fun _ => ⟨hs, hk⟩, h2⟩, fun _ => hr'.1⟩
      · intro k hkm hne hin
        rw [hk] at hin
        obtain ⟨⟨hid, hver⟩, hin⟩ := hkw k hin
        rcases hkeys k hkm with h | h | ⟨l, hl, h⟩
        · exact hid h
        · exact hver h
        · rcases hin with hin | ⟨f, hf, hin⟩
          · exact hne hin
          · refine hno l hl ⟨h ▸ hne, Or.inl ⟨f, hf, h ▸ hin⟩⟩
      · intro p hp k hkm
        rw [hc] at hp
        unfold prefixOf at hp
        split at hp
        · rename_i hdu
          cases hp
          rcases hkeys k hkm with rfl | rfl | ⟨l, hl, rfl⟩
          · decide
          · decide
          · by_contra hs
            have hs : startsWith (l.headD []) (py "USER_DEFINED") = true := by simpa using hs
            have hpre : py "USER_DEFINED" <+: l.headD [] := by
              unfold startsWith at hs
              exact List.isPrefixOf_iff_prefix.mp hs
            refine hno l hl ⟨?_, Or.inr ⟨hdu, hpre⟩⟩
            intro he
            rw [he] at hs
            revert hs; decide
        · cases hp
      · rw [hk]
        intro hc'
        rcases hlen with h | h
        · rw [h] at hc'; cases hc'
        · exact h
    · refine ⟨⟨fun h => absurd h hc, ?_⟩, fun h => absurd h hc⟩
      intro f hf hty
      have hp := (hholder _ f hf hty).2
      rcases rootRange_keywords hr with rfl | rfl
      · rw [hp]; exact h2 f hf hty
      · exact h2 f hf hty
  · intro v w hv hw ws he
    subst he
    have := attitude_within hv hw
    rw [List.contains_iff_mem.mpr this] at hatt
    cases hatt
  · intro c vs name d' x _ _ hP ws he
    cases he
    exact hP _ rfl
  · intro keys lines e lo hi full doc subs obj hT hmm hne hdoc hb w hw ws he
    subst he
    cases hT with
    | mk hq hg hs =>
      rcases bindDoc_within hb hw with ⟨-, hc⟩ | ⟨f, hf, -, hty, x, hx, htag, -⟩
      · have h1 := hg _ hmm hc.symm
        simp only at h1
        refine hne ⟨?_, (hq.1 hc.symm).1⟩
        rw [h1]; simp
      · obtain ⟨hsb, hp⟩ := hholder _ f hf hty
        have hnsp : ∀ c', isSpecialBuild c' = true → e.cls ≠ c' := by
          rintro c' hc' rfl
          rw [hsb] at hc'
          cases hc'
        unfold sectionDoc at hdoc
        simp only [hnsp .AemSegment rfl, hnsp .StateVectorAccType rfl, hnsp .OemCovarianceMatrixType rfl,
          hnsp .TrackingDataObservationType rfl, if_false] at hdoc
        obtain ⟨d?, hd, hdoc⟩ := bind_ok_iff.mp hdoc
        cases d? with
        | none => cases hdoc
        | some d0 =>
          cases hdoc
          have := plainDoc_tags hp hd x hx
          rw [htag] at this
          exact hq.2 f hf hty this

/-! ## The covariance frame -/

def FrameQ (c : Cls) (kw : List Str) (_ : List Elem) : Prop := c = .OemCovarianceMatrixType → py "COV_REF_FRAME" ∉ kw.drop 3

mutual
def frameTreeB : Elem → Bool
  | ⟨_, c, subs, kw, _, _, _, _⟩ =>
    (decide (c ≠ .OemCovarianceMatrixType) || !(kw.drop 3).contains (py "COV_REF_FRAME")) && frameTreesB subs
def frameTreesB : List Elem → Bool
  | [] => true
  | s :: ss => frameTreeB s && frameTreesB ss
end

mutual
theorem frameTree_of_b : ∀ e, frameTreeB e = true → Tree FrameQ e
  | ⟨_, c, subs, kw, _, _, _, _⟩, h => by
    simp only [frameTreeB, Bool.and_eq_true, Bool.or_eq_true, Bool.not_eq_true', decide_eq_true_eq] at h
    refine .mk ?_ (frameTrees_of_b subs h.2)
    intro hc hk
    rcases h.1 with h | h
    · exact h hc
    · rw [List.contains_iff_mem.mpr hk] at h; cases h
theorem frameTrees_of_b : ∀ ss, frameTreesB ss = true → ∀ s ∈ ss, Tree FrameQ s
  | [], _ => by intro s hs; cases hs
  | s :: ss, h => by
    simp only [frameTreesB, Bool.and_eq_true] at h
    intro x hx
    have hs := frameTree_of_b s h.1
    rcases List.mem_cons.mp hx with hx | hx
    · exact hx ▸ hs
    · exact frameTrees_of_b ss h.2 x hx
end

theorem frame_static : (kvnTypes.all fun c => frameTreeB (objectMap c)) = true := by decide +kernel

theorem lookupVar_setVar_ne {k n : Str} {x : Val} (hne : n ≠ k) : ∀ vs : List (Str × Val),
    Val.lookupVar k (Val.setVar n x vs) = Val.lookupVar k vs
  | [] => by simp [Val.setVar, Val.lookupVar, hne]
  | (m, y) :: vs => by
    unfold Val.setVar
    split
    · rename_i h
      subst h
      simp [Val.lookupVar, hne]
    · have ih := lookupVar_setVar_ne (x := x) hne vs
      unfold Val.lookupVar at ih ⊢
      rw [List.find?_cons, List.find?_cons]
      split
      · rfl
      · exact ih

theorem lookupVar_fields {f : Field} {g : Field → Val} : ∀ {fs : List Field}, f ∈ fs → (fs.map (·.name)).Nodup →
    Val.lookupVar f.name (fs.map fun f => (f.name, g f)) = some (g f)
  | [], h, _ => by cases h
  | f' :: fs, h, hn => by
    rw [List.map_cons, List.nodup_cons] at hn
    unfold Val.lookupVar
    rw [List.map_cons, List.find?_cons]
    rcases List.mem_cons.mp h with rfl | h
    · simp
    · have hne : f'.name ≠ f.name := by
        intro he
        exact hn.1 (he ▸ List.mem_map_of_mem h)
      have : (f'.name == f.name) = false := by simpa using hne
      simp only [this]
      exact lookupVar_fields h hn.2

theorem bindField_absent {doc : XDoc} {f : Field} (hk : f.kind = .elem) (hl : f.isList = false)
    (hnil : doc.children.filter (·.tag == f.xmlName) = []) : bindField doc f = .none := by
  unfold bindField
  rw [hk, hl, hnil]
  rfl

/-- No reading ever fills in the reference frame of an OEM covariance matrix. -/
theorem read_frame {src : Str} {v : Val} (h : kvnFromString src = .ok v) (ws : List (Str × Val))
    (hw : Within (.obj .OemCovarianceMatrixType ws) v) : Val.lookupVar (py "cov_ref_frame") ws = some .none := by
  refine read_within (Q := FrameQ) (G := fun _ _ => True) rfl h
    (fun w => ∀ ws, w = .obj .OemCovarianceMatrixType ws → Val.lookupVar (py "cov_ref_frame") ws = some .none)
    ?_ ?_ ?_ ?_ ?_ ?_ ?_ ?_ _ hw ws rfl
  · intro c hc
    exact frameTree_of_b _ (List.all_eq_true.mp frame_static c hc)
  · intro ws h; cases h
  · intro xs ws h; cases h
  · exact fun c kw subs subs' h _ => h
  · rintro keys lines - e init mm kw h hr
    refine ⟨?_, trivial⟩
    intro hc
    rcases rootRange_keywords hr with rfl | rfl
    · rw [hc]; exact h hc
    · exact h hc
  · intro v w hv hw ws he
    subst he
    exact absurd (attitude_within hv hw) (by decide)
  · rintro c vs name d x ⟨f, hf, hn, hty⟩ _ hP ws he
    cases he
    rw [lookupVar_setVar_ne]
    · exact hP _ rfl
    · rintro rfl
      have : ((Cls.attrs .OemCovarianceMatrixType).all fun f => decide (f.name ≠ py "cov_ref_frame") || decide (f.ty = .str)) = true := by
        decide +kernel
      have := List.all_eq_true.mp this f hf
      rw [hn, hty] at this
      simp at this
  · intro keys lines e lo hi full doc subs obj hT hmm hne hdoc hb w hw ws he
    subst he
    cases hT with
    | mk hq hg hs =>
      rcases bindDoc_within hb hw with ⟨he, hc⟩ | ⟨f, hf, -, hty, x, hx, htag, he⟩
      · have hc := hc.symm
        unfold sectionDoc at hdoc
        rw [if_neg (by rw [hc]; decide), if_neg (by rw [hc]; decide), if_pos hc] at hdoc
        obtain ⟨d0, hd, hdoc⟩ := bind_ok_iff.mp hdoc
        cases hdoc
        have htags := xmlifyList_tags hd
        have hnil : doc.children.filter (·.tag == py "COV_REF_FRAME") = [] := by
          rw [List.filter_eq_nil_iff]
          intro x hx ht
          have ht : x.tag = py "COV_REF_FRAME" := by simpa using ht
          obtain ⟨l, hl, hlt⟩ := htags x hx
          rw [ht] at hlt
          unfold covarianceLines at hl
          rcases List.mem_append.mp hl with hl | hl
          · have := (List.mem_filter.mp hl).2
            rw [← hlt] at this
            revert this; decide
          · obtain ⟨k, w, rfl, hk, -⟩ := zipLines_mem hl
            simp only [List.headD_cons] at hlt
            exact hq hc (hlt ▸ hk)
        rw [hc] at hb
        unfold bindDoc at hb
        obtain ⟨_, -, hb⟩ := bind_ok_iff.mp hb
        cases hb
        cases he
        have hf : (⟨py "cov_ref_frame", some (py "COV_REF_FRAME"), .elem, .str, false, true⟩ : Field) ∈
            Cls.attrs .OemCovarianceMatrixType := by decide +kernel
        refine (lookupVar_fields hf (attrs_nodup _)).trans ?_
        exact congrArg some (bindField_absent (doc := doc) (f := ⟨py "cov_ref_frame", some (py "COV_REF_FRAME"), .elem, .str, false, true⟩) rfl rfl hnil)
      · have he : ws = _ := (Val.obj.inj he).2
        have hf : (⟨py "cov_ref_frame", some (py "COV_REF_FRAME"), .elem, .str, false, true⟩ : Field) ∈
            Cls.attrs .OemCovarianceMatrixType := by decide +kernel
        rw [he]
        exact lookupVar_fields hf (attrs_nodup _)

end Ndm
