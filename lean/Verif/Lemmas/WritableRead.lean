import Verif.Lemmas.Errors
import Verif.Lemmas.Writable

/-! What the writer takes for granted holds of everything the reader returns, attitude ephemerides apart. -/

namespace Ndm

mutual
def treeB (q : Cls → List Str → Bool) : Elem → Bool
  | ⟨_, c, subs, kw, _, _, _, _⟩ => q c kw && treesB q subs
def treesB (q : Cls → List Str → Bool) : List Elem → Bool
  | [] => true
  | s :: ss => treeB q s && treesB q ss
end

mutual
theorem tree_of_b {q : Cls → List Str → Bool} : ∀ e, treeB q e = true → Tree (fun c kw _ => q c kw = true) e
  | ⟨_, c, subs, kw, _, _, _, _⟩, h => by
    simp only [treeB, Bool.and_eq_true] at h
    exact .mk h.1 (trees_of_b subs h.2)
theorem trees_of_b {q : Cls → List Str → Bool} : ∀ ss, treesB q ss = true → ∀ s ∈ ss, Tree (fun c kw _ => q c kw = true) s
  | [], _ => by intro s hs; cases hs
  | s :: ss, h => by
    simp only [treesB, Bool.and_eq_true] at h
    intro x hx
    have hs := tree_of_b s h.1
    rcases List.mem_cons.mp hx with hx | hx
    · exact hx ▸ hs
    · exact trees_of_b ss h.2 x hx
end

/-- The parts of a rotation, the attribute that names the axis and the type of that attribute. -/
def axisAttr : Cls → Option (Str × Cls)
  | .RotationAngleComponentType => some (py "angle", .AngleKeywordType)
  | .RotationRateComponentType => some (py "rate", .AngleRateKeywordType)
  | _ => none

/-- Classes without an element of their own among the keyword lines. -/
def neverLeaf (c : Cls) : Bool := c = .StateVectorAccType || (axisAttr c).isSome

/-- Keywords of the elements of a message. -/
def writeQ (c : Cls) (kw : List Str) : Bool :=
  (c != .StateVectorAccType || kw.head? == some (py "EPOCH")) &&
  (c != .UserDefinedType || kw.head? == some (py "COMMENT")) &&
  (match axisAttr c with
    | some (_, d) => kw.all fun k => match d.members with
      | some ms => ms.any (·.2 == k)
      | none => false
    | none => true) &&
  c.attrs.all fun f => match f.ty with
    | .cls d => !neverLeaf d || !kw.contains f.xmlName
    | _ => true

/-- Classes of the elements of a message. -/
def writeR (c : Cls) (single : Option Str) : Bool :=
  (c != .AemData) && (c != .AttitudeStateType) && (c != .UserDefinedParameterType) && (c != .UserDefinedType || single == none) &&
  (c != .RotationAngleComponentTypeold) && (c != .RotationRateComponentTypeOld) &&
  (match axisAttr c with
    | some (a, _) => single == some a
    | none => true)

theorem write_static : (kvnTypes.all fun k => k == .Aem || treeB writeQ (objectMap k) && onlyB writeR (objectMap k)) = true := by
  decide +kernel

/-- Facts about the classes of the schema. -/
theorem write_schema : (Cls.all.all fun c => c.attrs.all fun f => match f.ty with
    | .cls d => (d != .UserDefinedParameterType || c == .UserDefinedType) && (d != .RotationAngleComponentTypeold) &&
        (d != .RotationRateComponentTypeOld) && (!neverLeaf d || !isSpecialBuild c && (prefixOf c).isNone)
    | _ => true) = true := by decide +kernel

theorem write_units : (Cls.all.all fun c => !hasUnits c || (axisAttr c).isSome || c == .RotationAngleComponentTypeold ||
    c == .RotationRateComponentTypeOld || c.attrs.all fun f => f.name == py "value" || f.name == py "units") = true := by
  decide +kernel

/-- What the reader guarantees of an object. -/
structure ReadOk (d : Cls) (ws : List (Str × Val)) : Prop where
  third : hasUnits d = true → ∀ p ∈ ws, p.1 ≠ py "value" → p.1 ≠ py "units" → ∃ c m, p.2 = .enum c m
  user : d = .UserDefinedParameterType → ∃ s, Val.lookupVar (py "parameter") ws = some (.str s)
  state : d = .StateVectorAccType → ∃ s, s ≠ [] ∧ Val.lookupVar (py "epoch") ws = some (.str s)
  att : d ≠ .AttitudeStateType

theorem xmlifySingle_attrs {tag param : Str} {items : List Line} {doc : XDoc} (h : xmlifySingle tag items param = .ok doc) :
    ∃ l ∈ items, attrLookup param doc.attrs = some (l.headD []) := by
  unfold xmlifySingle at h
  obtain ⟨item, hi, h⟩ := bind_ok_iff.mp h
  obtain ⟨_, -, h⟩ := bind_ok_iff.mp h
  obtain ⟨_, -, h⟩ := bind_ok_iff.mp h
  obtain ⟨key, hk, h⟩ := bind_ok_iff.mp h
  obtain ⟨_, -, h⟩ := bind_ok_iff.mp h
  have hkey : key = item.headD [] := by
    match item, hk with
    | _ :: _, hk => cases hk; rfl
  refine ⟨item, pyGet_mem hi, ?_⟩
  subst hkey
  split at h
  · obtain ⟨_, -, h⟩ := bind_ok_iff.mp h
    cases h
    simp [attrLookup]
  · cases h
    simp [attrLookup]

/-- The attribute fields of a class by name. -/
theorem axis_fields {c d : Cls} {a : Str} (h : axisAttr c = some (a, d)) : ∀ f ∈ c.attrs, f.name ≠ py "value" → f.name ≠ py "units" →
    f.kind = .attr ∧ f.xmlName = a ∧ f.ty = .cls d := by
  have : (Cls.all.all fun c => match axisAttr c with
    | some (a, d) => c.attrs.all fun f => f.name == py "value" || f.name == py "units" ||
        decide (f.kind = .attr) && f.xmlName == a && decide (f.ty = .cls d)
    | none => true) = true := by decide +kernel
  have := all_classes this c
  rw [h] at this
  intro f hf h1 h2
  have := List.all_eq_true.mp this f hf
  simp only [Bool.or_eq_true, Bool.and_eq_true, beq_iff_eq, decide_eq_true_eq, h1, h2, false_or] at this
  exact ⟨this.1.1, this.1.2, this.2⟩

theorem axis_not_special {c : Cls} (h : (axisAttr c).isSome = true) : isSpecialBuild c = false ∧ prefixOf c = none := by
  have : (Cls.all.all fun c => (axisAttr c).isNone || !isSpecialBuild c && (prefixOf c).isNone) = true := by decide +kernel
  have := all_classes this c
  cases h' : axisAttr c with
  | none => rw [h'] at h; cases h
  | some x => rw [h'] at this; simpa using this

theorem sectionDoc_plain {keys : List Str} {lines loc : List Line} {e : Elem} {hi : Nat} {doc : XDoc} {subs : List Elem}
    (hs : isSpecialBuild e.cls = false) (h : sectionDoc keys lines e loc hi = .ok (some (doc, subs))) :
    plainDoc e loc = .ok (some doc) := by
  simp only [isSpecialBuild, Bool.or_eq_false_iff, decide_eq_false_iff_not] at hs
  obtain ⟨⟨⟨⟨h1, h2⟩, h3⟩, h4⟩, h5⟩ := hs
  unfold sectionDoc at h
  rw [if_neg h3, if_neg h1, if_neg h2, if_neg h5] at h
  obtain ⟨d, hd, h⟩ := bind_ok_iff.mp h
  cases d with
  | none => cases h
  | some d => cases h; exact hd

theorem read_writable {src : Str} {v : Val} (h : kvnFromString src = .ok v) (hk : ∀ vs, v ≠ .obj .Aem vs) :
    ∀ d ws, Within (.obj d ws) v → ReadOk d ws := by
  have hty := kvnFromString_type h
  have h0 := h
  unfold kvnFromString at h
  obtain ⟨lines0, hl, h⟩ := bind_ok_iff.mp h
  obtain ⟨c, hc, h⟩ := bind_ok_iff.mp h
  obtain ⟨⟨mx, mm, tree⟩, hid, h⟩ := bind_ok_iff.mp h
  obtain ⟨lines', c', hl', hc', hmem, hty⟩ := hty
  rw [hl] at hl'
  cases hl'
  rw [hc] at hc'
  cases hc'
  have hm : c.members = none := by
    simpa using List.all_eq_true.mp message_dataclasses c hmem
  have hne : c ≠ .Aem := by
    rintro rfl
    cases hty with
    | obj => exact hk _ rfl
    | enum _ h' => rw [hm] at h'; cases h'
    | enumText _ h' => rw [hm] at h'; cases h'
  have hst := List.all_eq_true.mp write_static c hmem
  simp only [Bool.or_eq_true, beq_iff_eq, hne, false_or, Bool.and_eq_true] at hst
  have ht0 : Typed (objectMap c) := by
    have := extract_typed treeDepth ((c.idVersion.map (·.1)).getD []) c false hm
    cases this with
    | mk h1 h2 h3 => exact .mk h1 h2 h3
  have hinst : Inst (objectMap c) { tree with minMax := some mm } := (identElem_inst _ _ _ _ _ hid).setRange _ _
  have ht : Typed { tree with minMax := some mm } := ht0.inst hinst
  have ho : Only (fun c s => writeR c s = true) { tree with minMax := some mm } := (only_of_b _ hst.2).inst hinst
  generalize hlines : deleteMarkers c lines0 = lines at hid h
  let G : Cls → Nat × Nat → Prop := fun c mm => c = .StateVectorAccType → mm.1 < mm.2 →
    ∃ l s w ws, lines[mm.1]? = some l ∧ l[0]? = some s ∧ words s = w :: ws
  have hmono : ∀ c kw (subs subs' : List Elem), writeQ c kw = true → (subs = [] → subs' = []) → writeQ c kw = true :=
    fun _ _ _ _ h _ => h
  obtain ⟨-, hq, hg, hsub⟩ := identElem_tree (Q := fun c kw _ => writeQ c kw = true) (G := G) hmono (by
    intro e init mm kw hq hr
    refine ⟨?_, ?_⟩
    · rcases rootRange_keywords hr with rfl | rfl
      · unfold prefixOf
        split
        · rename_i hc
          rw [hc] at hq ⊢
          unfold withPrefix
          cases hkw : e.kw with
          | nil => rw [hkw] at hq; simp [writeQ] at hq
          | cons k ks =>
            rw [hkw] at hq
            have hh : k = py "COMMENT" := by simp [writeQ] at hq; exact hq.1.1
            subst hh
            have hla : ((Cls.attrs .UserDefinedType).all fun f => match f.ty with
                | .cls d => !neverLeaf d
                | _ => true) = true := by decide +kernel
            simp only [writeQ, axisAttr, Bool.and_eq_true, List.all_eq_true]
            refine ⟨⟨⟨rfl, by simp⟩, trivial⟩, ?_⟩
            intro f hf
            have := List.all_eq_true.mp hla f hf
            split
            · rename_i d hd
              rw [hd] at this
              simp only at this
              rw [this]; rfl
            · rfl
        · exact hq
      · exact hq
    · intro hc hlt
      unfold rootRange at hr
      rw [if_pos (by rw [hc]; decide)] at hr
      unfold identifySpecial at hr
      rw [if_pos (by rw [hc]; decide)] at hr
      obtain ⟨l, h1, hr⟩ := bind_ok_iff.mp hr
      obtain ⟨s, h2, hr⟩ := bind_ok_iff.mp hr
      obtain ⟨w, h3, hr⟩ := bind_ok_iff.mp hr
      obtain ⟨b, -, hr⟩ := bind_ok_iff.mp hr
      have hmm : mm = if b then (init, init + 1) else (init, init) := by cases hr; rfl
      cases b with
      | false => rw [hmm] at hlt; simp at hlt
      | true =>
        have g : ∀ {α : Type} {l : List α} {i : Nat} {x : α}, pyGet l i = .ok x → l[i]? = some x := by
          intro α l i x hx
          unfold pyGet at hx
          split at hx
          · cases hx; assumption
          · cases hx
        have h3 := g h3
        rw [hmm]
        refine ⟨l, s, w, (words s).drop 1, g h1, g h2, ?_⟩
        cases hws : words s with
        | nil => rw [hws] at h3; cases h3
        | cons a as => rw [hws] at h3; simp at h3; simp [h3]) _ _ _ _ _ (tree_of_b _ hst.1) hid
  have hT : RTree (fun c kw _ => writeQ c kw = true) G { tree with minMax := some mm } := by
    refine .mk hq ?_ hsub
    intro mm' he; cases he; exact hg
  refine fun d ws hw => build_within (fun w => ∀ d ws, w = .obj d ws → ReadOk d ws)
    (fun e => RTree (fun c kw _ => writeQ c kw = true) G e ∧ Only (fun c s => writeR c s = true) e)
    (by intro d ws h; cases h) (by intro xs d ws h; cases h) ?_ ?_ ?_ ?_ ?_ _ _ v ht ⟨hT, ho⟩ h _ hw d ws rfl
  · rintro e ⟨h1, h2⟩ s hs
    cases h1 with
    | mk _ _ h1 =>
    cases h2 with
    | mk _ h2 => exact ⟨h1 s hs, h2 s hs⟩
  · rintro e start subs ⟨h1, h2⟩ hp s hs
    exact ⟨prepare_tree hmono h1 hp s hs, prepare_only h2 hp s hs⟩
  · rintro e v w ⟨-, h2⟩ hc - -
    cases h2 with
    | mk h2 _ => rw [hc] at h2; cases h2
  · rintro c vs name d x ⟨f, hf, hn, hty⟩ hdm hP c' ws he
    cases he
    have hP := hP c vs rfl
    refine ⟨fun hu => ?_, fun hc => ?_, fun hc => ?_, hP.att⟩
    · exfalso
      have hs := all_classes schema_units c
      rw [hu] at hs
      simp only [Bool.not_true, Bool.false_or, Bool.and_eq_true, List.all_eq_true] at hs
      have := (hs.2 f hf).1.2
      rw [hty] at this
      simp only [hdm] at this
      cases this
    · exfalso
      subst hc
      have := List.all_eq_true.mp userParam_leaf f hf
      rw [hty] at this
      simp at this
    · obtain ⟨s, h1, h2⟩ := hP.state hc
      refine ⟨s, h1, ?_⟩
      rw [lookupVar_setVar_ne, h2]
      rintro rfl
      subst hc
      have : ((Cls.attrs .StateVectorAccType).all fun f => f.name != py "epoch" || f.ty == .str) = true := by decide +kernel
      have := List.all_eq_true.mp this f hf
      rw [hn, hty] at this
      simp at this
  · rintro e lo hi doc subs obj hte ⟨hTe, hOe⟩ hmm hne' hdoc hb w hw d ws rfl
    have hq : writeQ e.cls e.kw = true := by cases hTe; assumption
    have hg : G e.cls (lo, hi) := by
      cases hTe with
      | mk _ hg _ => exact hg _ hmm
    have hr : writeR e.cls e.single = true := by cases hOe; assumption
    simp only [writeR, Bool.and_eq_true, Bool.or_eq_true, bne_iff_ne, beq_iff_eq] at hr
    obtain ⟨⟨⟨⟨⟨⟨r0, r1⟩, r2⟩, r3⟩, r4⟩, r5⟩, r6⟩ := hr
    simp only [writeQ, Bool.and_eq_true, Bool.or_eq_true, bne_iff_ne, beq_iff_eq, List.all_eq_true] at hq
    obtain ⟨⟨⟨q1, q2⟩, q3⟩, q4⟩ := hq
    rcases bindDoc_within hb hw with ⟨he, hd⟩ | ⟨f, hf, hfk, hty, x, hx, htag, he⟩
    · unfold bindDoc at hb
      obtain ⟨_, -, hb⟩ := bind_ok_iff.mp hb
      cases hb
      rw [hd] at he
      have he : ws = _ := (Val.obj.inj he).2
      refine ⟨fun hu p hp h1 h2 => ?_, fun hc => absurd (hd ▸ hc) r2, fun hc => ?_, fun hc => r1 (hd ▸ hc)⟩
      · have hsu := all_classes write_units d
        rw [hu] at hsu
        rw [he] at hp
        obtain ⟨f, hf, rfl⟩ := List.mem_map.mp hp
        simp only at h1 h2
        have hsu : (axisAttr d).isSome = true := by
          simp only [Bool.not_true, Bool.false_or, Bool.or_eq_true, beq_iff_eq, List.all_eq_true] at hsu
          rcases hsu with ((h | h) | h) | h
          · exact h
          · exact absurd (hd ▸ h) r4
          · exact absurd (hd ▸ h) r5
          · rcases h f (hd ▸ hf) with h | h
            · exact absurd h h1
            · exact absurd h h2
        obtain ⟨⟨a, k⟩, ha⟩ := Option.isSome_iff_exists.mp hsu
        obtain ⟨n1, n2⟩ := axis_not_special hsu
        rw [hd] at ha n1 n2
        obtain ⟨f1, f2, f3⟩ := axis_fields ha f hf h1 h2
        rw [ha] at q3 r6
        simp only [List.all_eq_true] at q3
        have hp := sectionDoc_plain n1 hdoc
        unfold plainDoc at hp
        simp only [n2, Option.isSome_none, Bool.false_eq_true, if_false] at hp
        split at hp
        · cases hp
        · split at hp
          · rename_i hkw
            exfalso
            have := q3 (py "id") (by rw [hkw]; simp)
            have hno : (Cls.all.all fun c => match axisAttr c with
              | some (_, k) => match k.members with
                | some ms => !ms.any (·.2 == py "id")
                | none => true
              | none => true) = true := by decide +kernel
            have hno := all_classes hno e.cls
            rw [ha] at hno
            simp only at hno
            split at this
            · rename_i ms hms
              rw [hms] at hno
              simp only at hno
              rw [this] at hno
              cases hno
            · cases this
          · have hsingle : e.single = some a := by simpa using r6
            rw [hsingle] at hp
            simp only at hp
            obtain ⟨doc', hx, hp⟩ := map_ok_iff.mp hp
            cases hp
            obtain ⟨l, hlm, hattr⟩ := xmlifySingle_attrs hx
            have hkey := q3 (l.headD []) (List.contains_iff_mem.mp (List.mem_filter.mp hlm).2)
            unfold bindField bindAttr
            rw [f1]
            simp only [f2, hattr, f3, convText]
            split at hkey
            · rename_i ms hms
              rw [hms]
              simp only [convEnum, hkey, if_true]
              exact ⟨_, _, rfl⟩
            · cases hkey
      · rw [hc] at hd
        have hd := hd.symm
        unfold sectionDoc at hdoc
        rw [if_neg (by rw [hd]; decide), if_pos hd] at hdoc
        obtain ⟨ls, hls, hdoc⟩ := bind_ok_iff.mp hdoc
        obtain ⟨d0, hd0, hdoc⟩ := bind_ok_iff.mp hdoc
        cases hdoc
        unfold stateVectorLines at hls
        obtain ⟨l, h1, hls⟩ := bind_ok_iff.mp hls
        obtain ⟨s, h2, hls⟩ := bind_ok_iff.mp hls
        cases hls
        have g : ∀ {α : Type} {l : List α} {i : Nat} {x : α}, pyGet l i = .ok x → l[i]? = some x := by
          intro α l i x hx
          unfold pyGet at hx
          split at hx
          · cases hx; assumption
          · cases hx
        have h1 := g h1
        have h2 := g h2
        have hlt : lo < hi := by
          by_contra hcon
          have : hi - lo = 0 := by omega
          rw [this] at h1
          simp at h1
        obtain ⟨l', s', w, more, g1, g2, g3⟩ := hg hd hlt
        have : (List.take (hi - lo) (List.drop lo lines))[0]? = lines[lo]? := by
          rw [List.getElem?_take_of_lt (by omega), List.getElem?_drop]
          rfl
        rw [this, g1] at h1
        cases h1
        rw [g2] at h2
        cases h2
        have hkw : e.kw.head? = some (py "EPOCH") := q1.resolve_left fun h => h hd
        have hwne := (words_tokens s w (by rw [g3]; simp)).1
        cases hkws : e.kw with
        | nil => rw [hkws] at hkw; cases hkw
        | cons k ks =>
          rw [hkws] at hkw hd0
          cases hkw
          rw [g3] at hd0
          unfold xmlifyList at hd0
          obtain ⟨xs, hxs, hd0⟩ := bind_ok_iff.mp hd0
          cases hd0
          rw [zipLines, List.zip_cons_cons, List.map_cons, List.mapM_cons] at hxs
          obtain ⟨x, hx, hxs⟩ := bind_ok_iff.mp hxs
          obtain ⟨xs', -, hxs⟩ := bind_ok_iff.mp hxs
          cases hxs
          have hx' : x = ⟨py "EPOCH", [], w⟩ := by
            simp only [xmlifyChild] at hx
            unfold xmlifyItem at hx
            obtain ⟨_, e1, hx⟩ := bind_ok_iff.mp hx
            obtain ⟨_, -, hx⟩ := bind_ok_iff.mp hx
            obtain ⟨_, e2, hx⟩ := bind_ok_iff.mp hx
            obtain ⟨_, e3, hx⟩ := bind_ok_iff.mp hx
            obtain ⟨_, -, hx⟩ := bind_ok_iff.mp hx
            cases e1; cases e2; cases e3; cases hx
            rfl
          subst hx'
          refine ⟨w, hwne, ?_⟩
          have hf : (⟨py "epoch", some (py "EPOCH"), .elem, .str, false, true⟩ : Field) ∈ Cls.attrs .StateVectorAccType := by
            decide +kernel
          rw [he, hd]
          refine (lookupVar_fields hf (attrs_nodup _)).trans ?_
          simp [bindField, Field.xmlName, bindLeaf, hwne, convText]
    · have hsc := List.all_eq_true.mp (all_classes write_schema e.cls) f hf
      rw [hty] at hsc
      simp only [Bool.and_eq_true, Bool.or_eq_true, bne_iff_ne, beq_iff_eq, Bool.not_eq_true'] at hsc
      obtain ⟨⟨⟨s1, s2⟩, s3⟩, s4⟩ := hsc
      have hleaf : neverLeaf d = false := by
        by_contra hcon
        have hcon : neverLeaf d = true := by simpa using hcon
        rw [hcon] at s4
        simp only [Bool.true_eq_false, false_or, Option.isNone_iff_eq_none] at s4
        have htags := plainDoc_tags s4.2 (sectionDoc_plain s4.1 hdoc) x hx
        have := q4 f hf
        rw [hty] at this
        simp only [hcon, Bool.not_true, Bool.false_or, Bool.not_eq_true'] at this
        rw [htag] at htags
        rw [List.contains_iff_mem.mpr htags] at this
        cases this
      simp only [neverLeaf, Bool.or_eq_false_iff, decide_eq_false_iff_not] at hleaf
      have he : ws = _ := (Val.obj.inj he).2
      refine ⟨fun hu p hp h1 h2 => ?_, fun hc => ?_, fun hc => absurd hc hleaf.1, fun hc => ?_⟩
      · exfalso
        have hsu := all_classes write_units d
        rw [hu, hleaf.2] at hsu
        simp only [Bool.not_true, Bool.false_or, Bool.or_eq_true, beq_iff_eq, List.all_eq_true] at hsu
        rcases hsu with (h | h) | h
        · exact s2 h
        · exact s3 h
        · rw [he] at hp
          obtain ⟨g, hg', rfl⟩ := List.mem_map.mp hp
          rcases h g hg' with h | h
          · exact h1 h
          · exact h2 h
      · have hec : e.cls = .UserDefinedType := s1.resolve_left fun h => h hc
        have hp := sectionDoc_plain (by rw [hec]; decide) hdoc
        unfold plainDoc at hp
        have hpre : prefixOf e.cls = some (py "USER_DEFINED") := by rw [hec]; rfl
        simp only [hpre, Option.isSome_some, if_true] at hp
        have hkw : e.kw.head? = some (py "COMMENT") := q2.resolve_left fun h => h hec
        have hsingle : e.single = none := r3.resolve_left fun h => h hec
        split at hp
        · cases hp
        · split at hp
          · rename_i hkw'
            rw [hkw'] at hkw
            exact absurd hkw (by decide)
          · rw [hsingle] at hp
            simp only at hp
            obtain ⟨doc', hx', hp⟩ := map_ok_iff.mp hp
            cases hp
            unfold xmlifyList at hx'
            obtain ⟨xs, hxs, hx'⟩ := bind_ok_iff.mp hx'
            cases hx'
            obtain ⟨l, -, hl'⟩ := mapM_mem hxs x hx
            simp only [xmlifyChild] at hl'
            unfold xmlifyPrefixItem at hl'
            obtain ⟨_, -, hl'⟩ := bind_ok_iff.mp hl'
            obtain ⟨_, -, hl'⟩ := bind_ok_iff.mp hl'
            obtain ⟨_, -, hl'⟩ := bind_ok_iff.mp hl'
            obtain ⟨_, -, hl'⟩ := bind_ok_iff.mp hl'
            cases hl'
            subst hc
            rw [he]
            have hf : (⟨py "parameter", none, .attr, .str, false, true⟩ : Field) ∈ Cls.attrs .UserDefinedParameterType := by
              decide +kernel
            exact ⟨_, (lookupVar_fields hf (attrs_nodup _)).trans rfl⟩
      · have hsv : (Cls.all.all fun c => c.attrs.all fun f => f.ty != .cls .AttitudeStateType || c == .AemData) = true := by
          decide +kernel
        have := List.all_eq_true.mp (all_classes hsv e.cls) f hf
        rw [hty, hc] at this
        simp only [bne_self_eq_false, Bool.false_or, beq_iff_eq] at this
        exact r0 this

end Ndm
