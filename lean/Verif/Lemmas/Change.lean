import Verif.SpecChange
import Verif.Lemmas.Erase
import Verif.Lemmas.EphTdm
import Verif.Lemmas.Absent

/-! What changed values change in the object. -/

namespace Ndm

variable {D : Str → Prop}

/-! ## Identification looks at keywords only -/

theorem Changed.head {l l' : Line} (h : Changed D l l') : l.head? = l'.head? := by cases h <;> rfl

theorem Changed.headD {l l' : Line} (h : Changed D l l') (d : Str) : l.headD d = l'.headD d := by cases h <;> rfl

/-- The same keywords, line by line. -/
def SameHeads (a b : List Line) : Prop := List.Forall₂ (fun l l' : Line => l.head? = l'.head?) a b

theorem changed_heads {a b : List Line} (h : List.Forall₂ (Changed D) a b) : SameHeads a b := h.imp fun _ _ h => h.head

theorem SameHeads.length {a b : List Line} (h : SameHeads a b) : a.length = b.length := List.Forall₂.length_eq h

theorem SameHeads.keys {a b : List Line} (h : SameHeads a b) : keysOf a = keysOf b := by
  unfold keysOf
  induction h with
  | nil => rfl
  | cons h _ ih => rw [List.map_cons, List.map_cons, ih, List.headD_eq_head?_getD, List.headD_eq_head?_getD, h]

theorem forall₂_drop {α β : Type} {R : α → β → Prop} {a : List α} {b : List β} (h : List.Forall₂ R a b) (n : Nat) :
    List.Forall₂ R (a.drop n) (b.drop n) := List.forall₂_drop n h

/-- The head of the line at an index. -/
theorem SameHeads.get {a b : List Line} (h : SameHeads a b) (i : Nat) {β : Type} (f : Str → Except PyErr β) :
    (do let l ← pyGet a i; let s ← pyGet l 0; f s) = (do let l ← pyGet b i; let s ← pyGet l 0; f s) := by
  have : ∀ {a b : List Line}, SameHeads a b → ∀ i : Nat, (a[i]?).map List.head? = (b[i]?).map List.head? := by
    intro a b h
    induction h with
    | nil => intro i; rfl
    | cons h _ ih =>
      intro i
      cases i with
      | zero => simp [h]
      | succ i => simpa using ih i
  have := this h i
  unfold pyGet
  cases ha : a[i]? with
  | none =>
    cases hb : b[i]? with
    | none => rfl
    | some l' => simp [ha, hb] at this
  | some l =>
    cases hb : b[i]? with
    | none => simp [ha, hb] at this
    | some l' =>
      simp only [ha, hb, Option.map_some, Option.some.injEq, List.head?_eq_getElem?] at this
      simp only [bind, Except.bind, this]

theorem countFloatLines_heads {a b : List Line} (h : SameHeads a b) : countFloatLines a = countFloatLines b := by
  induction h with
  | nil => rfl
  | cons h _ ih => simp only [countFloatLines, h, ih]

/-- Whether the value of a line begins with a date. -/
def dateOf (l : Line) : Except PyErr Bool := do
  let s ← pyGet l 1
  let d ← pyGet (words s) 0
  isDateStr d

/-- The same lines begin with a date. -/
def SameDates (a b : List Line) : Prop := List.Forall₂ (fun l l' : Line => dateOf l = dateOf l') a b

theorem SameDates.get {a b : List Line} (h : SameDates a b) (i : Nat) {β : Type} (f : Bool → Except PyErr β) :
    (do let l ← pyGet a i; let d ← dateOf l; f d) = (do let l ← pyGet b i; let d ← dateOf l; f d) := by
  have : ∀ {a b : List Line}, SameDates a b → ∀ i : Nat, (a[i]?).map dateOf = (b[i]?).map dateOf := by
    intro a b h
    induction h with
    | nil => intro i; rfl
    | cons h _ ih =>
      intro i
      cases i with
      | zero => simp [h]
      | succ i => simpa using ih i
  have := this h i
  unfold pyGet
  cases ha : a[i]? with
  | none =>
    cases hb : b[i]? with
    | none => rfl
    | some l' => simp [ha, hb] at this
  | some l =>
    cases hb : b[i]? with
    | none => simp [ha, hb] at this
    | some l' =>
      simp only [ha, hb, Option.map_some, Option.some.injEq] at this
      simp only [bind, Except.bind, this]

theorem rootRange_obs {e : Elem} (he : e.cls = .TrackingDataObservationType) (keys : List Str) (a : List Line) (i : Nat) :
    rootRange e keys a i = (do
      let l ← pyGet a i
      let b ← dateOf l
      return (if b then (i, i + 1) else (i, i), e.kw)) := by
  unfold rootRange identifySpecial dateOf
  have h1 : (decide (e.cls = .StateVectorAccType) || decide (e.cls = .AttitudeStateType)) = false := by rw [he]; decide
  rw [if_pos (by rw [he]; decide), h1, if_pos he]
  simp only [bind_assoc, Bool.false_eq_true, if_false]

theorem rootRange_heads {e : Elem} (keys : List Str) {a b : List Line} (h : SameHeads a b)
    (he : e.cls ≠ .TrackingDataObservationType ∨ SameDates a b) (i : Nat) : rootRange e keys a i = rootRange e keys b i := by
  by_cases hc : e.cls = .TrackingDataObservationType
  · rw [rootRange_obs hc, rootRange_obs hc, (he.resolve_left (absurd hc)).get i]
  · unfold rootRange identifySpecial
    rw [if_neg hc, if_neg hc]
    simp only [countFloatLines_heads (List.forall₂_drop _ h)]
    rw [h.get i]

mutual
/-- No AEM segment and no attitude state. -/
def Elem.freeB : Elem → Bool
  | ⟨_, cls, subs, _, _, _, _, _⟩ => cls != .AemSegment && cls != .AttitudeStateType && Elem.freeAllB subs
def Elem.freeAllB : List Elem → Bool
  | [] => true
  | s :: ss => s.freeB && Elem.freeAllB ss
end

/-- The attributes of a class whose objects hold their keyword under `p`. -/
def namedClassB (c : Cls) (p : Str) : Bool :=
  (c.fields.filter (·.init)).all (fun f => match f.kind with
    | .attr => f.xmlName == p || f.name == py "units"
    | .text => f.name == py "value"
    | .elem => true) &&
  (c.fields.filter (·.init)).any fun f => f.kind = .attr && f.xmlName == p && match f.ty with
    | .str => true
    | .cls _ => true
    | _ => false

mutual
/-- No observation unless `obs`, and the assumptions on elements of one line and on attitude states. -/
def Elem.steady (obs : Bool) : Elem → Bool
  | ⟨_, cls, subs, _, _, single, _, _⟩ => (obs || cls != .TrackingDataObservationType) &&
    (match single with | none => true | some p => subs.isEmpty && namedClassB cls p) &&
    (cls != .AttitudeStateType || Elem.freeAllB subs) && Elem.steadyAll obs subs
def Elem.steadyAll (obs : Bool) : List Elem → Bool
  | [] => true
  | s :: ss => s.steady obs && Elem.steadyAll obs ss
end

theorem freeAllB_iff {ss : List Elem} : Elem.freeAllB ss = true ↔ ∀ s ∈ ss, s.freeB = true := by
  induction ss with
  | nil => simp [Elem.freeAllB]
  | cons s ss ih => simp [Elem.freeAllB, ih]

theorem steadyAll_iff {obs : Bool} {ss : List Elem} : Elem.steadyAll obs ss = true ↔ ∀ s ∈ ss, s.steady obs = true := by
  induction ss with
  | nil => simp [Elem.steadyAll]
  | cons s ss ih => simp [Elem.steadyAll, ih]

theorem freeB_iff {e : Elem} : e.freeB = true ↔ e.cls ≠ .AemSegment ∧ e.cls ≠ .AttitudeStateType ∧ ∀ s ∈ e.subs, s.freeB = true := by
  cases e
  simp only [Elem.freeB, Bool.and_eq_true, bne_iff_ne, freeAllB_iff, and_assoc]

theorem steady_iff {obs : Bool} {e : Elem} : e.steady obs = true ↔ (obs = true ∨ e.cls ≠ .TrackingDataObservationType) ∧
    (∀ p, e.single = some p → e.subs = [] ∧ namedClassB e.cls p = true) ∧
    (e.cls = .AttitudeStateType → ∀ s ∈ e.subs, s.freeB = true) ∧ ∀ s ∈ e.subs, s.steady obs = true := by
  cases e with
  | mk name cls subs kw isList single minMax template =>
    cases single with
    | none =>
      simp only [Elem.steady, Bool.and_eq_true, bne_iff_ne, steadyAll_iff, freeAllB_iff, Bool.or_eq_true, and_assoc, and_true,
        reduceCtorEq, false_imp_iff, implies_true, true_and]
      rw [Decidable.imp_iff_not_or]
    | some p =>
      simp only [Elem.steady, Bool.and_eq_true, bne_iff_ne, steadyAll_iff, freeAllB_iff, Bool.or_eq_true, and_assoc,
        Option.some.injEq, forall_eq', List.isEmpty_iff]
      rw [Decidable.imp_iff_not_or]

theorem freeN_of_b : ∀ (n : Nat) {e : Elem}, e.freeB = true → FreeN n e
  | 0, _, _ => trivial
  | n + 1, _, h => by
    obtain ⟨h1, h2, h3⟩ := freeB_iff.mp h
    exact ⟨h1, h2, fun s hs => freeN_of_b n (h3 s hs)⟩

theorem freeB_inst {e e' : Elem} (hi : Inst e e') : e.freeB = true → e'.freeB = true := by
  induction hi with
  | @mk e e' hname hcls _ _ _ f hf hi ih =>
    intro h
    obtain ⟨h1, h2, h3⟩ := freeB_iff.mp h
    exact freeB_iff.mpr ⟨by rw [hcls]; exact h1, by rw [hcls]; exact h2, fun s hs => ih s hs (h3 _ (hf s hs))⟩

theorem steady_inst {obs : Bool} {e e' : Elem} (hi : Inst e e') : e.steady obs = true → e'.steady obs = true := by
  induction hi with
  | @mk e e' hname hcls _ hsingle _ f hf hi ih =>
    intro h
    obtain ⟨h1, h2, h3, h4⟩ := steady_iff.mp h
    refine steady_iff.mpr ⟨by rw [hcls]; exact h1, ?_, ?_, fun s hs => ih s hs (h4 _ (hf s hs))⟩
    · intro p hp
      obtain ⟨h5, h6⟩ := h2 p (by rw [← hsingle]; exact hp)
      refine ⟨List.eq_nil_iff_forall_not_mem.mpr fun s hs => ?_, by rw [hcls]; exact h6⟩
      have := hf s hs
      rw [h5] at this
      cases this
    · intro hc s hs
      exact freeB_inst (hi s hs) (h3 (by rw [← hcls]; exact hc) _ (hf s hs))

theorem prepare_steady {obs : Bool} {keys : List Str} {lines : List Line} {e : Elem} {start : Nat} {subs : List Elem} (he : e.steady obs = true)
    (h : prepareAemSegment keys lines e start = .ok subs) : ∀ s ∈ subs, s.steady obs = true := by
  have hs := (steady_iff.mp he).2.2.2
  intro s hsm
  rcases prepare_subs h s hsm with hs' | ⟨d, hd, tm, av, rfl⟩
  · exact hs s hs'
  · obtain ⟨h1, h2, h3, h4⟩ := steady_iff.mp (hs d hd)
    refine steady_iff.mpr ⟨h1, ?_, ?_, ?_⟩
    · intro p hp
      obtain ⟨h5, h6⟩ := h2 p hp
      exact ⟨by simp only [h5, List.map_nil], h6⟩
    · intro hc x hx
      obtain ⟨a, ha, rfl⟩ := List.mem_map.mp hx
      obtain ⟨f1, f2, f3⟩ := freeB_iff.mp (h3 hc a ha)
      exact freeB_iff.mpr ⟨f1, f2, fun y hy => f3 y (List.mem_of_mem_filter hy)⟩
    · intro x hx
      obtain ⟨a, ha, rfl⟩ := List.mem_map.mp hx
      obtain ⟨f1, f2, f3, f4⟩ := steady_iff.mp (h4 a ha)
      refine steady_iff.mpr ⟨f1, ?_, fun hc y hy => f3 hc y (List.mem_of_mem_filter hy), fun y hy => f4 y (List.mem_of_mem_filter hy)⟩
      intro p hp
      obtain ⟨h5, h6⟩ := f2 p hp
      exact ⟨by simp only [h5, List.filter_nil], h6⟩

mutual
theorem identElem_heads {obs : Bool} (keys : List Str) {a b : List Line} (h : SameHeads a b) (hd : obs = true → SameDates a b) : ∀ (e : Elem) (i : Nat), e.steady obs = true →
    identElem keys a e i = identElem keys b e i
  | ⟨name, cls, subs, kw, isList, single, minMax, template⟩, i, he => by
    obtain ⟨h1, -, -, h4⟩ := steady_iff.mp he
    simp only [identElem]
    rw [rootRange_heads keys h (h1.symm.imp id hd)]
    simp only [identSubs_heads keys h hd subs _ _ h4]

theorem identSubs_heads {obs : Bool} (keys : List Str) {a b : List Line} (h : SameHeads a b) (hd : obs = true → SameDates a b) : ∀ (ss : List Elem) (rootMin i : Nat),
    (∀ s ∈ ss, s.steady obs = true) → identSubs keys a rootMin ss i = identSubs keys b rootMin ss i
  | [], _, _, _ => by simp only [identSubs]
  | s :: ss, rootMin, i, hs => by
    have h0 := hs s List.mem_cons_self
    simp only [identSubs]
    have hid : (fun i => identElem keys a s i) = fun i => identElem keys b s i := funext fun i => identElem_heads keys h hd s i h0
    have hss : ∀ j, identSubs keys a rootMin ss j = identSubs keys b rootMin ss j :=
      fun j => identSubs_heads keys h hd ss rootMin j fun s hs' => hs s (List.mem_cons_of_mem _ hs')
    rw [hid, h.length, identElem_heads keys h hd s i h0]
    simp only [hss]
    cases hx : identElem keys b s i with
    | error e => rfl
    | ok r =>
      obtain ⟨mx, mm, s'⟩ := r
      have hc : s'.cls ≠ .TrackingDataObservationType ∨ SameDates a b := by
        have := identElem_inst s i mx mm s' hx
        rw [this.cls]
        exact (steady_iff.mp h0).1.symm.imp id hd
      simp only [bind, Except.bind, researchRange, rootRange_heads keys h hc]
end

/-! ## Documents -/

/-- Two leaves: the same tag, and the same contents unless `D` of the tag. -/
def LeafAlike (D : Str → Prop) (x y : XLeaf) : Prop := x.tag = y.tag ∧ (x = y ∨ D x.tag)

theorem mapM_forall₂ {α β : Type} {R : α → α → Prop} {S : β → β → Prop} {f : α → Except PyErr β} {a b : List α} {r : List β}
    (h : List.Forall₂ R a b) (hf : ∀ x y z, R x y → f x = .ok z → ∃ w, f y = .ok w ∧ S z w) (ha : a.mapM f = .ok r) :
    ∃ r', b.mapM f = .ok r' ∧ List.Forall₂ S r r' := by
  induction h generalizing r with
  | nil =>
    rw [List.mapM_nil] at ha
    cases ha
    exact ⟨[], rfl, .nil⟩
  | cons h _ ih =>
    rw [List.mapM_cons] at ha
    obtain ⟨z, hz, ha⟩ := bind_ok_iff.mp ha
    obtain ⟨zs, hzs, ha⟩ := bind_ok_iff.mp ha
    cases ha
    obtain ⟨w, hw, hS⟩ := hf _ _ _ h hz
    obtain ⟨ws, hws, hSs⟩ := ih hzs
    refine ⟨w :: ws, ?_, .cons hS hSs⟩
    rw [List.mapM_cons, hw, hws]
    rfl

theorem xmlCheck_chars {s : Str} (h : ∀ c ∈ s, xmlChar c = true) : xmlCheck s = .ok () := by
  unfold xmlCheck xmlText
  rw [if_pos (List.all_eq_true.mpr h)]

theorem unitAttrs_chars {r : List Str} (i : Nat) (h : ∀ s ∈ r, ∀ c ∈ s, xmlChar c = true) : ∃ x, unitAttrs r[i]? = .ok x := by
  cases hr : r[i]? with
  | none => exact ⟨_, rfl⟩
  | some u => exact ⟨[(py "units", u)], by simp only [unitAttrs, xmlCheck_chars (h u (List.mem_of_getElem? hr)), bind, Except.bind, pure, Except.pure]⟩

theorem xmlifyItem_alike {l l' : Line} {x : XLeaf} (h : Changed D l l') (hx : xmlifyItem l = .ok x) :
    ∃ y, xmlifyItem l' = .ok y ∧ LeafAlike D x y := by
  cases h with
  | same => exact ⟨x, hx, rfl, .inl rfl⟩
  | @value k r r' hD hne hc =>
    unfold xmlifyItem at hx
    obtain ⟨key, hk, hx⟩ := bind_ok_iff.mp hx
    cases hk
    obtain ⟨_, ht, hx⟩ := bind_ok_iff.mp hx
    obtain ⟨attrs, -, hx⟩ := bind_ok_iff.mp hx
    obtain ⟨text, -, hx⟩ := bind_ok_iff.mp hx
    obtain ⟨_, -, hx⟩ := bind_ok_iff.mp hx
    cases hx
    cases r' with
    | nil => exact absurd rfl hne
    | cons t r' =>
      obtain ⟨as, has⟩ := unitAttrs_chars (r := t :: r') 1 hc
      refine ⟨⟨k, as, t⟩, ?_, rfl, .inr hD⟩
      unfold xmlifyItem
      have h2 : (k :: t :: r')[2]? = (t :: r')[1]? := rfl
      have hk : pyGet (k :: t :: r') 0 = .ok k := rfl
      have ht' : pyGet (k :: t :: r') 1 = .ok t := rfl
      have ht : tagCheck k = .ok () := ht
      rw [h2, has, hk, ht']
      simp only [bind, Except.bind, ht, xmlCheck_chars (hc t List.mem_cons_self), pure, Except.pure]

theorem xmlifyList_alike {tag : Str} {a b : List Line} {d : XDoc} (h : List.Forall₂ (Changed D) a b)
    (hd : xmlifyList tag a none = .ok d) : ∃ d', xmlifyList tag b none = .ok d' ∧ d.attrs = d'.attrs ∧ d.text = d'.text ∧
      List.Forall₂ (LeafAlike D) d.children d'.children := by
  unfold xmlifyList at hd ⊢
  obtain ⟨cs, hcs, hd⟩ := bind_ok_iff.mp hd
  cases hd
  obtain ⟨cs', hcs', hS⟩ := mapM_forall₂ (S := LeafAlike D) h (fun _ _ _ hR hx => xmlifyItem_alike hR hx) hcs
  have hcs' : b.mapM (xmlifyChild none) = .ok cs' := hcs'
  exact ⟨⟨tag, [], [], cs'⟩, by rw [hcs']; rfl, rfl, rfl, hS⟩

/-! ## Binding -/

theorem convText_form (t : FTy) (s : Str) : convText t s ≠ .none ∧ ∀ xs, convText t s ≠ .list xs := by
  unfold convText convEnum
  cases t with
  | str => simp
  | int => dsimp only; split <;> simp
  | dec => dsimp only; split <;> simp
  | cls c => dsimp only; split <;> (try split) <;> simp

theorem bindLeaf_form (f : Field) (x : XLeaf) : bindLeaf f x ≠ .none ∧ ∀ xs, bindLeaf f x ≠ .list xs := by
  unfold bindLeaf bindLeafClass
  have h := fun t => convText_form t x.text
  split
  · split
    · split
      · simp
      · exact h _
    · simp
  · split
    · simp
    · exact h _

theorem sameForm_single {x y : Val} (hx : x ≠ .none ∧ ∀ xs, x ≠ .list xs) (hy : y ≠ .none ∧ ∀ xs, y ≠ .list xs) : SameForm x y := by
  cases x with
  | none => exact absurd rfl hx.1
  | list xs => exact absurd rfl (hx.2 xs)
  | _ =>
    cases y with
    | none => exact absurd rfl hy.1
    | list ys => exact absurd rfl (hy.2 ys)
    | _ => trivial

theorem checkChildren_tags (c : Cls) {a b : List XLeaf} (h : List.Forall₂ (fun x y : XLeaf => x.tag = y.tag) a b) (seen : List Str) :
    checkChildren c seen a = checkChildren c seen b := by
  induction h generalizing seen with
  | nil => rfl
  | cons h _ ih => simp only [checkChildren, h, ih]

theorem leafs_filter {a b : List XLeaf} (h : List.Forall₂ (LeafAlike D) a b) (n : Str) :
    List.Forall₂ (fun x y => x = y ∨ D n) (a.filter (·.tag == n)) (b.filter (·.tag == n)) := by
  induction h with
  | nil => exact .nil
  | @cons x y _ _ h _ ih =>
    obtain ⟨ht, h⟩ := h
    by_cases hn : x.tag = n
    · rw [List.filter_cons_of_pos (by simpa using hn), List.filter_cons_of_pos (by rw [← ht]; simpa using hn)]
      exact .cons (h.imp id (by rw [hn]; exact id)) ih
    · rw [List.filter_cons_of_neg (by simpa using hn), List.filter_cons_of_neg (by rw [← ht]; simpa using hn)]
      exact ih

theorem forall₂_eq_of {α : Type} {P : Prop} {a b : List α} (h : List.Forall₂ (fun x y => x = y ∨ P) a b) (hP : ¬ P) : a = b := by
  induction h with
  | nil => rfl
  | cons h _ ih => rw [ih, h.resolve_right hP]

/-- The attributes of a document: the same names, and the same values unless `D`. -/
def AttrsAlike (D : Str → Prop) (a b : List (Str × Str)) : Prop := List.Forall₂ (fun p q => p.1 = q.1 ∧ (p = q ∨ D p.1)) a b

theorem attrLookup_alike {a b : List (Str × Str)} (h : AttrsAlike D a b) (n : Str) :
    attrLookup n a = attrLookup n b ∨ D n ∧ ∃ s t, attrLookup n a = some s ∧ attrLookup n b = some t := by
  unfold attrLookup
  induction h with
  | nil => exact .inl rfl
  | @cons p q _ _ h _ ih =>
    obtain ⟨h1, h2⟩ := h
    by_cases hn : p.1 = n
    · rw [List.find?_cons_of_pos (by simpa using hn), List.find?_cons_of_pos (by rw [← h1]; simpa using hn)]
      rcases h2 with rfl | h2
      · exact .inl rfl
      · exact .inr ⟨hn ▸ h2, _, _, rfl, rfl⟩
    · rw [List.find?_cons_of_neg (by simpa using hn), List.find?_cons_of_neg (by rw [← h1]; simpa using hn)]
      exact ih

theorem bindField_alike {d d' : XDoc} (ha : AttrsAlike D d.attrs d'.attrs) (ht : d.text = d'.text)
    (hc : List.Forall₂ (LeafAlike D) d.children d'.children) (f : Field) :
    bindField d f = bindField d' f ∨ D f.xmlName ∧ SameForm (bindField d f) (bindField d' f) := by
  unfold bindField
  split
  · unfold bindAttr
    rcases attrLookup_alike ha f.xmlName with h | ⟨hD, s, t, h1, h2⟩
    · exact .inl (by rw [h])
    · refine .inr ⟨hD, ?_⟩
      rw [h1, h2]
      exact sameForm_single (convText_form _ _) (convText_form _ _)
  · exact .inl (by rw [ht])
  · have hf := leafs_filter hc f.xmlName
    by_cases hD : D f.xmlName
    · refine .inr ⟨hD, ?_⟩
      dsimp only
      generalize d.children.filter (·.tag == f.xmlName) = xs at hf
      generalize d'.children.filter (·.tag == f.xmlName) = ys at hf
      split
      · simp only [SameForm, List.length_map]
        exact hf.length_eq
      · cases hf with
        | nil => rfl
        | cons h _ => exact sameForm_single (bindLeaf_form _ _) (bindLeaf_form _ _)
    · exact .inl (by rw [forall₂_eq_of hf hD])

theorem bindDoc_alike {c : Cls} {d d' : XDoc} {v : Val} (ha : AttrsAlike D d.attrs d'.attrs) (ht : d.text = d'.text)
    (hc : List.Forall₂ (LeafAlike D) d.children d'.children) (h : bindDoc c d = .ok v) :
    ∃ vs ws, v = .obj c vs ∧ bindDoc c d' = .ok (.obj c ws) ∧ AlikeVars D c vs ws := by
  unfold bindDoc at h ⊢
  obtain ⟨_, hch, h⟩ := bind_ok_iff.mp h
  cases h
  rw [← checkChildren_tags c (hc.imp fun _ _ h => h.1)]
  refine ⟨_, (c.fields.filter (·.init)).map fun f => (f.name, bindField d' f), rfl, ?_, ?_⟩
  · simp only [bind, Except.bind, hch, pure, Except.pure]
  · have key : ∀ fs : List Field, (∀ f ∈ fs, f ∈ c.fields) →
        AlikeVars D c (fs.map fun f => (f.name, bindField d f)) (fs.map fun f => (f.name, bindField d' f)) := by
      intro fs
      induction fs with
      | nil => intro _; exact .nil
      | cons f fs ih =>
        intro hfs
        have ih := ih fun g hg => hfs g (List.mem_cons_of_mem _ hg)
        rcases bindField_alike ha ht hc f with h | ⟨hD, h⟩
        · simp only [List.map_cons, h]
          exact .alike (.same _) ih
        · exact .changed (hfs f List.mem_cons_self) hD h ih
    exact key _ fun f hf => List.mem_of_mem_filter hf

/-! ## Elements of one line -/

/-- Two objects bound to the same keyword, under the name `p`. -/
theorem bindDoc_named {c : Cls} {d d' : XDoc} {v : Val} {p k : Str} {as as' : List (Str × Str)} (hn : namedClassB c p = true)
    (hD : D k) (h1 : d.attrs = (p, k) :: as) (h2 : d'.attrs = (p, k) :: as') (hc : d.children = []) (hc' : d'.children = [])
    (h : bindDoc c d = .ok v) : ∃ v', bindDoc c d' = .ok v' ∧ Alike D v v' := by
  simp only [namedClassB, Bool.and_eq_true, List.all_eq_true, List.any_eq_true, decide_eq_true_eq, beq_iff_eq] at hn
  obtain ⟨hall, f, hf, ⟨hk, hx⟩, hty⟩ := hn
  have hb : ∀ d : XDoc, d.children = [] → bindDoc c d = .ok (.obj c ((c.fields.filter (·.init)).map fun f => (f.name, bindField d f))) := by
    intro d hd
    unfold bindDoc
    rw [hd]
    rfl
  have hlab : ∀ (as : List (Str × Str)) (f : Field), f.xmlName = p → bindAttr f ((p, k) :: as) = convText f.ty k := by
    intro as f hf
    simp [bindAttr, attrLookup, hf]
  rw [hb d hc] at h
  cases h
  refine ⟨_, hb d' hc', .named (n := f.name) (x := convText f.ty k) hD ?_ ?_ ?_ ?_⟩
  · unfold convText convEnum
    split at hty
    · rename_i h; rw [h]; exact .inl rfl
    · rename_i c' h
      rw [h]
      dsimp only
      split
      · split
        · exact .inr (.inl ⟨_, rfl⟩)
        · exact .inl rfl
      · exact .inl rfl
    · cases hty
  · refine List.mem_map.mpr ⟨f, hf, ?_⟩
    simp only [bindField, hk, h1, hlab _ _ hx]
  · refine List.mem_map.mpr ⟨f, hf, ?_⟩
    simp only [bindField, hk, h2, hlab _ _ hx]
  · have key : ∀ fs : List Field, (∀ f ∈ fs, f ∈ c.fields.filter (·.init)) →
        List.Forall₂ (fun p q : Str × Val => p.1 = q.1 ∧ (p.2 = q.2 ∨ p.1 = py "value" ∨ p.1 = py "units"))
          (fs.map fun f => (f.name, bindField d f)) (fs.map fun f => (f.name, bindField d' f)) := by
      intro fs
      induction fs with
      | nil => intro _; exact .nil
      | cons g fs ih =>
        intro hfs
        refine .cons ⟨rfl, ?_⟩ (ih fun g hg => hfs g (List.mem_cons_of_mem _ hg))
        have := hall g (hfs g List.mem_cons_self)
        unfold bindField
        split at this
        · rename_i hkg
          simp only [hkg, h1, h2]
          simp only [Bool.or_eq_true, beq_iff_eq] at this
          rcases this with h | h
          · exact .inl (by rw [hlab _ _ h, hlab _ _ h])
          · exact .inr (.inr h)
        · exact .inr (.inl (by simpa using this))
        · rename_i hkg
          exact .inl (by simp only [hkg, hc, hc'])
    exact key _ fun f hf => hf

theorem xmlifySingle_alike {tag p : Str} {a b : List Line} {d : XDoc} {c : Cls} {v : Val} (hn : namedClassB c p = true)
    (h : List.Forall₂ (Changed D) a b) (hd : xmlifySingle tag a p = .ok d) (hv : bindDoc c d = .ok v) :
    ∃ d' v', xmlifySingle tag b p = .ok d' ∧ bindDoc c d' = .ok v' ∧ Alike D v v' := by
  cases h with
  | nil => cases hd
  | @cons l l' a b hl _ =>
    cases hl with
    | same => exact ⟨d, v, hd, hv, .same v⟩
    | @value k r r' hD hne hc =>
      cases r' with
      | nil => exact absurd rfl hne
      | cons t r' =>
        unfold xmlifySingle at hd ⊢
        obtain ⟨item, hi, hd⟩ := bind_ok_iff.mp hd
        cases hi
        obtain ⟨text, -, hd⟩ := bind_ok_iff.mp hd
        obtain ⟨_, -, hd⟩ := bind_ok_iff.mp hd
        obtain ⟨key, hk, hd⟩ := bind_ok_iff.mp hd
        cases hk
        obtain ⟨_, hck, hd⟩ := bind_ok_iff.mp hd
        have hck : xmlCheck k = .ok () := hck
        have hdd : ∃ as, d.attrs = (p, k) :: as ∧ d.children = [] := by
          split at hd
          · obtain ⟨_, -, hd⟩ := bind_ok_iff.mp hd
            cases hd
            exact ⟨_, rfl, rfl⟩
          · cases hd
            exact ⟨_, rfl, rfl⟩
        obtain ⟨as, h1, h2⟩ := hdd
        have g1 : pyGet ((k :: t :: r') :: b) 0 = .ok (k :: t :: r') := rfl
        have g2 : pyGet (k :: t :: r') 1 = .ok t := rfl
        have g3 : pyGet (k :: t :: r') 0 = .ok k := rfl
        rw [g1]
        simp only [bind, Except.bind, g2, g3, xmlCheck_chars (hc t List.mem_cons_self), hck]
        cases r' with
        | nil =>
          obtain ⟨v', hv', hA⟩ := bindDoc_named (d' := { tag, attrs := [(p, k)], text := t, children := [] }) hn hD h1 rfl h2 rfl hv
          exact ⟨_, v', rfl, hv', hA⟩
        | cons u r' =>
          obtain ⟨v', hv', hA⟩ := bindDoc_named (d' := { tag, attrs := [(p, k), (py "units", u)], text := t, children := [] }) hn hD h1 rfl h2 rfl hv
          refine ⟨_, v', ?_, hv', hA⟩
          have g4 : (k :: t :: u :: r')[2]? = some u := rfl
          simp only [g4, xmlCheck_chars (hc u (by simp)), pure, Except.pure]

/-! ## User-defined parameters -/

/-- Two parameters: the same name, and the same value unless `D` of the keyword. -/
def UserAlike (D : Str → Prop) (x y : XLeaf) : Prop := x.tag = py "USER_DEFINED" ∧ y.tag = py "USER_DEFINED" ∧
  (x = y ∨ ∃ k, D k ∧ x.attrs = [(py "parameter", removeAll (py "USER_DEFINED_") k)] ∧ y.attrs = x.attrs)

theorem xmlifyPrefixItem_alike {l l' : Line} {x : XLeaf} (h : Changed D l l') (hx : xmlifyPrefixItem (py "USER_DEFINED") l = .ok x) :
    ∃ y, xmlifyPrefixItem (py "USER_DEFINED") l' = .ok y ∧ UserAlike D x y := by
  cases h with
  | same =>
    refine ⟨x, hx, ?_, ?_, .inl rfl⟩ <;>
    · unfold xmlifyPrefixItem at hx
      obtain ⟨key, hk, hx⟩ := bind_ok_iff.mp hx
      obtain ⟨_, ht, hx⟩ := bind_ok_iff.mp hx
      obtain ⟨attrs, -, hx⟩ := bind_ok_iff.mp hx
      obtain ⟨_, -, hx⟩ := bind_ok_iff.mp hx
      cases hx
      rfl
  | @value k r r' hD hne hc =>
    unfold xmlifyPrefixItem at hx
    obtain ⟨key, hk, hx⟩ := bind_ok_iff.mp hx
    cases hk
    obtain ⟨_, ht, hx⟩ := bind_ok_iff.mp hx
    obtain ⟨text, -, hx⟩ := bind_ok_iff.mp hx
    obtain ⟨_, -, hx⟩ := bind_ok_iff.mp hx
    cases hx
    cases r' with
    | nil => exact absurd rfl hne
    | cons t r' =>
      refine ⟨⟨py "USER_DEFINED", [(py "parameter", removeAll (py "USER_DEFINED" ++ py "_") k)], t⟩, ?_, rfl, rfl, .inr ⟨k, hD, rfl, rfl⟩⟩
      unfold xmlifyPrefixItem
      have hk : pyGet (k :: t :: r') 0 = .ok k := rfl
      have ht' : pyGet (k :: t :: r') 1 = .ok t := rfl
      have ht : xmlCheck (removeAll (py "USER_DEFINED" ++ py "_") k) = .ok () := ht
      rw [hk, ht']
      simp only [bind, Except.bind, ht, xmlCheck_chars (hc t List.mem_cons_self), pure, Except.pure]

theorem userDefined_fields : ∀ f ∈ Cls.UserDefinedType.fields, f.kind = .elem ∧ (f.xmlName = py "USER_DEFINED" →
    f.ty = .cls .UserDefinedParameterType ∧ f.isList = true) := by decide

theorem bindUser_alike {f : Field} (hf : f.ty = .cls .UserDefinedParameterType) {x y : XLeaf} (h : UserAlike D x y) :
    Alike D (bindLeaf f x) (bindLeaf f y) := by
  obtain ⟨-, -, rfl | ⟨k, hD, h1, h2⟩⟩ := h
  · exact .same _
  · have hb : ∀ x : XLeaf, x.attrs = [(py "parameter", removeAll (py "USER_DEFINED_") k)] → bindLeaf f x = .obj .UserDefinedParameterType
        [(py "value", bindText ⟨py "value", none, .text, .str, false, true⟩ x.text),
         (py "parameter", .str (removeAll (py "USER_DEFINED_") k))] := by
      intro x hx
      unfold bindLeaf
      rw [hf]
      show bindLeafClass .UserDefinedParameterType x = _
      unfold bindLeafClass
      have : (Cls.UserDefinedParameterType.fields.filter (·.init)) =
        [⟨py "value", none, .text, .str, false, true⟩, ⟨py "parameter", none, .attr, .str, false, true⟩] := rfl
      rw [this]
      simp only [List.map_cons, List.map_nil, bindAttr, attrLookup, hx]
      rfl
    rw [hb x h1, hb y (h2.trans h1)]
    refine .named (k := k) (n := py "parameter") hD (.inr (.inr rfl)) (by simp) (by simp) ?_
    exact .cons ⟨rfl, .inr (.inl rfl)⟩ (.cons ⟨rfl, .inl rfl⟩ .nil)

theorem bindDoc_user {d d' : XDoc} {v : Val} (hc : List.Forall₂ (UserAlike D) d.children d'.children)
    (h : bindDoc .UserDefinedType d = .ok v) :
    ∃ vs ws, v = .obj .UserDefinedType vs ∧ bindDoc .UserDefinedType d' = .ok (.obj .UserDefinedType ws) ∧ AlikeVars D .UserDefinedType vs ws := by
  unfold bindDoc at h ⊢
  obtain ⟨_, hch, h⟩ := bind_ok_iff.mp h
  cases h
  rw [← checkChildren_tags _ (hc.imp fun _ _ h => h.1.trans h.2.1.symm)]
  refine ⟨_, (Cls.UserDefinedType.fields.filter (·.init)).map fun f => (f.name, bindField d' f), rfl, ?_, ?_⟩
  · simp only [bind, Except.bind, hch, pure, Except.pure]
  · have key : ∀ fs : List Field, (∀ f ∈ fs, f ∈ Cls.UserDefinedType.fields) →
        AlikeVars D .UserDefinedType (fs.map fun f => (f.name, bindField d f)) (fs.map fun f => (f.name, bindField d' f)) := by
      intro fs
      induction fs with
      | nil => intro _; exact .nil
      | cons f fs ih =>
        intro hfs
        refine .alike ?_ (ih fun g hg => hfs g (List.mem_cons_of_mem _ hg))
        obtain ⟨hk, hu⟩ := userDefined_fields f (hfs f List.mem_cons_self)
        unfold bindField
        rw [hk]
        dsimp only
        by_cases hn : f.xmlName = py "USER_DEFINED"
        · obtain ⟨hty, hl⟩ := hu hn
          rw [if_pos hl, if_pos hl]
          refine .list ?_
          generalize d.children = a at hc
          generalize d'.children = b at hc
          rw [hn]
          induction hc with
          | nil => exact .nil
          | cons hx _ ih =>
            rw [List.filter_cons_of_pos (by simpa using hx.1), List.filter_cons_of_pos (by simpa using hx.2.1)]
            exact .cons (bindUser_alike hty hx) ih
        · have h1 : d.children.filter (·.tag == f.xmlName) = [] := by
            refine List.filter_eq_nil_iff.mpr fun x hx => ?_
            have : x.tag = py "USER_DEFINED" := by
              clear ih hfs hch
              generalize d.children = a at hc hx
              generalize d'.children = b at hc
              induction hc with
              | nil => cases hx
              | cons h _ ih =>
                rcases List.mem_cons.mp hx with rfl | hx
                · exact h.1
                · exact ih hx
            rw [this]
            simpa using fun h => hn h.symm
          have h2 : d'.children.filter (·.tag == f.xmlName) = [] := by
            refine List.filter_eq_nil_iff.mpr fun x hx => ?_
            have : x.tag = py "USER_DEFINED" := by
              clear ih hfs hch h1
              generalize d'.children = b at hc hx
              generalize d.children = a at hc
              induction hc with
              | nil => cases hx
              | cons h _ ih =>
                rcases List.mem_cons.mp hx with rfl | hx
                · exact h.2.1
                · exact ih hx
            rw [this]
            simpa using fun h => hn h.symm
          rw [h1, h2]
          exact .same _
    exact key _ fun f hf => List.mem_of_mem_filter hf

/-! ## Attaching sub-objects -/

/-- Two values of an attribute. -/
def SlotAlike (D : Str → Prop) (c : Cls) (n : Str) (x y : Val) : Prop :=
  Alike D x y ∨ ∃ f ∈ c.fields, f.name = n ∧ D f.xmlName ∧ SameForm x y

theorem AlikeVars.slot {c : Cls} {n : Str} {x y : Val} {vs ws : List (Str × Val)} (h : SlotAlike D c n x y) (hr : AlikeVars D c vs ws) :
    AlikeVars D c ((n, x) :: vs) ((n, y) :: ws) := by
  rcases h with h | ⟨f, hf, rfl, hD, h⟩
  · exact .alike h hr
  · exact .changed hf hD h hr

theorem alike_set {c : Cls} {name : Str} : ∀ {vs ws : List (Str × Val)}, AlikeVars D c vs ws → ∀ {x : Val}, Val.lookupVar name vs = some x →
    ∃ y, Val.lookupVar name ws = some y ∧ SlotAlike D c name x y ∧
      ∀ x' y', SlotAlike D c name x' y' → AlikeVars D c (Val.setVar name x' vs) (Val.setVar name y' ws)
  | [], ws, _, _, hx => by cases hx
  | (n, u) :: vs, [], h, _, _ => by cases h
  | (n, u) :: vs, (m, w) :: ws, h, x, hx => by
    obtain ⟨rfl, hs, hr⟩ : n = m ∧ SlotAlike D c n u w ∧ AlikeVars D c vs ws := by
      cases h with
      | alike h hr => exact ⟨rfl, .inl h, hr⟩
      | changed hf hD h hr => exact ⟨rfl, .inr ⟨_, hf, rfl, hD, h⟩, hr⟩
    unfold Val.lookupVar at hx ⊢
    by_cases hn : n = name
    · subst hn
      rw [List.find?_cons_of_pos (by simp)] at hx ⊢
      cases hx
      refine ⟨w, rfl, hs, fun x' y' h' => ?_⟩
      simp only [Val.setVar, if_true]
      exact .slot h' hr
    · rw [List.find?_cons_of_neg (by simpa using hn)] at hx ⊢
      obtain ⟨y, hy, hxy, hset⟩ := alike_set hr hx
      refine ⟨y, hy, hxy, fun x' y' h' => ?_⟩
      simp only [Val.setVar, if_neg hn]
      exact .slot hs (hset x' y' h')

theorem alikeAll_length {xs ys : List Val} (h : AlikeAll D xs ys) : xs.length = ys.length := by
  induction xs generalizing ys with
  | nil => cases h; rfl
  | cons x xs ih =>
    cases h with
    | cons _ h => simp [ih h]

theorem alikeAll_refl (xs : List Val) : AlikeAll D xs xs := by
  induction xs with
  | nil => exact .nil
  | cons x xs ih => exact .cons (.same x) ih

theorem alikeAll_append {xs ys : List Val} {x y : Val} (h : AlikeAll D xs ys) (hx : Alike D x y) : AlikeAll D (xs ++ [x]) (ys ++ [y]) := by
  induction xs generalizing ys with
  | nil => cases h; exact .cons hx .nil
  | cons a xs ih =>
    cases h with
    | cons h1 h2 => exact .cons h1 (ih h2)

theorem alike_truthy {x y : Val} (h : Alike D x y) : x.truthy = y.truthy := by
  cases h with
  | same => rfl
  | obj => rfl
  | list h =>
    simp only [Val.truthy, List.isEmpty_iff_length_eq_zero, Bool.not_eq_not]
    have := alikeAll_length h
    rename_i xs ys
    cases xs <;> cases ys <;> simp_all
  | named => rfl

theorem attach_alike {c : Cls} {vs ws : List (Str × Val)} {name : Str} {sub sub' r : Val} (h : AlikeVars D c vs ws)
    (hs : Alike D sub sub') (hr : attach (.obj c vs) name sub = .ok r) :
    ∃ vs' ws', r = .obj c vs' ∧ attach (.obj c ws) name sub' = .ok (.obj c ws') ∧ AlikeVars D c vs' ws' := by
  unfold attach at hr
  simp only at hr
  cases hl : Val.lookupVar name vs with
  | none => rw [hl] at hr; cases hr
  | some x =>
    obtain ⟨y, hy, hxy, hset⟩ := alike_set h hl
    rw [hl] at hr
    unfold attach
    simp only [hy]
    by_cases hlist : ∃ xs, x = .list xs
    · obtain ⟨xs, rfl⟩ := hlist
      obtain ⟨ys, rfl, happ⟩ : ∃ ys, y = .list ys ∧ SlotAlike D c name (.list (xs ++ [sub])) (.list (ys ++ [sub'])) := by
        rcases hxy with hxy | ⟨f, hf, hn, hD, hform⟩
        · cases hxy with
          | same => exact ⟨xs, rfl, .inl (.list (alikeAll_append (alikeAll_refl xs) hs))⟩
          | list h => exact ⟨_, rfl, .inl (.list (alikeAll_append h hs))⟩
        · cases y with
          | list ys =>
            refine ⟨ys, rfl, .inr ⟨f, hf, hn, hD, ?_⟩⟩
            simp only [SameForm, List.length_append, List.length_singleton] at hform ⊢
            omega
          | _ => cases hform
      simp only at hr ⊢
      rw [← alike_truthy hs]
      split at hr
      · cases hr
        rename_i ht
        exact ⟨_, _, rfl, by rw [if_pos ht], hset _ _ happ⟩
      · cases hr
        rename_i ht
        exact ⟨_, _, rfl, by rw [if_neg ht], h⟩
    · have hy' : ∀ ys, y ≠ .list ys := by
        rintro ys rfl
        rcases hxy with hxy | ⟨f, hf, hn, hD, hform⟩
        · cases hxy with
          | same => exact hlist ⟨_, rfl⟩
          | list h => exact hlist ⟨_, rfl⟩
        · cases x with
          | list xs => exact hlist ⟨_, rfl⟩
          | none => cases hform
          | _ => cases hform
      have hnew := hset sub sub' (.inl hs)
      have hr' : r = .obj c (Val.setVar name sub vs) := by
        split at hr
        · rename_i h; cases h
        · rename_i xs h; cases h; exact absurd ⟨_, rfl⟩ hlist
        · cases hr; rfl
      refine ⟨_, _, hr', ?_, hnew⟩
      split
      · rename_i h; cases h
      · rename_i ys h; cases h; exact absurd rfl (hy' _)
      · rfl

theorem fold_alike {c : Cls} {g g' : Elem → Except PyErr Val} : ∀ (subs : List Elem),
    (∀ s ∈ subs, ∀ v, g s = .ok v → ∃ v', g' s = .ok v' ∧ Alike D v v') → ∀ {vs ws : List (Str × Val)} {r : Val}, AlikeVars D c vs ws →
    subs.foldlM (fun o s => do let sub ← g s; attach o s.name sub) (.obj c vs) = .ok r →
    ∃ vs' ws', r = .obj c vs' ∧ subs.foldlM (fun o s => do let sub ← g' s; attach o s.name sub) (.obj c ws) = .ok (.obj c ws') ∧
      AlikeVars D c vs' ws'
  | [], _, vs, ws, r, h, hr => by
    cases hr
    exact ⟨vs, ws, rfl, rfl, h⟩
  | s :: subs, hg, vs, ws, r, h, hr => by
    rw [List.foldlM_cons] at hr
    obtain ⟨o, ho, hr⟩ := bind_ok_iff.mp hr
    obtain ⟨sub, hsub, ho⟩ := bind_ok_iff.mp ho
    obtain ⟨sub', hsub', hA⟩ := hg s List.mem_cons_self sub hsub
    obtain ⟨vs1, ws1, rfl, h1, h2⟩ := attach_alike h hA ho
    obtain ⟨vs2, ws2, rfl, h3, h4⟩ := fold_alike subs (fun t ht => hg t (List.mem_cons_of_mem _ ht)) h2 hr
    refine ⟨vs2, ws2, rfl, ?_, h4⟩
    rw [List.foldlM_cons]
    simp only [hsub', bind, Except.bind, h1]
    exact h3

/-! ## Sections -/

theorem changed_refl (a : List Line) : List.Forall₂ (Changed D) a a := List.forall₂_same.mpr fun l _ => .same l

theorem changed_filter {a b : List Line} (h : List.Forall₂ (Changed D) a b) (p : Str → Bool) :
    List.Forall₂ (Changed D) (a.filter fun l => p (l.headD [])) (b.filter fun l => p (l.headD [])) := by
  induction h with
  | nil => exact .nil
  | @cons l l' _ _ h _ ih =>
    simp only [List.filter_cons, ← h.headD]
    split
    · exact .cons h ih
    · exact ih

theorem changed_nil {a b : List Line} (h : List.Forall₂ (Changed D) a b) : a = [] ↔ b = [] := by cases h <;> simp

theorem xmlifyRoot_alike {tag : Str} {a b : List Line} {d : XDoc} (h : List.Forall₂ (Changed D) a b) (hd : xmlifyRoot tag a = .ok d) :
    ∃ d', xmlifyRoot tag b = .ok d' ∧ AttrsAlike D d.attrs d'.attrs ∧ d.text = d'.text ∧ List.Forall₂ (LeafAlike D) d.children d'.children := by
  unfold xmlifyRoot at hd ⊢
  obtain ⟨as, has, hd⟩ := bind_ok_iff.mp hd
  cases hd
  obtain ⟨as', has', hS⟩ := mapM_forall₂ (S := fun p q : Str × Str => p.1 = q.1 ∧ (p = q ∨ D p.1)) h (by
    intro l l' z hl hz
    cases hl with
    | same => exact ⟨z, hz, rfl, .inl rfl⟩
    | @value k r r' hD hne hc =>
      obtain ⟨_, -, hz⟩ := bind_ok_iff.mp hz
      obtain ⟨_, -, hz⟩ := bind_ok_iff.mp hz
      obtain ⟨key, hk, hz⟩ := bind_ok_iff.mp hz
      cases hk
      cases hz
      cases r' with
      | nil => exact absurd rfl hne
      | cons t r' =>
        have hk : pyGet (k :: t :: r') 0 = .ok k := rfl
        have ht' : pyGet (k :: t :: r') 1 = .ok t := rfl
        refine ⟨(k, t), ?_, rfl, .inr hD⟩
        simp only [hk, ht', bind, Except.bind, xmlCheck_chars (hc t List.mem_cons_self), pure, Except.pure]) has
  exact ⟨⟨tag, as', [], []⟩, by rw [has']; rfl, hS, rfl, .nil⟩

/-- What is bound to the documents of a section: objects that are alike, with attributes that are alike if there are
sub-objects to attach. -/
def BindsAlike (D : Str → Prop) (e : Elem) (d d' : XDoc) : Prop := ∀ v, bindDoc e.cls d = .ok v →
  (∃ vs ws, v = .obj e.cls vs ∧ bindDoc e.cls d' = .ok (.obj e.cls ws) ∧ AlikeVars D e.cls vs ws) ∨
  (e.subs = [] ∧ e.single.isSome = true ∧ ∃ v', bindDoc e.cls d' = .ok v' ∧ Alike D v v')

theorem attrs_refl {a b : List (Str × Str)} (h : a = b) : AttrsAlike D a b := by
  subst h
  exact List.forall₂_same.mpr fun p _ => ⟨rfl, .inl rfl⟩

theorem plainDoc_alike {obs : Bool} {e : Elem} (he : e.steady obs = true) {loc loc' : List Line} {x : Option XDoc} (h : List.Forall₂ (Changed D) loc loc')
    (hx : plainDoc e loc = .ok x) (hok : ∀ d, x = some d → ∃ v, bindDoc e.cls d = .ok v) :
    ∃ x', plainDoc e loc' = .ok x' ∧
      (x = none ∧ x' = none ∨ ∃ d d', x = some d ∧ x' = some d' ∧ BindsAlike D e d d') := by
  unfold plainDoc at hx ⊢
  simp only at hx ⊢
  have hf : List.Forall₂ (Changed D) (if (prefixOf e.cls).isSome = true then loc else loc.filter (fun l => e.kw.contains (l.headD [])))
      (if (prefixOf e.cls).isSome = true then loc' else loc'.filter (fun l => e.kw.contains (l.headD []))) := by
    split
    · exact h
    · exact changed_filter h _
  generalize (if (prefixOf e.cls).isSome = true then loc else loc.filter (fun l => e.kw.contains (l.headD []))) = a at hx hf
  generalize (if (prefixOf e.cls).isSome = true then loc' else loc'.filter (fun l => e.kw.contains (l.headD []))) = b at hf
  have hnil : _ ↔ _ := changed_nil hf
  split at hx
  · rename_i hn
    cases hx
    exact ⟨none, by rw [if_pos ⟨hnil.mp hn.1, hn.2⟩], .inl ⟨rfl, rfl⟩⟩
  · rename_i hn
    rw [if_neg fun h => hn ⟨hnil.mpr h.1, h.2⟩]
    split at hx
    · rename_i hkw
      rw [if_pos hkw]
      obtain ⟨d, hd, rfl⟩ := map_ok_iff.mp hx
      obtain ⟨d', hd', h1, h2, h3⟩ := xmlifyRoot_alike hf hd
      exact ⟨some d', by rw [hd']; rfl, .inr ⟨d, d', rfl, rfl, fun v hv => .inl (bindDoc_alike h1 h2 h3 hv)⟩⟩
    · rename_i hkw
      rw [if_neg hkw]
      split at hx
      · rename_i p hp
        obtain ⟨d, hd, rfl⟩ := map_ok_iff.mp hx
        obtain ⟨hs, hnc⟩ := (steady_iff.mp he).2.1 p hp
        obtain ⟨v, hv⟩ := hok d rfl
        obtain ⟨d', v', hd', hv', hA⟩ := xmlifySingle_alike hnc hf hd hv
        refine ⟨some d', by rw [hd']; rfl, .inr ⟨d, d', rfl, rfl, fun w hw => .inr ⟨hs, by rw [hp]; rfl, v', hv', ?_⟩⟩⟩
        rw [hv] at hw
        cases hw
        exact hA
      · obtain ⟨d, hd, rfl⟩ := map_ok_iff.mp hx
        cases hpn : prefixOf e.cls with
        | none =>
          rw [hpn] at hd
          obtain ⟨d', hd', h1, h2, h3⟩ := xmlifyList_alike hf hd
          exact ⟨some d', by rw [hd']; rfl, .inr ⟨d, d', rfl, rfl, fun v hv => .inl (bindDoc_alike (attrs_refl h1) h2 h3 hv)⟩⟩
        | some p =>
          obtain ⟨hcls, rfl⟩ : e.cls = .UserDefinedType ∧ p = py "USER_DEFINED" := by
            unfold prefixOf at hpn
            split at hpn
            · rename_i hc; cases hpn; exact ⟨hc, rfl⟩
            · cases hpn
          rw [hpn] at hd
          unfold xmlifyList at hd ⊢
          obtain ⟨cs, hcs, hd⟩ := bind_ok_iff.mp hd
          cases hd
          obtain ⟨cs', hcs', hS⟩ := mapM_forall₂ (S := UserAlike D) hf (fun _ _ _ hR hx => xmlifyPrefixItem_alike hR hx) hcs
          have hcs' : b.mapM (xmlifyChild (some (py "USER_DEFINED"))) = .ok cs' := hcs'
          refine ⟨some ⟨e.name, [], [], cs'⟩, by rw [hcs']; rfl, .inr ⟨_, _, rfl, rfl, fun v hv => .inl ?_⟩⟩
          unfold BindsAlike at *
          rw [hcls] at hv ⊢
          exact bindDoc_user hS hv

/-- The value of a keyword that does not change. -/
theorem metaValue_changed {keys : List Str} {lines lines' : List Line} (hk : keys = keysOf lines)
    (h : List.Forall₂ (Changed D) lines lines') {key : Str} (hD : ¬ D key) (start : Nat) :
    metaValue key keys lines start = metaValue key keys lines' start := by
  unfold metaValue
  split
  · rfl
  · rename_i i hi
    have hki := (findFrom_some hi).2.2.1
    rw [hk] at hki
    unfold keysOf at hki
    rw [List.getElem?_map] at hki
    have : lines[i]? = lines'[i]? := by
      clear hk hi
      induction h generalizing i with
      | nil => rfl
      | @cons l l' _ _ h _ ih =>
        cases i with
        | zero =>
          simp only [List.getElem?_cons_zero, Option.map_some, Option.some.injEq] at hki ⊢
          cases h with
          | same => rfl
          | value hD' => exact absurd (hki ▸ hD') hD
        | succ i => simpa using ih i (by simpa using hki)
    unfold pyGet
    rw [this]

theorem prepare_changed {keys : List Str} {lines lines' : List Line} (hk : keys = keysOf lines)
    (h : List.Forall₂ (Changed D) lines lines')
    (hD : ∀ k ∈ [py "ATTITUDE_TYPE", py "QUATERNION_TYPE", py "EULER_ROT_SEQ"], ¬ D k) (e : Elem) (start : Nat) :
    prepareAemSegment keys lines e start = prepareAemSegment keys lines' e start := by
  have h1 := metaValue_changed hk h (hD (py "ATTITUDE_TYPE") (by simp)) start
  have h2 := metaValue_changed hk h (hD (py "QUATERNION_TYPE") (by simp)) start
  have h3 := metaValue_changed hk h (hD (py "EULER_ROT_SEQ") (by simp)) start
  unfold prepareAemSegment attTemplate quaternionPart eulerPart
  simp only [h1, h2, h3]

theorem take_drop_changed {a b : List Line} (h : List.Forall₂ (Changed D) a b) (lo n : Nat) :
    List.Forall₂ (Changed D) ((a.drop lo).take n) ((b.drop lo).take n) := List.forall₂_take n (List.forall₂_drop lo h)

theorem covariance_changed {kw : List Str} {a b : List Line} (h : List.Forall₂ (Changed D) a b) :
    List.Forall₂ (Changed D) (covarianceLines kw a) (covarianceLines kw b) := by
  unfold covarianceLines
  have h1 := changed_filter h (fun k => isAlpha k)
  have h2 : (a.filter fun l => !isAlpha (l.headD [])).flatMap (fun l => words (l.headD [])) =
      (b.filter fun l => !isAlpha (l.headD [])).flatMap fun l => words (l.headD []) := by
    have := changed_filter h (fun k => !isAlpha k)
    generalize (a.filter fun l => !isAlpha (l.headD [])) = a' at this
    generalize (b.filter fun l => !isAlpha (l.headD [])) = b' at this
    induction this with
    | nil => rfl
    | cons h _ ih => simp only [List.flatMap_cons, ih, h.headD]
  simp only [h2]
  exact List.rel_append h1 (changed_refl _)

theorem sectionDoc_alike {keys : List Str} {lines lines' : List Line} (hk : keys = keysOf lines)
    (h : List.Forall₂ (Changed D) lines lines') {obs : Bool} {e : Elem} (he : e.steady obs = true)
    (hD : e.freeB = true ∨ ∀ k ∈ [py "ATTITUDE_TYPE", py "QUATERNION_TYPE", py "EULER_ROT_SEQ"], ¬ D k)
    {loc loc' : List Line} {hi : Nat} {x : Option (XDoc × List Elem)} (hloc : List.Forall₂ (Changed D) loc loc')
    (hobs : e.cls = .TrackingDataObservationType → loc = loc')
    (hx : sectionDoc keys lines e loc hi = .ok x) (hok : ∀ d subs, x = some (d, subs) → ∃ v, bindDoc e.cls d = .ok v) :
    ∃ x', sectionDoc keys lines' e loc' hi = .ok x' ∧ (x = none ∧ x' = none ∨
      ∃ d d' subs, x = some (d, subs) ∧ x' = some (d', subs) ∧ (e.cls ≠ .AemSegment → subs = e.subs) ∧ BindsAlike D e d d') := by
  unfold sectionDoc at hx ⊢
  split at hx
  · rename_i hc
    rw [if_pos hc]
    obtain ⟨subs, hs, hx⟩ := bind_ok_iff.mp hx
    obtain ⟨d, hd, hx⟩ := bind_ok_iff.mp hx
    cases hx
    obtain ⟨d', hd', h1, h2, h3⟩ := xmlifyList_alike hloc hd
    have hD' := hD.resolve_left fun hf => (freeB_iff.mp hf).1 hc
    refine ⟨some (d', subs), ?_, .inr ⟨d, d', subs, rfl, rfl, fun h => absurd hc h, fun v hv => .inl (bindDoc_alike (attrs_refl h1) h2 h3 hv)⟩⟩
    rw [← prepare_changed hk h hD', hs]
    simp only [bind, Except.bind, hd', pure, Except.pure]
  · rename_i hc
    rw [if_neg hc]
    split at hx
    · rename_i hc
      rw [if_pos hc]
      refine ⟨x, ?_, ?_⟩
      · rw [← hx]
        have := (changed_heads hloc).get 0 (fun s => .ok (zipLines e.kw (words s)))
        have hsv : stateVectorLines e.kw loc = stateVectorLines e.kw loc' := this
        rw [hsv]
      · obtain ⟨ls, -, hx⟩ := bind_ok_iff.mp hx
        obtain ⟨d, hd, hx⟩ := bind_ok_iff.mp hx
        cases hx
        obtain ⟨d', hd', h1, h2, h3⟩ := xmlifyList_alike (D := D) (changed_refl ls) hd
        rw [hd] at hd'
        cases hd'
        exact .inr ⟨d, d, _, rfl, rfl, fun _ => rfl, fun v hv => .inl (bindDoc_alike (attrs_refl h1) h2 h3 hv)⟩
    · rename_i hc
      rw [if_neg hc]
      split at hx
      · rename_i hc
        rw [if_pos hc]
        obtain ⟨d, hd, hx⟩ := bind_ok_iff.mp hx
        cases hx
        obtain ⟨d', hd', h1, h2, h3⟩ := xmlifyList_alike (covariance_changed hloc) hd
        refine ⟨some (d', e.subs), ?_, .inr ⟨d, d', _, rfl, rfl, fun _ => rfl, fun v hv => .inl (bindDoc_alike (attrs_refl h1) h2 h3 hv)⟩⟩
        simp only [bind, Except.bind, hd', pure, Except.pure]
      · rename_i hc
        rw [if_neg hc]
        by_cases hto : e.cls = .TrackingDataObservationType
        · rw [if_pos hto] at hx ⊢
          rw [← hobs hto]
          refine ⟨x, hx, ?_⟩
          obtain ⟨ls, -, hx⟩ := bind_ok_iff.mp hx
          obtain ⟨d, hd, hx⟩ := bind_ok_iff.mp hx
          cases hx
          obtain ⟨d', hd', h1, h2, h3⟩ := xmlifyList_alike (D := D) (changed_refl ls) hd
          rw [hd] at hd'
          cases hd'
          exact .inr ⟨d, d, _, rfl, rfl, fun _ => rfl, fun v hv => .inl (bindDoc_alike (attrs_refl h1) h2 h3 hv)⟩
        rw [if_neg hto] at hx ⊢
        obtain ⟨y, hy, hx⟩ := bind_ok_iff.mp hx
        cases hx
        obtain ⟨y', hy', hh⟩ := plainDoc_alike he hloc hy (by
          rintro d rfl
          exact hok d e.subs rfl)
        refine ⟨y'.map fun d => (d, e.subs), ?_, ?_⟩
        · simp only [bind, Except.bind, hy', pure, Except.pure]
        · rcases hh with ⟨rfl, rfl⟩ | ⟨d, d', rfl, rfl, hB⟩
          · exact .inl ⟨rfl, rfl⟩
          · exact .inr ⟨d, d', e.subs, rfl, rfl, fun _ => rfl, hB⟩

/-- The ranges of observations, in lines that are the same before and after. -/
def SameObs (full full' : List Line) (c : Cls) (mm : Nat × Nat) : Prop := c = .TrackingDataObservationType →
  mm.1 = mm.2 ∨ mm.2 = mm.1 + 1 ∧ full[mm.1]? = full'[mm.1]?

theorem SameObs.same {full full' : List Line} {lo hi : Nat} {c : Cls} (h : SameObs full full' c (lo, hi))
    (hc : c = .TrackingDataObservationType) : (full.drop lo).take (hi - lo) = (full'.drop lo).take (hi - lo) := by
  rcases h hc with h | ⟨h1, h2⟩
  · have : hi - lo = 0 := by simp only at h; omega
    rw [this, List.take_zero, List.take_zero]
  · have : hi - lo = 1 := by simp only at h1; omega
    rw [this, List.take_one, List.take_one, List.head?_drop, List.head?_drop]
    rw [h2]

/-- The whole tree: see `steady`. -/
theorem build_alike {obs : Bool} {Q : Cls → List Str → List Elem → Prop}
    (hmono : ∀ c kw subs subs', Q c kw subs → (subs = [] → subs' = []) → Q c kw subs') {keys : List Str} {lines lines' : List Line} (hk : keys = keysOf lines) (h : List.Forall₂ (Changed D) lines lines') :
    ∀ (fuel : Nat) (e : Elem) (full full' : List Line) (v : Val), e.steady obs = true → RTree Q (SameObs full full') e →
      (e.freeB = true ∨ ∀ k ∈ [py "ATTITUDE_TYPE", py "QUATERNION_TYPE", py "EULER_ROT_SEQ"], ¬ D k) → List.Forall₂ (Changed D) full full' →
      build keys lines fuel e full = .ok v → ∃ v', build keys lines' fuel e full' = .ok v' ∧ Alike D v v'
  | 0, _, _, _, _, _, _, _, _, hb => by cases hb
  | fuel + 1, e, full, full', v, he, hT, hD, hf, hb => by
    obtain ⟨h1, h2, h3, h4⟩ := steady_iff.mp he
    unfold build at hb ⊢
    split at hb
    · cases hb
    · rename_i lo hi hmm
      simp only [hmm] at hb ⊢
      have hloc := take_drop_changed hf lo (hi - lo)
      have hobs : e.cls = .TrackingDataObservationType → (full.drop lo).take (hi - lo) = (full'.drop lo).take (hi - lo) := by
        cases hT with
        | mk _ hg _ => exact (hg _ hmm).same
      generalize (full.drop lo).take (hi - lo) = loc at hb hloc hobs
      generalize (full'.drop lo).take (hi - lo) = loc' at hloc hobs
      have hnil : _ ↔ _ := changed_nil hloc
      split at hb
      · rename_i hn
        cases hb
        exact ⟨.none, by rw [if_pos ⟨hnil.mp hn.1, hn.2⟩], .same _⟩
      · rename_i hn
        rw [if_neg fun h => hn ⟨hnil.mpr h.1, h.2⟩]
        split at hb
        · rename_i hcls
          rw [if_pos hcls]
          refine ⟨v, ?_, .same v⟩
          rw [← hb]
          obtain ⟨tm, htm, hb⟩ := bind_ok_iff.mp hb
          simp only [htm, bind, Except.bind]
          obtain ⟨l, hl, hb⟩ := bind_ok_iff.mp hb
          obtain ⟨s, hs, hb⟩ := bind_ok_iff.mp hb
          cases hloc with
          | nil => cases hl
          | @cons l0 l' _ _ hll _ =>
            cases hl
            have hs' : pyGet l' 0 = .ok s := by
              unfold pyGet at hs ⊢
              rw [← List.head?_eq_getElem?] at hs ⊢
              rw [← hll.head]
              exact hs
            have g1 : ∀ (l : Line) r, pyGet (l :: r) 0 = .ok l := fun _ _ => rfl
            simp only [g1, hs, hs']
            cases hid : identElem tm (zipLines tm (words s)) e 0 with
            | error => rfl
            | ok r =>
              obtain ⟨mx, mm, e'⟩ := r
              have hi := identElem_inst e 0 mx mm e' hid
              dsimp only
              cases hs0 : pyGet e'.subs 0 with
              | error => rfl
              | ok s0 =>
                dsimp only
                have hfree : s0.freeB = true := by
                  obtain ⟨t, ht, hti⟩ := hi.sub (pyGet_mem hs0)
                  exact freeB_inst hti (h3 hcls t ht)
                rw [build_free keys keys lines lines' fuel s0 _ (freeN_of_b fuel hfree)]
        · rename_i hcls
          rw [if_neg hcls]
          obtain ⟨x, hx, hb⟩ := bind_ok_iff.mp hb
          obtain ⟨x', hx', hh⟩ := sectionDoc_alike hk h he hD hloc hobs hx (by
            rintro d subs rfl
            obtain ⟨o, ho, -⟩ := bind_ok_iff.mp hb
            exact ⟨o, ho⟩)
          simp only [hx', bind, Except.bind]
          rcases hh with ⟨rfl, rfl⟩ | ⟨d, d', subs, rfl, rfl, hsubs, hB⟩
          · cases hb
            exact ⟨.none, rfl, .same _⟩
          · obtain ⟨o, ho, hb⟩ := bind_ok_iff.mp hb
            have hrec : ∀ s ∈ subs, ∀ v, build keys lines fuel s full = .ok v → ∃ v', build keys lines' fuel s full' = .ok v' ∧ Alike D v v' := by
              intro s hs v hv
              by_cases hcs : e.cls = .AemSegment
              · have hst : s.steady obs = true ∧ RTree Q (SameObs full full') s := by
                  unfold sectionDoc at hx
                  rw [if_pos hcs] at hx
                  obtain ⟨subs', hp, hx⟩ := bind_ok_iff.mp hx
                  obtain ⟨_, -, hx⟩ := bind_ok_iff.mp hx
                  cases hx
                  exact ⟨prepare_steady he hp s hs, prepare_tree hmono hT hp s hs⟩
                exact build_alike hmono hk h fuel s full full' v hst.1 hst.2
                  (.inr (hD.resolve_left fun hf => (freeB_iff.mp hf).1 hcs)) hf hv
              · rw [hsubs hcs] at hs
                refine build_alike hmono hk h fuel s full full' v (h4 s hs) ?_
                  (hD.imp (fun hf => (freeB_iff.mp hf).2.2 s hs) id) hf hv
                cases hT with
                | mk _ _ hT => exact hT s hs
            rcases hB o ho with ⟨vs, ws, rfl, ho', hV⟩ | ⟨hs, hsi, w, hw, hA⟩
            · simp only [ho']
              obtain ⟨vs', ws', rfl, hr, hV'⟩ := fold_alike subs hrec hV hb
              exact ⟨_, hr, .obj hV'⟩
            · have hcs : e.cls ≠ .AemSegment := by
                intro hcs
                obtain ⟨p, hp⟩ := Option.isSome_iff_exists.mp hsi
                have := (h2 p hp).2
                rw [hcs] at this
                have hany := (Bool.and_eq_true_iff.mp this).2
                obtain ⟨f, hf, hk⟩ := List.any_eq_true.mp hany
                have hno : ∀ f ∈ Cls.AemSegment.fields, f.kind ≠ .attr := by decide
                simp [hno f (List.mem_of_mem_filter hf)] at hk
              have hs0 : subs = [] := by rw [hsubs hcs, hs]
              subst hs0
              cases hb
              simp only [hw]
              exact ⟨w, rfl, hA⟩

end Ndm
