import Verif.Lemmas.Change
import Verif.Lemmas.WritableRead
import Verif.Props.Conform
import Verif.Props.Provenance

/-! Changed values, from the text to the object. -/

namespace Ndm

theorem steady_kinds : ∀ c ∈ kvnTypes, (objectMap c).steady (c == .Tdm) = true := by decide +kernel

theorem obs_kinds : ∀ c ∈ kvnTypes, treeB (fun d _ => c == .Tdm || d != .TrackingDataObservationType) (objectMap c) = true := by
  decide +kernel

theorem free_kinds : ∀ c ∈ kvnTypes, c ≠ .Aem → (objectMap c).freeB = true := by decide +kernel

theorem preprocess_lines {t : Str} {ls cs : List Str} {L : List Line} (h1 : TextLines t ls) (h2 : SigLines ls cs)
    (h3 : List.Forall₂ LineItems cs L) : (splitChar '\n' t).filterMap parseLine = L := by
  rw [splitChar_textLines h1, filterMap_sigLines h2, lineItems_filterMap (sigLines_cores h2) h3]

/-- The kind of message a text is read as. -/
theorem kind_of_read {t : Str} {c : Cls} {vs : List (Str × Val)} (hv : kvnFromString t = .ok (.obj c vs)) :
    ∃ lines, preprocess t = .ok lines ∧ identifyDataType lines = .ok c ∧ c ∈ kvnTypes := by
  obtain ⟨lines, c', hl, hc, hmem, hty⟩ := kvnFromString_type hv
  have hm : c'.members = none := by simpa using List.all_eq_true.mp message_dataclasses c' hmem
  cases hty
  exact ⟨lines, hl, hc, hmem⟩

/-- Lines before and after the change. -/
def ChangedIn (D : Str → Prop) (obs : Bool) (l l' : Line) : Prop :=
  Changed D l l' ∧ (obs = true → l = l' ∨ Undated l ∧ Undated l')

theorem undated_date {l : Line} (h : Undated l) : dateOf l = .ok false := by
  obtain ⟨k, v, r, w, ws, rfl, hw, h⟩ := h
  have hb : isDateStr w = .ok false := by
    unfold isDateStr
    rcases h with h | ⟨c, h, hne⟩
    · rw [h]; rfl
    · cases isNumeric (w.take 4)
      · rfl
      · simp [pyGet, h, bind, Except.bind, pure, Except.pure, hne]
  have h1 : pyGet (k :: v :: r) 1 = .ok v := rfl
  have h2 : pyGet (words v) 0 = .ok w := by rw [hw]; rfl
  simp only [dateOf, h1, h2, hb, bind, Except.bind]

theorem changedIn_filter {D : Str → Prop} {obs : Bool} {a b : List Line} (h : List.Forall₂ (ChangedIn D obs) a b) (p : Str → Bool) :
    List.Forall₂ (ChangedIn D obs) (a.filter fun l => p (l.headD [])) (b.filter fun l => p (l.headD [])) := by
  induction h with
  | nil => exact .nil
  | @cons l l' _ _ h _ ih =>
    simp only [List.filter_cons, ← h.1.headD]
    split
    · exact .cons h ih
    · exact ih

theorem changedIn_dates {D : Str → Prop} {a b : List Line} (h : List.Forall₂ (ChangedIn D true) a b) : SameDates a b :=
  h.imp fun l l' h => by
    rcases h.2 rfl with rfl | ⟨h1, h2⟩
    · rfl
    · rw [undated_date h1, undated_date h2]

theorem changedIn_get {D : Str → Prop} {a b : List Line} (h : List.Forall₂ (ChangedIn D true) a b) : ∀ {i : Nat} {l : Line},
    a[i]? = some l → dateOf l = .ok true → b[i]? = some l := by
  induction h with
  | nil => intro i l hl; cases hl
  | @cons x y _ _ h _ ih =>
    intro i l hl hd
    cases i with
    | zero =>
      cases hl
      rcases h.2 rfl with h | ⟨h1, -⟩
      · rw [← h]; rfl
      · rw [undated_date h1] at hd; cases hd
    | succ i => exact ih hl hd

theorem kvnFromString_alike {D : Str → Prop} {t t' : Str} {c : Cls} (h : LineByLine (ChangedIn D (c == .Tdm)) t t') {vs : List (Str × Val)}
    (hv : kvnFromString t = .ok (.obj c vs))
    (ha : c = .Aem → ∀ k ∈ [py "ATTITUDE_TYPE", py "QUATERNION_TYPE", py "EULER_ROT_SEQ"], ¬ D k) :
    ∃ v', kvnFromString t' = .ok v' ∧ Alike D (.obj c vs) v' := by
  obtain ⟨ls, cs, ls', cs', first, rest, rest', h1, h2, h3, h1', h2', h3', hR⟩ := h
  obtain ⟨lines, hl, hc, hmem⟩ := kind_of_read hv
  have hp := preprocess_lines h1 h2 h3
  have hp' := preprocess_lines h1' h2' h3'
  have hsame : ∀ l, ChangedIn D (c == .Tdm) l l := fun l => ⟨.same l, fun _ => .inl rfl⟩
  obtain ⟨lines', hl', hLL, hc'⟩ : ∃ lines', preprocess t' = .ok lines' ∧ List.Forall₂ (ChangedIn D (c == .Tdm)) lines lines' ∧
      identifyDataType lines' = .ok c := by
    unfold preprocess at hl ⊢
    rw [hp] at hl
    rw [hp']
    dsimp only at hl ⊢
    obtain ⟨key, hk, hl⟩ := bind_ok_iff.mp hl
    cases hl
    refine ⟨[py "id", key] :: (py "version" :: first.drop 1) :: rest', by rw [hk]; rfl, .cons (hsame _) (.cons (hsame _) hR), ?_⟩
    exact hc
  unfold kvnFromString at hv ⊢
  simp only [hl, hl', hc, hc', bind, Except.bind] at hv ⊢
  have hE : List.Forall₂ (ChangedIn D (c == .Tdm)) (deleteMarkers c lines) (deleteMarkers c lines') :=
    changedIn_filter hLL fun k => !(deletedKeywords c).contains k
  generalize deleteMarkers c lines = a at hv hE
  generalize deleteMarkers c lines' = b at hE
  have hD : List.Forall₂ (Changed D) a b := hE.imp fun _ _ h => h.1
  have hs := steady_kinds c hmem
  have hdates : (c == .Tdm) = true → SameDates a b := fun h => changedIn_dates (h ▸ hE)
  rw [← (changed_heads hD).keys, ← identElem_heads (keysOf a) (changed_heads hD) hdates _ _ hs]
  cases hid : identElem (keysOf a) a (objectMap c) 0 with
  | error e => rw [hid] at hv; cases hv
  | ok r =>
    obtain ⟨mx, mm, tree⟩ := r
    rw [hid] at hv
    have hi : Inst (objectMap c) { tree with minMax := some mm } := (identElem_inst _ _ _ _ _ hid).setRange _ _
    have hmono : ∀ (d : Cls) (kw : List Str) (subs subs' : List Elem), (c == .Tdm || d != .TrackingDataObservationType) = true → (subs = [] → subs' = []) →
        (c == .Tdm || d != .TrackingDataObservationType) = true := fun _ _ _ _ h _ => h
    obtain ⟨-, hq, hg, hsub⟩ := identElem_tree (Q := fun d _ _ => (c == .Tdm || d != .TrackingDataObservationType) = true)
      (G := SameObs a b) hmono (by
        intro e init mm kw hq hr
        refine ⟨hq, fun ho => ?_⟩
        rw [rootRange_obs ho] at hr
        obtain ⟨l, hl, hr⟩ := bind_ok_iff.mp hr
        obtain ⟨d, hd, hr⟩ := bind_ok_iff.mp hr
        cases d with
        | false => cases hr; exact .inl rfl
        | true =>
          cases hr
          have htd : (c == .Tdm) = true := by simpa [ho] using hq
          have hla := pyGet_ok_iff.mp hl
          exact .inr ⟨rfl, hla.trans (changedIn_get (htd ▸ hE) hla hd).symm⟩) _ _ _ _ _ (tree_of_b _ (obs_kinds c hmem)) hid
    have hT : RTree (fun d _ _ => (c == .Tdm || d != .TrackingDataObservationType) = true) (SameObs a b) { tree with minMax := some mm } := by
      refine .mk hq ?_ hsub
      intro mm' he
      cases he
      exact hg
    refine build_alike hmono rfl hD buildFuel _ _ _ _ (steady_inst hi hs) hT ?_ hD hv
    by_cases hA : c = .Aem
    · exact .inr (ha hA)
    · exact .inl (freeB_inst hi (free_kinds c hmem hA))

theorem LineByLine.mono {R R' : List Str → List Str → Prop} (hR : ∀ l l', R l l' → R' l l') {t t' : Str} (h : LineByLine R t t') :
    LineByLine R' t t' := by
  obtain ⟨ls, cs, ls', cs', first, rest, rest', h1, h2, h3, h1', h2', h3', h⟩ := h
  exact ⟨ls, cs, ls', cs', first, rest, rest', h1, h2, h3, h1', h2', h3', h.imp hR⟩

/-- Which lines a text has can be computed. -/
theorem lineByLine_of_lines {R : List Str → List Str → Prop} {t t' : Str} {first : Line} {rest rest' : List Line}
    (h : (splitChar '\n' t).filterMap parseLine = first :: rest) (h' : (splitChar '\n' t').filterMap parseLine = first :: rest')
    (hR : List.Forall₂ R rest rest') : LineByLine R t t' := by
  obtain ⟨ls, cs, L, h1, h2, h3⟩ := C37_lines t
  obtain ⟨ls', cs', L', h1', h2', h3'⟩ := C37_lines t'
  have := preprocess_lines h1 h2 h3
  rw [h] at this
  subst this
  have := preprocess_lines h1' h2' h3'
  rw [h'] at this
  subst this
  exact ⟨ls, cs, ls', cs', first, rest, rest', h1, h2, h3, h1', h2', h3', hR⟩

/-- Whether only values of the keyword `k` differ. -/
def changedB (k : Str) : List Line → List Line → Bool
  | [], [] => true
  | l :: a, l' :: b => (l == l' || l.head? == some k && l'.head? == some k && 1 < l'.length && l'.all fun s => s.all xmlChar) && changedB k a b
  | _, _ => false

theorem changedB_iff {k : Str} : ∀ {a b : List Line}, changedB k a b = true → List.Forall₂ (Changed (· = k)) a b
  | [], [], _ => .nil
  | [], _ :: _, h => by cases h
  | _ :: _, [], h => by cases h
  | l :: a, l' :: b, h => by
    simp only [changedB, Bool.and_eq_true, Bool.or_eq_true, beq_iff_eq, decide_eq_true_eq, List.all_eq_true] at h
    refine .cons ?_ (changedB_iff h.2)
    rcases h.1 with rfl | ⟨⟨⟨h1, h2⟩, h3⟩, h4⟩
    · exact .same _
    · cases l with
      | nil => cases h1
      | cons x r =>
        cases l' with
        | nil => cases h2
        | cons y r' =>
          cases h1
          cases h2
          refine .value rfl ?_ fun s hs => h4 s (List.mem_cons_of_mem _ hs)
          rintro rfl
          simp at h3

def parsed (t : Str) : List Line := (splitChar '\n' t).filterMap parseLine

theorem changed_of_parsed {k t t' : Str} (h : (parsed t).head? = (parsed t').head? ∧ parsed t ≠ [] ∧
    changedB k (parsed t).tail (parsed t').tail = true) : LineByLine (Changed (· = k)) t t' := by
  obtain ⟨h1, h2, h3⟩ := h
  cases hp : parsed t with
  | nil => exact absurd hp h2
  | cons f r =>
    cases hp' : parsed t' with
    | nil => rw [hp, hp'] at h1; cases h1
    | cons f' r' =>
      rw [hp, hp'] at h1
      rw [hp, hp'] at h3
      cases h1
      exact lineByLine_of_lines hp hp' (changedB_iff h3)

/-- The class of the object a text was read as. -/
def readCls : Except PyErr Val → Option Cls
  | .ok (.obj c _) => some c
  | _ => none

theorem readCls_obj {x : Except PyErr Val} {c : Cls} (h : readCls x = some c) : ∃ vs, x = .ok (.obj c vs) := by
  unfold readCls at h
  split at h
  · cases h; exact ⟨_, rfl⟩
  · cases h

theorem not_read {x : Except PyErr Val} (h : x.toOption.isNone = true) : ¬ ∃ v, x = .ok v := by
  rintro ⟨v, rfl⟩
  cases h

end Ndm
