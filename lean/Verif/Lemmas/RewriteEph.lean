import Verif.SpecComplete
import Verif.Lemmas.Rewrite

/-! Ephemerides, tracking data and attitude ephemerides stated by any text without comments are well-formed. -/

namespace Ndm

theorem keys_noComment {a b : List Line} (hp : (a.map Line.key).Perm (b.map Line.key)) (h : ∀ l ∈ b, LineFacts l) :
    ∀ l ∈ a, l.key ≠ py "COMMENT" := by
  intro l hl
  obtain ⟨m, hm, e⟩ := List.mem_map.mp (hp.mem_iff.mp (List.mem_map_of_mem (f := Line.key) hl))
  rw [← e]
  exact (h m hm).1

theorem keyBlock_again {c : Cls} {v : Val} {ls : List Line} (h : KeyBlockOf Spelled c v ls) (hl : ∀ l ∈ ls, LineFacts l) :
    ∃ ls', KeyBlock c v ls' ∧ (ls'.map Line.key).Perm (ls.map Line.key) := by
  cases h with
  | mk hk hne hlast =>
    obtain ⟨ls', hw, hp⟩ := spelled_written hk hl
    refine ⟨ls', .mk hw ?_ ?_, hp⟩
    · rintro rfl
      exact hne (List.length_eq_zero_iff.mp (by simpa using hp.length_eq.symm))
    · intro he
      cases hg : ls'.getLast? with
      | none => rw [hg] at he; cases he
      | some l =>
        rw [hg] at he
        exact keys_noComment hp hl l (List.mem_of_getLast? hg) (Option.some.inj he)

theorem each_again {P Q : Val → List Line → Prop} {xs : List Val} {ls : List Line} (h : Each P xs ls) (hl : ∀ l ∈ ls, LineFacts l)
    (H : ∀ x ∈ xs, ∀ l, P x l → (∀ m ∈ l, LineFacts m) → ∃ l', Q x l') : ∃ ls', Each Q xs ls' := by
  induction h with
  | nil => exact ⟨_, .nil⟩
  | cons hp _ ih =>
    obtain ⟨l', hq⟩ := H _ List.mem_cons_self _ hp fun m hm => hl m (List.mem_append_left _ hm)
    obtain ⟨ls', hr⟩ := ih (fun m hm => hl m (List.mem_append_right _ hm)) fun x hx => H x (List.mem_cons_of_mem _ hx)
    exact ⟨_, .cons hq hr⟩

theorem noTexts {texts : List Str} {ls : List Line} (hl : ∀ l ∈ texts.map (fun t => [py "COMMENT", t]) ++ ls, LineFacts l) : texts = [] := by
  cases texts with
  | nil => rfl
  | cons t ts => exact absurd rfl (hl [py "COMMENT", t] (by simp)).1

/-! ## A test for complete data -/

mutual
/-- The parts of an object. -/
def Val.parts : Val → List Val
  | .obj c vs => .obj c vs :: partsVars vs
  | .list xs => .list xs :: partsList xs
  | v => [v]
def partsVars : List (Str × Val) → List Val
  | [] => []
  | (_, v) :: r => v.parts ++ partsVars r
def partsList : List Val → List Val
  | [] => []
  | v :: r => v.parts ++ partsList r
end

theorem partsVars_mem {vs : List (Str × Val)} {w : Val} {p : Str × Val} (hp : p ∈ vs) (h : w ∈ p.2.parts) : w ∈ partsVars vs := by
  induction vs with
  | nil => cases hp
  | cons q r ih =>
    obtain ⟨n, x⟩ := q
    rw [partsVars]
    rcases List.mem_cons.mp hp with rfl | hp
    · exact List.mem_append_left _ h
    · exact List.mem_append_right _ (ih hp)

theorem partsList_mem {xs : List Val} {w x : Val} (hp : x ∈ xs) (h : w ∈ x.parts) : w ∈ partsList xs := by
  induction xs with
  | nil => cases hp
  | cons y r ih =>
    rw [partsList]
    rcases List.mem_cons.mp hp with rfl | hp
    · exact List.mem_append_left _ h
    · exact List.mem_append_right _ (ih hp)

theorem within_parts {w v : Val} (h : Within w v) : w ∈ v.parts := by
  induction h with
  | self => cases w <;> simp [Val.parts]
  | field hm _ ih => rw [Val.parts]; exact List.mem_cons_of_mem _ (partsVars_mem hm ih)
  | item hm _ ih => rw [Val.parts]; exact List.mem_cons_of_mem _ (partsList_mem hm ih)

def undatedTextB (s : Str) : Bool :=
  match words s with
  | w :: _ => !isNumeric (w.take 4) || (match w[4]? with | some c => c != '-' | none => false)
  | [] => false

/-- A test for `CompleteData`. -/
def completeB (v : Val) : Bool := v.parts.all fun w => match w with
  | .obj .StateVectorAccType ws => ws.any fun p => p.1 == py "z_dot" && (match p.2 with | .none => false | _ => true)
  | .obj .OemCovarianceMatrixType ws => (partsVars ws).all fun x => match x with
    | .dec (.fin ..) => true
    | .dec _ => false
    | _ => true
  | .obj .TrackingDataObservationType ws => (ws.any fun p => p.1 != py "epoch" && (match p.2 with | .dec _ => true | _ => false)) &&
      ws.all fun p => p.1 != py "epoch" || (match p.2 with | .str e => decide (e.length < 30) | _ => true)
  | .obj .TdmMetadata ws => (ws.any fun p => p.1 == py "time_system" && (match p.2 with | .enum .TimeSystemType _ => true | _ => false)) &&
      ws.all fun p => !(p.1 == py "track_id" || p.1 == py "data_types") ||
        (match p.2 with | .none => true | .str s => undatedTextB s | _ => false)
  | _ => true

theorem complete_of_b {v : Val} (h : completeB v = true) : CompleteData v := by
  have hp := fun w (hw : Within w v) => List.all_eq_true.mp h w (within_parts hw)
  refine ⟨fun ws hw => ?_, fun ws hw d hd => ?_, fun ws hw => ?_, fun ws e hw he => ?_, fun ws hw => ⟨?_, fun k hk x hx => ?_⟩⟩
  · obtain ⟨⟨n, x⟩, hm, hx⟩ := List.any_eq_true.mp (hp _ hw)
    simp only [Bool.and_eq_true, beq_iff_eq] at hx
    exact ⟨x, hx.1 ▸ hm, by rintro rfl; cases hx.2⟩
  · have := hp _ hw
    simp only at this
    cases hd with
    | field hm hd =>
      have := List.all_eq_true.mp this _ (partsVars_mem hm (within_parts hd))
      cases d <;> first | trivial | cases this
  · have := hp _ hw
    simp only [Bool.and_eq_true] at this
    obtain ⟨⟨n, x⟩, hm, hx⟩ := List.any_eq_true.mp this.1
    simp only [Bool.and_eq_true, bne_iff_ne] at hx
    refine ⟨(n, x), hm, hx.1, ?_⟩
    cases x <;> first | exact ⟨_, rfl⟩ | cases hx.2
  · have := hp _ hw
    simp only [Bool.and_eq_true] at this
    simpa using List.all_eq_true.mp this.2 _ he
  · have := hp _ hw
    simp only [Bool.and_eq_true] at this
    obtain ⟨⟨n, x⟩, hm, hx⟩ := List.any_eq_true.mp this.1
    simp only [Bool.and_eq_true, beq_iff_eq] at hx
    obtain ⟨rfl, hx⟩ := hx
    split at hx
    · rename_i s
      exact ⟨_, hm⟩
    · cases hx
  · have := hp _ hw
    simp only [Bool.and_eq_true] at this
    have := List.all_eq_true.mp this.2 _ hx
    have hk' : (k == py "track_id" || k == py "data_types") = true := by
      simp only [List.mem_cons, List.not_mem_nil, or_false] at hk
      rcases hk with rfl | rfl <;> decide
    simp only [hk', Bool.not_true, Bool.false_or] at this
    split at this
    · exact .inl rfl
    · rename_i s
      refine .inr ⟨s, rfl, ?_⟩
      unfold undatedTextB at this
      split at this
      · rename_i w ws' hw'
        refine ⟨_, _, [], w, ws', rfl, hw', ?_⟩
        simp only [Bool.or_eq_true, Bool.not_eq_true'] at this
        rcases this with h | h
        · exact .inl h
        · split at h
          · rename_i c hc
            exact .inr ⟨c, hc, by simpa using h⟩
          · cases h
      · cases this
    · cases this

/-! ## Attitude ephemerides -/

theorem plain_plain (d : Dec) : d.plain.plain = d.plain := by
  cases d with
  | fin neg coef exp =>
    by_cases h : exp > 0
    · simp [Dec.plain, h]
    · simp [Dec.plain, h]
  | _ => rfl

theorem attitude_again {D : AttitudeDecl} {v : Val} {l : List Line} (h : AttitudeRead D v l) : ∃ l', AttitudeState D v l' := by
  cases h with
  | mk h1 h2 h3 h4 =>
    refine ⟨_, .mk h1 h2 ?_ h4⟩
    intro d hd
    obtain ⟨d', -, rfl⟩ := List.mem_map.mp hd
    exact plain_plain d'

theorem head_date {e : Str} (h : DateText e) (r : Str) : e ++ r ≠ py "COMMENT" := by
  obtain ⟨a, b, c, d, r', rfl, hd⟩ := h.year
  intro he
  have : a = 'C' := by
    exact (List.cons.inj he).1
  subst this
  exact absurd (hd 'C' List.mem_cons_self) (by decide)

theorem joined_key {e : Str} (h : DateText e) (ts : List Str) : Line.key [joinWith (py "  ") (e :: ts)] ≠ py "COMMENT" := by
  cases ts with
  | nil =>
    have := head_date h []
    rwa [List.append_nil] at this
  | cons t ts =>
    show e ++ py "  " ++ joinWith (py "  ") (t :: ts) ≠ py "COMMENT"
    rw [List.append_assoc]
    exact head_date h _

theorem aemSegments_again {segs : List Val} {ls : List Line} (h : AemSegmentsOf Spelled AttitudeRead segs ls)
    (hl : ∀ l ∈ ls, LineFacts l) : ∃ ls', AemSegments AttitudeState segs ls' := by
  induction h with
  | nil => exact ⟨_, .nil⟩
  | @cons D m lm d ld segs ls hm hD hd _ hcov ih =>
    obtain ⟨lm', hm', -⟩ := keyBlock_again hm fun l h => hl l (by simp [h])
    obtain ⟨ls', hs'⟩ := ih fun l h => hl l (by simp [h])
    cases hd with
    | @mk texts sts lo ht1 ht2 hne he =>
      have hte : texts = [] := noTexts (ls := lo) fun l h => hl l
        (List.mem_append_left _ (List.mem_append_right _ h))
      subst hte
      obtain ⟨lo', he'⟩ := each_again (Q := AttitudeState D) he (fun l h => hl l (by simp [h])) fun x _ l hx _ => attitude_again hx
      refine ⟨_, .cons hm' hD (.mk (texts := []) (by simp) (by simp) hne he') hs' ?_⟩
      intro hh
      exfalso
      cases he' with
      | nil => exact hne rfl
      | cons hq _ =>
        cases hq with
        | mk h1 =>
          simp only [List.map_nil, List.nil_append, List.cons_append, List.head?_cons, Option.map_some, Option.some.injEq] at hh
          exact joined_key h1 _ hh

/-! ## Orbit ephemerides -/

theorem numbered_length {ds : List Dec} {x : Val} (h : (py "z_dot", x) ∈ numbered stateAttrs ds) (hx : x ≠ .none) : 6 ≤ ds.length := by
  match ds with
  | [] | [_] | [_, _] | [_, _, _] | [_, _, _, _] | [_, _, _, _, _] =>
    exfalso
    simp only [numbered, stateAttrs, List.mem_cons, Prod.mk.injEq, List.not_mem_nil, or_false] at h
    repeat' (rcases h with ⟨h, h'⟩ | h)
    all_goals first
      | exact absurd h' hx
      | exact absurd h (by decide)
      | exact absurd h.1 (by decide)
  | _ :: _ :: _ :: _ :: _ :: _ :: _ => simp

theorem numbered_mem : ∀ (as : List (Str × Cls)) (ds : List Dec), ds.length ≤ as.length →
    ∀ d ∈ ds, ∃ p ∈ numbered as ds, Within (.dec d) p.2
  | [], ds, h, d, hd => by
    rw [List.length_eq_zero_iff.mp (Nat.le_zero.mp h)] at hd
    cases hd
  | (a, c) :: as, [], _, d, hd => by cases hd
  | (a, c) :: as, d' :: ds, h, d, hd => by
    rcases List.mem_cons.mp hd with rfl | hd
    · exact ⟨(a, number c d), List.mem_cons_self, .field List.mem_cons_self .self⟩
    · obtain ⟨p, hp, hw⟩ := numbered_mem as ds (by simpa using h) d hd
      exact ⟨p, List.mem_cons_of_mem _ hp, hw⟩

theorem state_again {v : Val} {l : List Line} (h : StateText v l) (hv : CompleteStates v) : ∃ l', StateVector v l' := by
  cases h with
  | mk h1 h2 h3 h4 h5 =>
    obtain ⟨x, hx, hn⟩ := hv _ .self
    refine ⟨_, .mk h1 (numbered_length (x := x) ?_ hn) h5⟩
    rcases List.mem_cons.mp hx with h | h
    · exact absurd (Prod.mk.inj h).1 (by decide)
    · exact h

theorem covariance_again {v : Val} {l : List Line} (h : CovarianceText v l) (hl : ∀ m ∈ l, LineFacts m) (hv : FiniteNumbers v) :
    ∃ l', Covariance v l' := by
  cases h with
  | @mk e rows ts ds h1 h2 h3 h4 =>
    obtain ⟨ht, hn, hu⟩ := (hl _ List.mem_cons_self).2 _ _ rfl
    refine ⟨_, .mk ⟨ht, hn, h1, hu⟩ h3 ?_⟩
    intro d hd
    obtain ⟨⟨n, x⟩, hp, hw⟩ := numbered_mem covarianceAttrs ds (by rw [h3]; decide) d hd
    exact hv d (.field (List.mem_cons_of_mem _ (List.mem_cons_of_mem _ (List.mem_cons_of_mem _ hp))) hw)

theorem covariance_obj {v : Val} {l : List Line} (h : CovarianceText v l) : ∃ ws, v = .obj .OemCovarianceMatrixType ws := by
  cases h
  exact ⟨_, rfl⟩

theorem oemSegments_again {segs : List Val} {ls : List Line} (h : OemSegmentsOf Spelled StateText CovarianceText segs ls)
    (hl : ∀ l ∈ ls, LineFacts l) (hs : ∀ s ∈ segs, CompleteStates s)
    (hf : ∀ s ∈ segs, ∀ ws, Within (.obj .OemCovarianceMatrixType ws) s → FiniteNumbers (.obj .OemCovarianceMatrixType ws)) :
    ∃ ls', OemSegments segs ls' ∧ ls'.head?.map Line.key ≠ some (py "COMMENT") := by
  induction h with
  | nil => exact ⟨_, .nil, by simp⟩
  | @cons m lm d ld segs ls hm hd _ _ _ ih =>
    obtain ⟨lm', hm', hp⟩ := keyBlock_again hm fun l h => hl l (by simp [h])
    obtain ⟨ls', hs', hh'⟩ := ih (fun l h => hl l (by simp [h])) (fun s h => hs s (List.mem_cons_of_mem _ h))
      (fun s h => hf s (List.mem_cons_of_mem _ h))
    have hnc := keys_noComment hp fun l h => hl l (by simp [h])
    have hs0 := hs _ List.mem_cons_self
    have hf0 := hf _ List.mem_cons_self
    cases hd with
    | @mk texts svs lsv cms lcm ht1 ht2 hne he1 he2 =>
      have hte : texts = [] := noTexts (ls := lsv ++ lcm) fun l h => hl l
        (List.mem_append_left _ (List.mem_append_right _ h))
      subst hte
      obtain ⟨lsv', he1'⟩ := each_again (Q := StateVector) he1 (fun l h => hl l (by simp [h])) fun x hx l hxl _ =>
        state_again hxl fun ws hw => hs0 ws (.field (List.mem_cons_of_mem _ List.mem_cons_self) (.field (List.mem_cons_of_mem _ List.mem_cons_self) (.item hx hw)))
      obtain ⟨lcm', he2'⟩ := each_again (Q := Covariance) he2 (fun l h => hl l (by simp [h])) fun x hx l hxl hlx => by
        obtain ⟨ws, rfl⟩ := covariance_obj hxl
        exact covariance_again hxl hlx (hf0 ws (.field (List.mem_cons_of_mem _ List.mem_cons_self)
          (.field (List.mem_cons_of_mem _ (List.mem_cons_of_mem _ List.mem_cons_self)) (.item hx .self))))
      refine ⟨_, .cons hm' (.mk (texts := []) (by simp) (by simp) hne he1' he2') hs' ?_ fun h => absurd h hh', ?_⟩
      · intro hh
        exfalso
        cases he1' with
        | nil => exact hne rfl
        | cons hq _ =>
          cases hq with
          | mk h1 =>
            simp only [List.map_nil, List.nil_append, List.cons_append, List.head?_cons, Option.map_some, Option.some.injEq] at hh
            exact joined_key h1 _ hh
      · cases hm' with
        | mk _ hne' _ =>
          cases lm' with
          | nil => exact absurd rfl hne'
          | cons a lm' =>
            simp only [List.cons_append, List.head?_cons, Option.map_some, ne_eq, Option.some.injEq]
            exact hnc a List.mem_cons_self

/-! ## Tracking data -/

theorem observation_again {v : Val} {l : List Line} (h : Observed v l) (hn : NumericObservations v) (hs : ShortEpochs v) :
    ∃ l', Observation v l' ∧ l'.map Line.key = l.map Line.key := by
  cases h with
  | @mk e s t f x h1 h2 h3 h4 h5 =>
    obtain ⟨⟨n, y⟩, hp, hne, d, rfl⟩ := hn _ .self
    obtain ⟨g, hg, he⟩ := List.mem_map.mp hp
    obtain ⟨rfl, hy⟩ := Prod.mk.inj he
    rw [if_neg hne] at hy
    split at hy
    · subst hy
      have hty : f.ty = .dec := by cases h5; assumption
      refine ⟨_, .mk h1 (hs _ e .self ?_) h3 hty, rfl⟩
      have : (Cls.keyAttrs .TrackingDataObservationType).any (fun g => g.name == py "epoch") = true := by decide +kernel
      obtain ⟨g', hg', hge⟩ := List.any_eq_true.mp this
      have hge : g'.name = py "epoch" := by simpa using hge
      exact List.mem_map.mpr ⟨g', hg', by rw [if_pos hge, hge]⟩
    · cases hy

theorem observations_again {xs : List Val} {ls : List Line} (h : Each Observed xs ls)
    (H : ∀ x ∈ xs, NumericObservations x ∧ ShortEpochs x) : ∃ ls', Each Observation xs ls' ∧ ls'.map Line.key = ls.map Line.key := by
  induction h with
  | nil => exact ⟨_, .nil, rfl⟩
  | cons hp _ ih =>
    obtain ⟨l', hq, e⟩ := observation_again hp (H _ List.mem_cons_self).1 (H _ List.mem_cons_self).2
    obtain ⟨ls', hr, e'⟩ := ih fun x hx => H x (List.mem_cons_of_mem _ hx)
    exact ⟨_, .cons hq hr, by rw [List.map_append, List.map_append, e, e']⟩

/-- The line of an attribute that is not a date. -/
theorem undated_line {f : Field} {v : Val} {l : Line} (h : KeyVal f v l) (ht : f.ty = .str) (hn : NoDate v) : Undated l := by
  cases h with
  | str =>
    rcases hn with h | ⟨s, h, k, s', r, w, ws, e, hw, hd⟩
    · cases h
    · cases h
      cases e
      exact ⟨_, _, [], w, ws, rfl, hw, hd⟩
  | int h => rw [ht] at h; cases h
  | dec h => rw [ht] at h; cases h
  | enum h => rw [ht] at h; cases h
  | number h => rw [ht] at h; cases h
  | quantity h => rw [ht] at h; cases h

theorem timeSystems_undated : (match Cls.TimeSystemType.members with
    | some ms => ms.all fun p => match words p.2 with
      | w :: _ => !isNumeric (w.take 4)
      | [] => false
    | none => false) = true := by decide +kernel

theorem nodup_value {kvs : List (Str × Val)} (h : (kvs.map (·.1)).Nodup) {k : Str} {x y : Val} (hx : (k, x) ∈ kvs) (hy : (k, y) ∈ kvs) :
    x = y := by
  have := (List.inj_on_of_nodup_map h) hx hy rfl
  exact (Prod.mk.inj this).2

theorem tdmHead {m : Val} {lm : List Line} (h : KeyBlock .TdmMetadata m lm) (hu : UndatedMetadata m)
    (hc : ∀ l ∈ lm, l.key ≠ py "COMMENT") : ∀ l, lm.head? = some l → Undated l := by
  cases h with
  | @mk kvs _ hk hne _ =>
    obtain ⟨⟨s, hts⟩, hd⟩ := hu _ .self
    obtain ⟨fs, hfs⟩ : ∃ fs, Cls.keyAttrs .TdmMetadata =
      ⟨py "comment", some (py "COMMENT"), .elem, .str, true, true⟩ :: ⟨py "track_id", some (py "TRACK_ID"), .elem, .str, false, true⟩ ::
      ⟨py "data_types", some (py "DATA_TYPES"), .elem, .str, false, true⟩ ::
      ⟨py "time_system", some (py "TIME_SYSTEM"), .elem, .cls .TimeSystemType, false, true⟩ :: fs := ⟨_, by rfl⟩
    have hnd : (kvs.map (·.1)).Nodup := by
      rw [goodKeys_names hk]
      decide +kernel
    unfold Written GoodKeys at hk
    rw [hfs] at hk
    have hl0 := hc
    cases hk with
    | absent h => cases h
    | value h => cases h
    | @comments _ _ texts vs ls _ _ _ hk =>
      have : texts = [] := by
        cases texts with
        | nil => rfl
        | cons t ts => exact absurd rfl (hc [py "COMMENT", t] (by simp))
      subst this
      cases hk with
      | comments h => cases h
      | value _ hv hk =>
        intro l hl
        cases hl
        exact undated_line hv rfl (hd _ List.mem_cons_self _ (List.mem_cons_of_mem _ List.mem_cons_self))
      | absent _ hk =>
        cases hk with
        | comments h => cases h
        | value _ hv hk =>
          intro l hl
          cases hl
          exact undated_line hv rfl (hd _ (List.mem_cons_of_mem _ List.mem_cons_self) _
            (List.mem_cons_of_mem _ (List.mem_cons_of_mem _ List.mem_cons_self)))
        | absent _ hk =>
          cases hk with
          | comments h => cases h
          | absent =>
            cases nodup_value hnd (k := py "time_system") (x := .none) (by simp) hts
          | @value _ _ x vs' l' ls' _ hv hk =>
            intro l hl
            cases hl
            have hx : x = .enum .TimeSystemType s := nodup_value hnd (k := py "time_system") (by simp) hts
            subst hx
            cases hv with
            | @enum _ ms mm _ _ hms hmem =>
              have := timeSystems_undated
              rw [hms] at this
              have := List.all_eq_true.mp this _ hmem
              simp only at this
              split at this
              · rename_i w ws hw
                exact ⟨_, _, [], w, ws, rfl, hw, .inl (by simpa using this)⟩
              · cases this

theorem tdmSegments_again {segs : List Val} {ls : List Line} (h : TdmSegmentsOf Spelled Observed segs ls)
    (hl : ∀ l ∈ ls, LineFacts l) (hs : ∀ s ∈ segs, NumericObservations s ∧ ShortEpochs s ∧ UndatedMetadata s) :
    ∃ ls', TdmSegments Observation segs ls' ∧ (ls'.map Line.key).Perm (ls.map Line.key) ∧ ∀ l, ls'.head? = some l → Undated l := by
  induction h with
  | nil => exact ⟨_, .nil, .refl _, by simp⟩
  | @cons m lm d ld segs ls hm hd _ hcov _ ih =>
    obtain ⟨lm', hm', hp⟩ := keyBlock_again hm fun l h => hl l (by simp [h])
    obtain ⟨ls', hs', hp', hh'⟩ := ih (fun l h => hl l (by simp [h])) (fun s h => hs s (List.mem_cons_of_mem _ h))
    have hnc := keys_noComment hp fun l h => hl l (by simp [h])
    obtain ⟨hn0, hs0, hu0⟩ := hs _ List.mem_cons_self
    cases hd with
    | @mk texts obs lo ht1 ht2 hne he =>
      have hte : texts = [] := noTexts (ls := lo) fun l h => hl l
        (List.mem_append_left _ (List.mem_append_right _ h))
      subst hte
      have hin : ∀ {w x}, x ∈ obs → Within w x → Within w (tdmSegment m (.obj .TdmData [(py "comment", .list ([].map .str)), (py "observation", .list obs)])) :=
        fun hx hw => .field (List.mem_cons_of_mem _ List.mem_cons_self) (.field (List.mem_cons_of_mem _ List.mem_cons_self) (.item hx hw))
      obtain ⟨lo', he', ek⟩ := observations_again he fun x hx =>
        ⟨fun ws hw => hn0 ws (hin hx hw), fun ws e hw => hs0 ws e (hin hx hw)⟩
      have hne' : lm' ≠ [] := by cases hm'; assumption
      simp only [List.map_nil, List.nil_append] at hcov hl
      refine ⟨_, .cons hm' (.mk (texts := []) (by simp) (by simp) hne he') hs' ?_ hh', ?_, ?_⟩
      · rcases hcov with hcov | ⟨-, hnd⟩
        · left
          intro l hl' hk hkm
          obtain ⟨l₁, h₁, e₁⟩ := List.mem_map.mp (hp'.mem_iff.mp (List.mem_map_of_mem (f := Line.key) hl'))
          obtain ⟨l₂, h₂, e₂⟩ := hcov l₁ h₁ (by rw [e₁]; exact hk) (by rw [e₁]; exact hkm)
          obtain ⟨l₃, h₃, e₃⟩ := List.mem_map.mp (hp.mem_iff.mpr (List.mem_map_of_mem (f := Line.key) h₂))
          exact ⟨l₃, h₃, by rw [e₃, e₂, e₁]⟩
        · right
          simp only [List.map_nil, List.nil_append, ek]
          exact ⟨keys_noComment (b := lo) (by rw [ek]) fun l h => hl l (by simp [h]), hnd⟩
      · simp only [List.map_nil, List.nil_append, List.map_append, ek]
        exact (hp.append (.refl _)).append hp'
      · intro l hl'
        rw [List.append_assoc, List.head?_append_of_ne_nil _ hne'] at hl'
        exact tdmHead hm' (fun ws hw => hu0 ws (.field List.mem_cons_self hw)) hnc l hl'

end Ndm
